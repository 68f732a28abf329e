/-
Assets that can stand still: vocabulary of C55 and C57.
-/
import Verif.Spec.Cost
import Verif.Spec.Run
import Verif.Spec.EvVars

namespace EPL

/-- The asset can do nothing at all over `n` intervals of a frequency: a battery that starts and ends with the same charge within its capacity, a boiler
without a minimum, a CHP or heat pump, a renewable generator that may be switched off, a spill or a valve; powers are non-negative.  EVs cannot:
their charge events have to be served. -/
def Asset.CanIdle (f : Freq) (n : Nat) : Asset → Prop
  | .battery c => c.finalCharge = c.initialCharge ∧ 0 ≤ c.initialCharge ∧ c.initialCharge ≤ c.capacity ∧ 0 ≤ f.mwToMwh c.chargePower ∧
      0 ≤ f.mwToMwh c.dischargePower
  | .boiler c => f.mwToMwh c.heatMin = 0 ∧ 0 ≤ f.mwToMwh c.heatMax ∧ 0 < c.efficiency
  | .chp c => 0 ≤ f.mwToMwh c.powerMax
  | .evs _ => False
  | .heatPump c => 0 ≤ f.mwToMwh c.power
  | .renewable c => c.isArray = true ∧ c.generation.length = n ∧ c.lowerBoundPct = 0 ∧ ∀ g ∈ c.generation, 0 ≤ g
  | .spill _ => True
  | .valve _ => True

/-- The spill charger of an EVs asset can serve every charge event over `n` intervals: there are charge events and chargers, the matrix has an entry for
every charge event in every interval, none of them negative; no charger has a negative power; the charge events have different names; each one asks for
a non-negative energy that the spill charger can deliver in one interval, does not gain energy while charging, and is plugged in at some time unless it asks
for nothing. -/
structure EvsCfg.Served (c : EvsCfg) (f : Freq) (n : Nat) : Prop where
  horizon : 0 < n
  events : c.events ≠ []
  chargers : c.chargers ≠ []
  rows : ∀ i < n, ∃ row, c.chargeEvents[i]? = some row ∧ c.events.length ≤ row.length
  present : ∀ i < n, ∀ e < c.events.length, 0 ≤ c.present i e
  power : ∀ ch ∈ c.chargers, 0 ≤ f.mwToMwh ch.powerMax
  names : (c.events.map ChargeEventCfg.name).Nodup
  spill : ∃ ch, c.spillChargers = [ch] ∧ f.mwToMwh ch.powerMin = 0 ∧ ∀ ev ∈ c.events, ev.capacity ≤ f.mwToMwh ch.powerMax
  plugged : ∀ (e : Nat) (ev : ChargeEventCfg), c.events[e]? = some ev →
    0 ≤ ev.capacity ∧ ev.efficiency ≤ 1 ∧ (ev.capacity = 0 ∨ ∃ i < n, c.present i e = 1)

/-- The asset can hold one operating point over `n` intervals: it can idle, or it is a boiler that may run at its minimum, or a renewable generator that may
run at its lower bound, or its spill charger serves its charge events. -/
def Asset.CanRest (f : Freq) (n : Nat) : Asset → Prop
  | .boiler c => 0 ≤ f.mwToMwh c.heatMin ∧ f.mwToMwh c.heatMin ≤ f.mwToMwh c.heatMax ∧ 0 < c.efficiency
  | .renewable c => c.isArray = true ∧ c.generation.length = n ∧ 0 ≤ c.lowerBoundPct ∧ c.lowerBoundPct ≤ 1 ∧ ∀ g ∈ c.generation, 0 ≤ g
  | .evs c => c.Served f n
  | a => a.CanIdle f n

/-- Charge event `e` has been plugged in before interval `i`. -/
def EvsCfg.seen (c : EvsCfg) (i e : Nat) : Prop := ∃ j < i, c.present j e = 1

instance (c : EvsCfg) (i e : Nat) : Decidable (c.seen i e) := inferInstanceAs (Decidable (∃ j < i, c.present j e = 1))

/-- Interval `i` is the first one in which charge event `e` is plugged in. -/
def EvsCfg.first (c : EvsCfg) (i e : Nat) : Prop := c.present i e = 1 ∧ ¬ c.seen i e

instance (c : EvsCfg) (i e : Nat) : Decidable (c.first i e) := inferInstanceAs (Decidable (_ ∧ _))

/-- What charge event `e` asks for. -/
def EvsCfg.asked (c : EvsCfg) (e : Nat) : ℚ := match c.events[e]? with
  | some ev => ev.capacity
  | none => 0

/-- The electricity an asset takes in interval `i` when it rests: renewable generators give their lower bound, vehicles are charged on arrival. -/
def Asset.restDemand (i : Nat) : Asset → ℚ
  | .renewable c => -(c.generation.getD i 0 * c.lowerBoundPct)
  | .evs c => c.sumEvents (fun e => if c.first i e then c.asked e else 0)
  | _ => 0

/-- The electricity a site takes from the grid in interval `i` when all assets rest (it exports when this is negative). -/
def Site.restDemand (s : Site) (i : Nat) : ℚ := s.data.electricLoad.getD i 0 + (s.assets.map (Asset.restDemand i)).sum

/-- Nobody asks for heat and no boiler has to run. -/
structure Site.NoHeat (s : Site) : Prop where
  loads : ∀ x ∈ s.data.htLoad ++ s.data.ltLoad ++ s.data.ltGeneration, x = 0
  boilers : ∀ c, Asset.boiler c ∈ s.assets → s.freq.mwToMwh c.heatMin = 0

/-- The flows of an asset in interval `i`: the energies and fuels that enter or leave it (not its stored charge and not its switches). -/
def Asset.flowVars (i : Nat) : Asset → List VarId
  | .battery c => [.asset c.name "electric_charge_mwh" i, .asset c.name "electric_discharge_mwh" i, .asset c.name "electric_loss_mwh" i]
  | .boiler c => [.asset c.name "high_temperature_generation_mwh" i, .asset c.name "gas_consumption_mwh" i]
  | .chp c => [.asset c.name "electric_generation_mwh" i, .asset c.name "gas_consumption_mwh" i, .asset c.name "high_temperature_generation_mwh" i,
      .asset c.name "low_temperature_generation_mwh" i]
  | .evs _ => []
  | .heatPump c => [.tagged "electric_load_mwh" i c.name, .tagged "low_temperature_load_mwh" i c.name, .tagged "high_temperature_generation_mwh" i c.name]
  | .renewable c => [.tagged "electric_generation_mwh" i c.name]
  | .spill c => [.asset c.name "electric_generation_mwh" i, .asset c.name "high_temperature_generation_mwh" i, .asset c.name "electric_load_mwh" i,
      .asset c.name "low_temperature_load_mwh" i]
  | .valve c => [.asset c.name "high_temperature_load_mwh" i, .asset c.name "low_temperature_generation_mwh" i]

/-- The second site is the first one with one more asset. -/
structure Site.Adds (s s' : Site) (a : Asset) : Prop where
  data : s'.data = s.data
  constraints : s'.constraints = s.constraints
  freqMins : s'.freqMins = s.freqMins
  importLimit : s'.importLimit = s.importLimit
  exportLimit : s'.exportLimit = s.exportLimit
  assets : ∃ before after, s.assets = before ++ after ∧ s'.assets = before ++ a :: after

end EPL
