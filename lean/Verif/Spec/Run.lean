/-
The vocabulary of the property theorems: what a user sees of one call of `Site.optimize`.
-/
import Verif.Model.History

namespace EPL

/-- The site came out of the `Site` constructor. -/
def Site.Constructed (s : Site) : Prop :=
  ∃ (assets : List Asset) (raw : RawSiteData) (freqMins il el : ℚ) (constraints : List Constraint)
    (kwargs : List (String × KwData)), Site.new assets raw freqMins il el constraints kwargs = .ok s

/-- Reading a results table: `V column row` is the number in that column and row, for every column of the table. -/
def Table.Reads (t : Table) (n : Nat) (V : String → Nat → ℚ) : Prop :=
  ∀ k ∈ t.columns, ∀ i < n, t.cell k i = some (V k i)

/-- A call of `Site.optimize` on a constructed site with a sound solver that returned a feasible result `r`, whose table
is read by `V`. -/
structure Run (s : Site) (objective : Objective) (flags : Flags) (S : Solver) (r : SimResult)
    (V : String → Nat → ℚ) : Prop where
  sound : S.Sound
  constructed : s.Constructed
  returned : s.optimize objective flags S = .ok r
  feasible : r.feasible = true
  reads : r.results.Reads s.data.n V

/-- A feasible answer to the program of a site: what any sound solver may return. -/
structure Answer (s : Site) (objective : Objective) (flags : Flags) (p : Prob) (σ : Assign) : Prop where
  program : ∃ iv, s.program objective flags = .ok (iv, p)
  feasible : p.Feasible σ

/-- The power limit `mw` of an interval as energy: `mw * freq_mins / 60`. -/
def Site.mwh (s : Site) (mw : ℚ) : ℚ := mw * s.freqMins / 60

/-- Asset names as the asset constructors enforce them; chargers and charge events are named by the `EVs` constructor.  A heat pump
may have any name, and the name "total" would clash with the totals of the results. -/
def Asset.WellNamed : Asset → Prop
  | .battery c => pyIn "battery" c.name = true
  | .boiler c => pyIn "boiler" c.name = true
  | .chp c => pyIn "chp" c.name = true
  | .evs c => pyIn "evs" c.name = true ∧
      c.chargers.map ChargerCfg.name = (List.range c.chargers.length).map (fun k => "charger-" ++ toString k) ∧
      c.spillChargers.map ChargerCfg.name = ["charger-spill-" ++ c.name] ∧
      c.events.map ChargeEventCfg.name = (List.range c.events.length).map (fun e => "charge-event-" ++ toString e)
  | .heatPump c => c.name ≠ "total"
  | .renewable c => pyIn "wind" c.name = true ∨ pyIn "solar" c.name = true ∨ pyIn "renewable-generator" c.name = true
  | .spill c => pyIn "spill" c.name = true
  | .valve c => pyIn "valve" c.name = true

instance (a : Asset) : Decidable a.WellNamed := by
  cases a <;> (simp only [Asset.WellNamed]; infer_instance)

/-- The asset came out of its constructor. -/
inductive Asset.Made : Asset → Prop
  | battery {power dischargePower capacity efficiency initial final name freqMins c} :
    Battery.new power dischargePower capacity efficiency initial final name freqMins = .ok c → Asset.Made (.battery c)
  | boiler {name heatMax heatMin efficiency c} : Boiler.new name heatMax heatMin efficiency = .ok c → Asset.Made (.boiler c)
  | chp {electricEfficiency powerMax powerMin htEfficiency ltEfficiency name freqMins c} :
    Chp.new electricEfficiency powerMax powerMin htEfficiency ltEfficiency name freqMins = .ok c → Asset.Made (.chp c)
  | evs {chargeEvents powers capacities efficiency turndown name freqMins c} :
    Evs.new chargeEvents powers capacities efficiency turndown name freqMins = .ok c → Asset.Made (.evs c)
  | heatPump {cop power name freqMins includeValve c} :
    HeatPump.new cop power name freqMins includeValve = .ok c → Asset.Made (.heatPump c)
  | renewable {gen lowerBoundPct name freqMins c} :
    Renewable.new gen lowerBoundPct name freqMins = .ok c → Asset.Made (.renewable c)
  | spill {name c} : Spill.new name = .ok c → Asset.Made (.spill c)
  | valve {name c} : Valve.new name = .ok c → Asset.Made (.valve c)

/-- The sum of some columns in one row. -/
def rowSum (V : String → Nat → ℚ) (cols : List String) (i : Nat) : ℚ := (cols.map (fun k => V k i)).sum

/-- The sum of a column over the rows. -/
def colSum (V : String → Nat → ℚ) (n : Nat) (k : String) : ℚ := ((List.range n).map (fun i => V k i)).sum

end EPL
