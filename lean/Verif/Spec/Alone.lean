/-
Stand-alone assets that come back, and random data for electric vehicles: vocabulary of C67 and C68.
-/
import Verif.Spec.Evs
import Verif.Model.History
import Verif.Model.DataGen

namespace EPL

/-- What a vehicle fleet has to be like: vehicles are there or not, they ask for a non-negative energy the spill charger can deliver within one interval, they do
not gain energy while charging, there are chargers, and chargers have non-negative powers. -/
structure EvArgs.Sane (a : EvArgs) : Prop where
  presence : ∀ row ∈ a.chargeEvents, ∀ x ∈ row, x = 0 ∨ x = 1
  capacities : ∀ q ∈ a.capacities, 0 ≤ q ∧ q ≤ 10000 * a.freqMins / 60
  efficiency : a.efficiency ≤ 1
  chargers : a.powers ≠ []
  powers : ∀ q ∈ a.powers, 0 ≤ q
  freq : 0 ≤ a.freqMins

/-- The energy asked for by the vehicles plugged in during interval `i`. -/
def EvArgs.pluggedDemand (a : EvArgs) (i : Nat) : ℚ :=
  sumTo a.capacities.length (fun e => if a.present i e = 1 then a.capacities.getD e 0 else 0)

/-- What is asked of the site data and the solver in all cases: no custom constraints and no extra data, non-negative limits and loads, an interval at least, a
solver that answers feasible programs with a feasible point, and no wish to fail on spill. -/
structure Calm (s : Site) (args : SiteArgs) (flags : Flags) (S : Solver) : Prop where
  constraints : args.constraints = []
  kwargs : args.kwargs = []
  importLimit : 0 ≤ args.importLimit
  exportLimit : 0 ≤ args.exportLimit
  loads : ∀ x ∈ s.data.electricLoad ++ s.data.htLoad ++ s.data.ltLoad ++ s.data.ltGeneration, 0 ≤ x
  sound : S.Sound
  answers : ∀ p, (∃ σ, p.Feasible σ) → (S p).status = "Optimal"
  spill : flags.failOnSpill = false

/-- The arguments `generate_random_ev_input_data` accepts: sizes and deviations are not negative, the seed is one of numpy's, and if there are charge events then
there are four intervals at least and `charge_length` is two at least. -/
structure GenArgs.Valid (a : GenArgs) : Prop where
  seed : ∀ k ∈ a.seed, 0 ≤ k ∧ k < 4294967296
  sizes : 0 ≤ a.idxLength ∧ 0 ≤ a.nChargers ∧ 0 ≤ a.nChargeEvents
  deviations : 0 ≤ a.pricesStd ∧ 0 ≤ a.intensityStd ∧ 0 ≤ a.normalStd
  room : 0 < a.nChargeEvents → 4 ≤ a.idxLength ∧ 2 ≤ a.chargeLength

/-- A row of the matrix: the vehicle is plugged in for one stretch of intervals, shorter than `charge_length`, that ends two intervals before the end at the
latest. -/
def Stretch (a : GenArgs) (row : List ℚ) : Prop :=
  ∃ start length : Nat, 1 ≤ length ∧ (length : Int) < a.chargeLength ∧ (start + length + 2 : Int) ≤ a.idxLength ∧ length + 3 ≤ a.idxLength ∧
    (row.length : Int) = a.idxLength ∧ ∀ t < row.length, row[t]? = some (if start ≤ t ∧ t < start + length then 1 else 0)

/-- What a user can rely on in the generated data, whatever is drawn. -/
structure GenData.Fits (g : GenData) (a : GenArgs) : Prop where
  prices : (g.electricityPrices.length : Int) = a.idxLength
  intensities : (g.electricityCarbonIntensities.length : Int) = a.idxLength
  chargers : (g.chargersPower.length : Int) = a.nChargers ∧ ∀ p ∈ g.chargersPower, ∃ k : Int, 10 ≤ k ∧ k ≤ 99 ∧ p = k
  capacities : (g.capacities.length : Int) = a.nChargeEvents ∧ ∀ q ∈ g.capacities, 0 ≤ q
  events : (g.chargeEvents.length : Int) = a.nChargeEvents ∧ ∀ row ∈ g.chargeEvents, Stretch a row

/-- `epl.EVs(**ds, charge_event_efficiency=..., charger_turndown=..., freq_mins=...)`: the arguments of the asset. -/
def GenData.evArgs (g : GenData) (efficiency turndown freqMins : ℚ) : EvArgs where
  chargeEvents := g.chargeEvents
  powers := g.chargersPower
  capacities := g.capacities
  efficiency := efficiency
  turndown := turndown
  name := "evs"
  freqMins := freqMins

/-- and those of its site -/
def GenData.siteArgs (g : GenData) : SiteArgs where
  raw := { electricityPrices := .array (g.electricityPrices.map some), electricityCarbonIntensities := .array (g.electricityCarbonIntensities.map some) }

end EPL
