/-
The grid connection at the margin: room for one more MWh and what it costs.
-/
import Verif.Spec.Dispatch
import Verif.Spec.Names
import Verif.Spec.Limit

namespace EPL

/-- A site without custom constraints, with names that do not clash, ordinary vehicles and CHPs that convert gas. -/
structure Site.Ordinary (s : Site) : Prop where
  clear : s.ClearNames
  named : ∀ a ∈ s.assets, a.WellNamed
  constraints : s.constraints = []
  evs : s.PlainEvs
  chps : s.ChpsConvert
  freq : 0 ≤ s.freqMins

/-- The grid connection can deliver more in interval `i`: the site exports, or imports less than its limit. -/
def Site.CanTake (s : Site) (V : String → Nat → ℚ) (i : Nat) : Prop :=
  0 < V "site-export_power_mwh" i ∨ V "site-import_power_mwh" i < s.importLimit * s.freqMins / 60

/-- The grid connection can absorb more in interval `i`: the site imports, or exports less than its limit. -/
def Site.CanGive (s : Site) (V : String → Nat → ℚ) (i : Nat) : Prop :=
  0 < V "site-import_power_mwh" i ∨ V "site-export_power_mwh" i < s.exportLimit * s.freqMins / 60

/-- What one more MWh costs in interval `i`: the export it replaces, or the price of import. -/
def Site.takePrice (s : Site) (V : String → Nat → ℚ) (i : Nat) : ℚ :=
  if 0 < V "site-export_power_mwh" i then s.data.exportElectricityPrices.getD i 0 else s.data.electricityPrices.getD i 0

/-- What one more MWh is worth in interval `i`: the import it replaces, or the price of export. -/
def Site.givePrice (s : Site) (V : String → Nat → ℚ) (i : Nat) : ℚ :=
  if 0 < V "site-import_power_mwh" i then s.data.electricityPrices.getD i 0 else s.data.exportElectricityPrices.getD i 0

/-- The battery can take more in interval `a` and give it back in interval `b`: it charges below its limit in `a`, discharges below its limit in `b`, does
not do the opposite there, and between the two it is not full (or, if `b` comes first, not empty). -/
structure BatteryCfg.CanMove (c : BatteryCfg) (s : Site) (V : String → Nat → ℚ) (a b : Nat) : Prop where
  charge : V (c.name ++ "-electric_charge_mwh") a < min (c.chargePower * s.freqMins / 60) c.capacity
  discharge : V (c.name ++ "-electric_discharge_mwh") b < min (c.dischargePower * s.freqMins / 60) c.capacity
  noDischarge : V (c.name ++ "-electric_discharge_mwh") a = 0
  noCharge : V (c.name ++ "-electric_charge_mwh") b = 0
  notFull : ∀ k, a ≤ k → k < b → V (c.name ++ "-electric_final_charge_mwh") k < c.capacity
  notEmpty : ∀ k, b ≤ k → k < a → 0 < V (c.name ++ "-electric_final_charge_mwh") k

/-- The battery moves energy from interval `a` to interval `b`: it charges in `a`, discharges in `b`, and between the two it is not empty (or, if `b` comes
first, not full). -/
structure BatteryCfg.Moves (c : BatteryCfg) (V : String → Nat → ℚ) (a b : Nat) : Prop where
  charge : 0 < V (c.name ++ "-electric_charge_mwh") a
  discharge : 0 < V (c.name ++ "-electric_discharge_mwh") b
  notEmpty : ∀ k, a ≤ k → k < b → 0 < V (c.name ++ "-electric_final_charge_mwh") k
  notFull : ∀ k, b ≤ k → k < a → V (c.name ++ "-electric_final_charge_mwh") k < c.capacity

end EPL
