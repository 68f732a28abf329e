/-
The spill charger at the margin.
-/
import Verif.Spec.MarginEvs

namespace EPL

/-- The spill charger charges the vehicle of charge event `e` in interval `i`: the vehicle ends with more than it starts with and the chargers supply. -/
def EvArgs.Spills (a : EvArgs) (V : String → Nat → ℚ) (e i : Nat) : Prop :=
  V (a.eventCol e "initial_soc_mwh") i + a.efficiency * V (a.eventCol e "electric_charge_mwh") i - V (a.eventCol e "electric_discharge_mwh") i <
    V (a.eventCol e "final_soc_mwh") i

/-- A charger could do in interval `j` some of what the spill charger does for charge event `e` in interval `i`: between the two the vehicle is not empty (or,
if `j` comes first, not full). -/
structure EvArgs.CanSpare (a : EvArgs) (s : Site) (V : String → Nat → ℚ) (e i j : Nat) : Prop where
  spills : a.Spills V e i
  more : a.CanCharge s V e j
  notEmpty : ∀ k, i ≤ k → k < j → 0 < V (a.eventCol e "final_soc_mwh") k
  notFull : ∀ k, j ≤ k → k < i → V (a.eventCol e "final_soc_mwh") k < a.capacities.getD e 0

end EPL
