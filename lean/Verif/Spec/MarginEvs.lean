/-
Electric vehicles at the margin: charging that could move to another interval.
-/
import Verif.Spec.Margin

namespace EPL

/-- The vehicle of charge event `e` could charge a little more in interval `j`: it charges there below the power of every charger, or it does nothing there
while it is plugged in and some charger without a lower limit is free. -/
def EvArgs.CanCharge (a : EvArgs) (s : Site) (V : String → Nat → ℚ) (e j : Nat) : Prop :=
  (0 < V (a.eventCol e "electric_charge_mwh") j ∧ ∀ power ∈ a.powers, V (a.eventCol e "electric_charge_mwh") j < power * s.freqMins / 60) ∨
  (V (a.eventCol e "electric_charge_mwh") j = 0 ∧ V (a.eventCol e "electric_discharge_mwh") j = 0 ∧ 1 ≤ a.present j e ∧
    ∃ k power, a.powers[k]? = some power ∧ 0 < power * s.freqMins / 60 ∧ power * a.turndown * s.freqMins / 60 ≤ 0 ∧
      V (a.chargerCol k "electric_charge_mwh") j = 0 ∧ V (a.chargerCol k "electric_discharge_mwh") j = 0)

/-- Some of the charging of charge event `e` in interval `i` could happen in interval `j` instead: it charges in `i` above the lower limit of every charger,
could charge more in `j`, and between the two the vehicle is not empty (or, if `j` comes first, not full). -/
structure EvArgs.CanShift (a : EvArgs) (s : Site) (V : String → Nat → ℚ) (e i j : Nat) : Prop where
  charges : 0 < V (a.eventCol e "electric_charge_mwh") i
  less : ∀ power ∈ a.powers, power * a.turndown * s.freqMins / 60 < V (a.eventCol e "electric_charge_mwh") i
  more : a.CanCharge s V e j
  notEmpty : ∀ k, i ≤ k → k < j → 0 < V (a.eventCol e "final_soc_mwh") k
  notFull : ∀ k, j ≤ k → k < i → V (a.eventCol e "final_soc_mwh") k < a.capacities.getD e 0

end EPL
