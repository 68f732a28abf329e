/-
What a feasible answer says about electric vehicles: the energy each charger exchanges with each charge event.
-/
import Verif.Spec.Run

namespace EPL

/-- The arguments of `epl.EVs`: `chargeEvents` has one row per charge event and one column per interval. -/
structure EvArgs where
  chargeEvents : List (List ℚ)
  powers : List ℚ
  capacities : List ℚ
  efficiency : ℚ
  turndown : ℚ
  name : String
  freqMins : ℚ

/-- The call of the constructor. -/
def EvArgs.make (a : EvArgs) : Res EvsCfg :=
  Evs.new a.chargeEvents a.powers a.capacities a.efficiency a.turndown a.name a.freqMins

/-- Is the vehicle of charge event `e` plugged in during interval `i`?  The entry of the matrix given by the user. -/
def EvArgs.present (a : EvArgs) (i e : Nat) : ℚ := (a.chargeEvents.getD e []).getD i 0

/-- Who charges whom: `charge i e k` is the energy charger `k` gives to charge event `e` in interval `i`, `discharge i e k` the
energy it takes, `spill i e` the energy the spill charger gives. -/
structure EvSchedule where
  charge : Nat → Nat → Nat → ℚ
  discharge : Nat → Nat → Nat → ℚ
  spill : Nat → Nat → ℚ

/-- The sum of the first `n` values. -/
def sumTo (n : Nat) (g : Nat → ℚ) : ℚ := ((List.range n).map g).sum

/-- The column of a charger. -/
def EvArgs.chargerCol (a : EvArgs) (k : Nat) (attr : String) : String := a.name ++ "-charger-" ++ toString k ++ "-" ++ attr

/-- The column of the spill charger. -/
def EvArgs.spillCol (a : EvArgs) (attr : String) : String := a.name ++ "-charger-spill-" ++ a.name ++ "-" ++ attr

/-- The column of a charge event. -/
def EvArgs.eventCol (a : EvArgs) (e : Nat) (attr : String) : String := a.name ++ "-charge-event-" ++ toString e ++ "-" ++ attr

/-- The columns of the results are the sums of the schedule. -/
structure EvSchedule.Explains (x : EvSchedule) (a : EvArgs) (V : String → Nat → ℚ) (n : Nat) : Prop where
  charger_charge : ∀ i < n, ∀ k < a.powers.length,
    V (a.chargerCol k "electric_charge_mwh") i = sumTo a.capacities.length (fun e => x.charge i e k)
  charger_discharge : ∀ i < n, ∀ k < a.powers.length,
    V (a.chargerCol k "electric_discharge_mwh") i = sumTo a.capacities.length (fun e => x.discharge i e k)
  event_charge : ∀ i < n, ∀ e < a.capacities.length,
    V (a.eventCol e "electric_charge_mwh") i = sumTo a.powers.length (fun k => x.charge i e k)
  event_discharge : ∀ i < n, ∀ e < a.capacities.length,
    V (a.eventCol e "electric_discharge_mwh") i = sumTo a.powers.length (fun k => x.discharge i e k)
  spill_charge : ∀ i < n, V (a.spillCol "electric_charge_mwh") i = sumTo a.capacities.length (fun e => x.spill i e)
  spill_discharge : ∀ i < n, V (a.spillCol "electric_discharge_mwh") i = 0

/-- The rules of the schedule. -/
structure EvSchedule.Valid (x : EvSchedule) (a : EvArgs) (s : Site) (flags : Flags) (V : String → Nat → ℚ) : Prop where
  /-- Nothing happens to a vehicle that is not plugged in. -/
  absent : ∀ i < s.data.n, ∀ e < a.capacities.length, a.present i e < 1 →
    (∀ k < a.powers.length, x.charge i e k = 0 ∧ x.discharge i e k = 0) ∧ x.spill i e = 0
  /-- A charge event uses at most one charger, in one direction. -/
  oneCharger : ∀ i < s.data.n, ∀ e < a.capacities.length, ∀ k < a.powers.length, ∀ k' < a.powers.length,
    (x.charge i e k ≠ 0 → x.charge i e k' ≠ 0 → k = k') ∧ (x.discharge i e k ≠ 0 → x.discharge i e k' ≠ 0 → k = k') ∧
    ¬ (x.charge i e k ≠ 0 ∧ x.discharge i e k' ≠ 0)
  /-- A charger serves at most one charge event, in one direction. -/
  oneEvent : ∀ i < s.data.n, ∀ k < a.powers.length, ∀ e < a.capacities.length, ∀ e' < a.capacities.length,
    (x.charge i e k ≠ 0 → x.charge i e' k ≠ 0 → e = e') ∧ (x.discharge i e k ≠ 0 → x.discharge i e' k ≠ 0 → e = e') ∧
    ¬ (x.charge i e k ≠ 0 ∧ x.discharge i e' k ≠ 0)
  /-- Chargers work within their power, or not at all. -/
  limits : ∀ i < s.data.n, ∀ e < a.capacities.length, ∀ k < a.powers.length, ∀ power ∈ a.powers[k]?,
    (x.charge i e k = 0 ∨
      (power * a.turndown * s.freqMins / 60 ≤ x.charge i e k ∧ x.charge i e k ≤ power * s.freqMins / 60)) ∧
    (x.discharge i e k = 0 ∨
      (power * a.turndown * s.freqMins / 60 ≤ x.discharge i e k ∧ x.discharge i e k ≤ power * s.freqMins / 60)) ∧
    0 ≤ x.charge i e k ∧ 0 ≤ x.discharge i e k ∧ 0 ≤ x.spill i e
  /-- Vehicle to grid needs the flag. -/
  noDischarge : flags.allowEvsDischarge = false → ∀ i < s.data.n, ∀ e < a.capacities.length, ∀ k < a.powers.length,
    x.discharge i e k = 0
  /-- The state of charge of a charge event. -/
  soc : ∀ i < s.data.n, ∀ e < a.capacities.length,
    V (a.eventCol e "final_soc_mwh") i = V (a.eventCol e "initial_soc_mwh") i +
      a.efficiency * sumTo a.powers.length (fun k => x.charge i e k) + x.spill i e -
      sumTo a.powers.length (fun k => x.discharge i e k)

end EPL
