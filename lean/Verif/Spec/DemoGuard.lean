/-
Demonstrations of wrong solvers: one that always claims to have found the optimum and answers with given numbers.
-/
import Verif.Spec.DemoGrowth

namespace EPL

/-- A solver that claims that `σ` is optimal without looking at the program. -/
def liar (σ : Assign) : Solver := fun _ => ⟨"Optimal", fun v => some (σ v)⟩

theorem Site.quick_error {s : Site} {objective : Objective} {flags : Flags} {S : Solver} {e : Err}
    (h : s.quick objective flags S = .error e) (he : e ≠ .index) : s.optimize objective flags S = .error e := by
  unfold Site.quick at h
  cases hp : s.program objective flags with
  | error e' =>
    rw [hp] at h
    have : Except.error e' = (Except.error e : Res SimResult) := h
    cases this
    simp only [Site.optimize, hp]
    rfl
  | ok x =>
    obtain ⟨iv, p⟩ := x
    simp only [hp, ok_bind] at h
    split at h
    · rename_i hc
      split at h
      · rename_i ho
        rw [Bool.and_eq_true] at ho
        have hs : (S p).status == "Optimal" := ho.1
        simp only [Site.optimize, hp, ok_bind, Prob.solve, Prob.codesDiffer_ok hc, pyAssert_true]
        cases hfl : flags.allowInfeasible
        · simp only [hs, ho.2, pyAssert_true, ok_bind, Bool.false_eq_true, if_false]
          exact h
        · simp only [hs, ok_bind, if_true]
          exact h
      · cases h; exact absurd rfl he
    · cases h; exact absurd rfl he

/-- One interval with a boiler and a valve, electric load 2 and low temperature load 3, and an answer with the given import, boiler gas and
heat into and out of the valve. -/
def demoGuard (imported gas vin vout : ℚ) : Demo where
  assets := [.boiler defaultBoiler, .valve defaultValve]
  raw := { electricityPrices := prices [10], electricLoad := prices [2], ltLoad := prices [3] }
  answer :=
    [ (.site "import_power_mw" 0, imported), (.site "import_power_bin" 0, 1),
      (.asset "boiler" "high_temperature_generation_mwh" 0, 3), (.asset "boiler" "binary_mwh" 0, 1),
      (.asset "boiler" "gas_consumption_mwh" 0, gas),
      (.asset "valve" "high_temperature_load_mwh" 0, vin), (.asset "valve" "low_temperature_generation_mwh" 0, vout) ]

/-- What `optimize` does with the answer of the liar. -/
def Demo.lie (d : Demo) : Res (Site × SimResult) := do
  let s ← d.site
  let r ← s.quick d.objective d.flags (liar (tab d.answer))
  .ok (s, r)

/-- Is the answer returned as a feasible result? -/
def Demo.believed (d : Demo) (P : Site → Bool) : Bool :=
  match d.lie with
  | .ok (s, r) => r.feasible && P s
  | .error _ => false

/-- Is the answer refused with this error? -/
def Demo.refused (d : Demo) (e : Err) : Bool :=
  match d.site with
  | .ok s => decide (s.quick d.objective d.flags (liar (tab d.answer)) = .error e)
  | .error _ => false

theorem Demo.refused_error {d : Demo} {e : Err} (h : d.refused e = true) (he : e ≠ .index) :
    ∃ s, d.site = .ok s ∧ s.optimize d.objective d.flags (liar (tab d.answer)) = .error e := by
  unfold Demo.refused at h
  split at h
  · rename_i s hs
    exact ⟨s, hs, Site.quick_error (of_decide_eq_true h) he⟩
  · simp at h

set_option maxRecDepth 10000 in
/-- An answer that misses the balance by less than the tolerance is believed, though it satisfies no constraint on gas use or the boiler's maximum. -/
theorem demoGuard_believed : (demoGuard (2 + 1/2000) 7 3 3).believed (fun s => decide (s.assets = [.boiler defaultBoiler, .valve defaultValve]) &&
    decide (s.data.n = 1)) = true := by decide +kernel

set_option maxRecDepth 10000 in
/-- One that misses the electricity balance is refused. -/
theorem demoGuard_electricity : (demoGuard 3 (15/4) 3 3).refused (.assertion "electricity balance") = true := by decide +kernel

set_option maxRecDepth 10000 in
/-- One that creates heat in the valve is refused. -/
theorem demoGuard_valve : (demoGuard 2 (15/4) (3 - 1/20000) 3).refused (.assertion "valve") = true := by decide +kernel

set_option maxRecDepth 10000 in
/-- One with negative gas use is refused. -/
theorem demoGuard_gas : (demoGuard 2 (-1) 3 3).refused (.schema "boiler-gas_consumption_mwh") = true := by decide +kernel

end EPL
