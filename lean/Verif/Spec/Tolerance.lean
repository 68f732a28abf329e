/-
Solvers that stop within a relative tolerance of the optimum.
-/
import Verif.Spec.DemoOptimal
import Verif.Spec.DemoPrices

namespace EPL

/-- A solver with `OptimizerConfig.relative_tolerance = g`, which is handed on as the relative gap (optimizer.py:25-34, 60-65): its "Optimal" answers are feasible, and
no feasible assignment has an objective lower by more than `g` times the greater of the two objectives without their signs. -/
def Solver.Within (g : ℚ) (S : Solver) : Prop :=
  ∀ p, (S p).status = "Optimal" → ∃ σ, p.Feasible σ ∧ (∀ τ, p.Feasible τ → p.obj.eval σ ≤ p.obj.eval τ + g * max |p.obj.eval σ| |p.obj.eval τ|) ∧
    ∀ v ∈ p.vars, (S p).value v.id = some (σ v.id)

theorem within_sound {g : ℚ} {S : Solver} (h : S.Within g) : S.Sound := by
  intro p hp
  obtain ⟨σ, hf, -, hv⟩ := h p hp
  exact ⟨σ, hf, hv⟩

/-- A solver that answers "Optimal" only if the multipliers prove the bound `b` and the objective is within the tolerance of it. -/
def nearSolver (σ : Assign) (lam : List ℚ) (mu : List (LpVar × ℚ)) (b g : ℚ) : Solver := fun p =>
  if p.Feasible σ ∧ p.proves lam mu b = true ∧ p.obj.eval σ ≤ b + g * |p.obj.eval σ| then ⟨"Optimal", fun v => some (σ v)⟩
  else ⟨"Infeasible", fun v => some (σ v)⟩

theorem nearSolver_within (σ : Assign) (lam : List ℚ) (mu : List (LpVar × ℚ)) (b : ℚ) {g : ℚ} (hg : 0 ≤ g) : (nearSolver σ lam mu b g).Within g := by
  intro p h
  unfold nearSolver at h ⊢
  split
  · rename_i hf
    refine ⟨σ, hf.1, fun τ hτ => ?_, fun _ _ => rfl⟩
    have h1 := Prob.proves_bound hf.2.1 hτ
    have h2 := mul_le_mul_of_nonneg_left (le_max_left |p.obj.eval σ| |p.obj.eval τ|) hg
    linarith [hf.2.2]
  · rename_i hf
    rw [if_neg hf] at h
    exact absurd h (by simp)

/-- Runs the model with the tolerance and tests the outcome. -/
def Demo.testNear (d : Demo) (lam : List ℚ) (mu : List (LpVar × ℚ)) (b g : ℚ) (P : Site → SimResult → Bool) : Bool :=
  match d.site with
  | .error _ => false
  | .ok s => match s.quick d.objective d.flags (nearSolver (tab d.answer) lam mu b g) with
    | .error _ => false
    | .ok r => r.feasible && P s r

theorem Demo.runNear {d : Demo} {lam : List ℚ} {mu : List (LpVar × ℚ)} {b g : ℚ} (hg : 0 ≤ g) {P : Site → SimResult → Bool}
    (h : d.testNear lam mu b g P = true) : ∃ s r V S, d.site = .ok s ∧ S.Within g ∧ Run s d.objective d.flags S r V ∧ P s r = true := by
  unfold Demo.testNear at h
  split at h
  · simp at h
  · rename_i s hs
    split at h
    · simp at h
    · rename_i r hr
      replace hr := Site.quick_ok hr
      simp only [Bool.and_eq_true] at h
      have hcon : s.Constructed := ⟨_, _, _, _, _, _, _, hs⟩
      have hw := nearSolver_within (tab d.answer) lam mu b hg
      obtain ⟨p, σ, _, _, _, _, ho⟩ := optimize_feasible (within_sound hw) hcon.wf hr h.1
      obtain ⟨V, hV⟩ := exists_reads ho.lengths ho.colsNodup
      exact ⟨s, r, V, _, hs, hw, ⟨within_sound hw, hcon, hr, h.1, hV⟩, h.2⟩

/-- Leave the battery of 4 MWh alone although 360 of 550 could be saved: an answer within a tolerance of 2/3. -/
def demoLazy : Demo := demoPrices [10, 100] [10, 100] [1/10, 1] [20, 20] "price" idleAnswer

end EPL
