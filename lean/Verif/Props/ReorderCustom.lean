/-
C76: the order in which custom constraints and objective terms are given does not matter, nor does repeating a constraint.
-/
import Verif.Proofs.Reserial
import Verif.Props.Growth
import Verif.Props.Reorder
import Verif.Spec.DemoReorderCustom

namespace EPL

section
variable {s : Site} {o o' : Objective} {flags : Flags} {S S' : Solver} {r r' : SimResult} {V V' : String → Nat → ℚ}

/-- C76: the same custom constraints in another order, or with repetitions, give the same result: whatever a solver answers, the same answer is sound
(exact) for the other list. -/
theorem C76_constraints {l : List Constraint} (hl : ∀ c, c ∈ l ↔ c ∈ s.constraints) (hr : s.optimize o flags S = .ok r) :
    ∃ S', (S.Sound → S'.Sound) ∧ (S.Exact → S'.Exact) ∧ ({ s with constraints := l } : Site).optimize o flags S' = .ok r := by
  have hr0 := hr
  simp only [Site.optimize, bind_ok, Prod.exists] at hr
  obtain ⟨iv, p, hp, -⟩ := hr
  obtain ⟨p', h1, h2, h3⟩ := fewer_program (fun c hc => (hl c).1 hc) hp
  obtain ⟨p2, k1, -, k3⟩ := fewer_program (s := { s with constraints := l }) (l := s.constraints) (fun c hc => (hl c).2 hc) h1
  have : p2 = p := by
    have := k1.symm.trans hp
    cases this
    rfl
  subst this
  exact optimize_same hp h1 (by rw [h2]; exact .refl _) (fun c => ⟨h3 c, k3 c⟩) (fun _ _ => rfl) hr0

/-- C76: the terms of a custom objective in another order allow the same plans at the same objective value.  (Only the auxiliary variables of min and
max terms may differ.) -/
theorem C76_answers (h : o.Reordered o') {p : Prob} {σ : Assign} (ha : Answer s o flags p σ) :
    ∃ p' σ', Answer s o' flags p' σ' ∧ p'.obj.eval σ' = p.obj.eval σ ∧ ∀ v : VarId, v.OfSite → σ' v = σ v := by
  obtain ⟨iv, hp⟩ := ha.program
  obtain ⟨p', hp', g, hg⟩ := reserial_program h hp
  exact ⟨p', g σ, ⟨⟨_, hp'⟩, hg.feasible σ ha.feasible⟩, hg.value σ, hg.plain σ⟩

/-- C76: two exact solvers find the same objective value. -/
theorem C76_optimum (h : o.Reordered o') (hr : Run s o flags S r V) (hr' : Run s o' flags S' r' V') (hS : S.Exact) (hS' : S'.Exact) :
    ∃ q, r.status.objective = some q ∧ r'.status.objective = some q := by
  obtain ⟨p, σ, hco⟩ := hr.core
  obtain ⟨p', σ', hco'⟩ := hr'.core
  obtain ⟨q', hp', g, hg⟩ := reserial_program h hco.program
  rw [hco'.program] at hp'
  cases hp'
  obtain ⟨q, hp, g', hg'⟩ := reserial_program h.symm hco'.program
  rw [hco.program] at hp
  cases hp
  have o := core_optimal hco hS hr.feasible
  have o' := core_optimal hco' hS' hr'.feasible
  refine ⟨_, objective_value hco, ?_⟩
  rw [objective_value hco', Option.some.injEq]
  apply le_antisymm
  · exact le_trans (o'.2 _ (hg.feasible σ hco.feas)) (le_of_eq (hg.value σ))
  · exact le_trans (o.2 _ (hg'.feasible σ' hco'.feas)) (le_of_eq (hg'.value σ'))

/-- C76: without min and max terms the results are the same. -/
theorem C76_results (h : o.Reordered o') (ho : o.NoExtremes) (hr : s.optimize o flags S = .ok r) :
    ∃ S', (S.Sound → S'.Sound) ∧ (S.Exact → S'.Exact) ∧ s.optimize o' flags S' = .ok r := by
  have hr0 := hr
  simp only [Site.optimize, bind_ok, Prod.exists] at hr
  obtain ⟨iv, p, hp, -⟩ := hr
  obtain ⟨p', hp', g, hg⟩ := reserial_program h hp
  exact optimize_same hp hp' (hg.simple ho).1 (hg.simple ho).2 (fun _ _ => rfl) hr0

end

/-! ### The hypotheses are met -/

/-- C76: the site of `demoLimited` with its constraint twice. -/
example : ∃ (s : Site) (S S' : Solver) (r : SimResult), s.constraints = [growConstraint] ∧ s.optimize (.str "price") {} S = .ok r ∧ S'.Sound ∧
    ({ s with constraints := [growConstraint, growConstraint] } : Site).optimize (.str "price") {} S' = .ok r ∧ r.status.objective = some 370 := by
  obtain ⟨s, r, V, hs, h, ht⟩ := Demo.run demoLimited_test
  simp only [Bool.and_eq_true, decide_eq_true_eq] at ht
  have hc : s.constraints = [growConstraint] := (site_new hs).constraints
  obtain ⟨S', h1, _, h3⟩ := C76_constraints (l := [growConstraint, growConstraint]) (by simp [hc]) h.returned
  exact ⟨s, _, S', r, hc, h.returned, h1 h.sound, h3, ht.2⟩

/-- C76: the import cost and the greatest import in either order. -/
example : ∃ (s : Site) (o o' : Objective) (S S' : Solver) (r r' : SimResult) (V V' : String → Nat → ℚ), o.Reordered o' ∧ o ≠ o' ∧
    Run s o {} S r V ∧ Run s o' {} S' r' V' ∧ S.Exact ∧ S'.Exact ∧ r.status.objective = some 165 ∧ r'.status.objective = some 165 := by
  obtain ⟨s, r, V, S, hs, hS, h, ht⟩ := Demo.runOptimal demoMaxMany_test
  obtain ⟨s', r', V', S', hs', hS', h', ht'⟩ := Demo.runOptimal demoMaxFirst_test
  simp only [Bool.and_eq_true, decide_eq_true_eq] at ht ht'
  have e : s = s' := Except.ok.inj (hs.symm.trans hs')
  subst e
  exact ⟨s, _, _, S, S', r, r', V, V', .custom (List.Perm.swap _ _ _), by simp [demoMaxMany, demoTerms, demoMaxFirst], h, h', hS, hS', ht.2, ht'.2⟩

/-- C76: the import cost and the import in either order. -/
example : ∃ (s : Site) (o o' : Objective) (S S' : Solver) (r : SimResult), o.Reordered o' ∧ o ≠ o' ∧ o.NoExtremes ∧ s.optimize o {} S = .ok r ∧
    s.optimize o' {} S' = .ok r ∧ S'.Sound ∧ r.status.objective = some 138 := by
  obtain ⟨s, r, V, hs, h, ht⟩ := Demo.run demoTwoTerms_test
  simp only [decide_eq_true_eq] at ht
  have ho : (Objective.custom [.simple importCost, .simple importTerm]).NoExtremes := by
    simp [Objective.NoExtremes]
  obtain ⟨S', h1, _, h3⟩ := C76_results (o' := .custom [.simple importTerm, .simple importCost]) (.custom (List.Perm.swap _ _ _)) ho h.returned
  exact ⟨s, _, _, _, S', r, .custom (List.Perm.swap _ _ _), by simp [importCost, importTerm], ho, h.returned, h3, h1 h.sound, ht⟩

end EPL
