/-
C56, C60: fewer custom constraints or larger capacities never make the optimum worse.
-/
import Verif.Proofs.Growth
import Verif.Props.Peak
import Verif.Spec.DemoGrowth

namespace EPL

section
variable {s s' : Site} {objective : Objective} {flags : Flags} {S S' : Solver} {r r' : SimResult} {V V' : String → Nat → ℚ}

/-- Two runs, the second with an exact solver: if every answer to the first program is an answer to the second one of the same objective value, the
second objective value is at most the first. -/
theorem not_worse (h : Run s objective flags S r V) (h' : Run s' objective flags S' r' V') (hS' : S'.Exact)
    (hp : ∀ iv p, s.program objective flags = .ok (iv, p) → ∃ iv' p', s'.program objective flags = .ok (iv', p') ∧
      ∀ σ, p.Feasible σ → p'.Feasible σ ∧ p'.obj.eval σ = p.obj.eval σ) :
    ∃ q q', r.status.objective = some q ∧ r'.status.objective = some q' ∧ q' ≤ q := by
  obtain ⟨p, σ, hco⟩ := h.core
  obtain ⟨p', σ', hco'⟩ := h'.core
  obtain ⟨iv2, p2, hp2, hf⟩ := hp _ _ hco.program
  rw [hco'.program] at hp2
  cases hp2
  have hopt := core_optimal hco' hS' h'.feasible
  refine ⟨_, _, objective_value hco, objective_value hco', ?_⟩
  obtain ⟨g1, g2⟩ := hf σ hco.feas
  exact le_trans (hopt.2 σ g1) (le_of_eq g2)

/-! ### C60 -/

/-- C60: an answer that is feasible for a site is feasible for a site with larger capacities, at the same objective value. -/
theorem C60_feasible (hg : s.Grown s') (hc : ∀ c ∈ s.constraints, c.Plain) (ho : objective.Plain) {p : Prob} {σ : Assign}
    (h : Answer s objective flags p σ) : ∃ p', Answer s' objective flags p' σ ∧ p'.obj.eval σ = p.obj.eval σ := by
  obtain ⟨iv, hp⟩ := h.program
  obtain ⟨iv', p', h1, h2, h3⟩ := grown_program hg hc ho hp
  exact ⟨p', ⟨⟨iv', h1⟩, h3 σ h.feasible⟩, h2 σ⟩

/-- C60: the optimum of a site with larger capacities is at most the optimum of the site. -/
theorem C60_optimum (hg : s.Grown s') (hc : ∀ c ∈ s.constraints, c.Plain) (ho : objective.Plain) (h : Run s objective flags S r V)
    (h' : Run s' objective flags S' r' V') (hS' : S'.Exact) :
    ∃ q q', r.status.objective = some q ∧ r'.status.objective = some q' ∧ q' ≤ q :=
  not_worse h h' hS' fun _ _ hp => by
    obtain ⟨iv', p', h1, h2, h3⟩ := grown_program hg hc ho hp
    exact ⟨iv', p', h1, fun σ hσ => ⟨h3 σ hσ, h2 σ⟩⟩

/-- C60: the cost read from the results, with the penalties, does not increase with larger capacities. -/
theorem C60_price (hg : s.Grown s') (hc : ∀ c ∈ s.constraints, c.Plain) (h : Run s (.str "price") flags S r V)
    (h' : Run s' (.str "price") flags S' r' V') (hS' : S'.Exact) (hw : ∀ a ∈ s.assets, a.WellNamed) (hw' : ∀ a ∈ s'.assets, a.WellNamed) :
    s'.readCost V' + spillPenalty * s'.readSpill V' ≤ s.readCost V + spillPenalty * s.readSpill V := by
  obtain ⟨q, q', e, e', hle⟩ := C60_optimum (objective := .str _) hg hc trivial h h' hS'
  rw [C40_results h hw, Option.some.injEq] at e
  rw [C40_results h' hw', Option.some.injEq] at e'
  rw [e, e']
  exact hle

/-- C60: likewise the emissions. -/
theorem C60_carbon (hg : s.Grown s') (hc : ∀ c ∈ s.constraints, c.Plain) (h : Run s (.str "carbon") flags S r V)
    (h' : Run s' (.str "carbon") flags S' r' V') (hS' : S'.Exact) (hw : ∀ a ∈ s.assets, a.WellNamed) (hw' : ∀ a ∈ s'.assets, a.WellNamed) :
    s'.readEmissions V' + spillPenalty * s'.readSpill V' ≤ s.readEmissions V + spillPenalty * s.readSpill V := by
  obtain ⟨q, q', e, e', hle⟩ := C60_optimum (objective := .str _) hg hc trivial h h' hS'
  rw [C41_results h hw, Option.some.injEq] at e
  rw [C41_results h' hw', Option.some.injEq] at e'
  rw [e, e']
  exact hle

/-! ### C56 -/

theorem build_constraints (s : Site) (l : List Constraint) (flags : Flags) : ({ s with constraints := l } : Site).build flags = s.build flags := by
  have key : ∀ (is : List Nat) (iv : IVars) (cs : List Con), ({ s with constraints := l } : Site).buildLoop flags is iv cs = s.buildLoop flags is iv cs := by
    intro is
    induction is with
    | nil => intro iv cs; rfl
    | cons i is ih =>
      intro iv cs
      simp only [Site.buildLoop, ih]
      rfl
  simp only [Site.build, key]

/-- Dropping custom constraints: the program exists, with the same objective and fewer constraints. -/
theorem fewer_program {l : List Constraint} (hl : ∀ c ∈ l, c ∈ s.constraints) {iv : IVars} {p : Prob} (h : s.program objective flags = .ok (iv, p)) :
    ∃ p', ({ s with constraints := l } : Site).program objective flags = .ok (iv, p') ∧ p'.obj = p.obj ∧ ∀ c ∈ p'.cons, c ∈ p.cons := by
  unfold Site.program at h ⊢
  simp only [build_constraints, bind_ok, Prod.exists] at h ⊢
  obtain ⟨_, hn, iv', cons, hb, custom, hcu, obj, objCons, hob, h⟩ := h
  simp only [Except.ok.injEq, Prod.mk.injEq] at h
  obtain ⟨rfl, rfl⟩ := h
  have hall : ∀ c ∈ l, ∃ bs, addCustomConstraint s.data iv' c = .ok bs := fun c hc => flatMapE_all_ok hcu (hl c hc)
  obtain ⟨custom', hcu'⟩ : ∃ custom', flatMapE (addCustomConstraint s.data iv') l = .ok custom' := flatMapE_of_all_ok hall
  refine ⟨⟨cons ++ custom' ++ objCons, obj⟩, ⟨_, hn, iv', cons, hb, custom', hcu', obj, objCons, hob, rfl⟩, rfl, ?_⟩
  intro c hc
  simp only [List.mem_append] at hc ⊢
  rcases hc with (hc | hc) | hc
  · exact .inl (.inl hc)
  · obtain ⟨x, hx, y, hy, hm⟩ := (flatMapE_mem hcu').1 hc
    exact .inl (.inr ((flatMapE_mem hcu).2 ⟨x, hl x hx, y, hy, hm⟩))
  · exact .inr hc

/-- C56: an answer that respects the custom constraints is an answer without (some of) them, at the same objective value. -/
theorem C56_feasible {l : List Constraint} (hl : ∀ c ∈ l, c ∈ s.constraints) {p : Prob} {σ : Assign} (h : Answer s objective flags p σ) :
    ∃ p', Answer { s with constraints := l } objective flags p' σ ∧ p'.obj.eval σ = p.obj.eval σ := by
  obtain ⟨iv, hp⟩ := h.program
  obtain ⟨p', h1, h2, h3⟩ := fewer_program hl hp
  refine ⟨p', ⟨⟨iv, h1⟩, ⟨fun c hc => h.feasible.1 c (h3 c hc), fun v hv => ?_⟩⟩, by rw [h2]⟩
  rcases prob_vars_iff.1 hv with ⟨c, hc, hv⟩ | hv
  · exact h.feasible.2 v (prob_vars_iff.2 (.inl ⟨c, h3 c hc, hv⟩))
  · exact h.feasible.2 v (prob_vars_iff.2 (.inr (h2 ▸ hv)))

/-- C56: adding custom constraints never improves the optimum. -/
theorem C56_optimum {l : List Constraint} (hl : ∀ c ∈ l, c ∈ s.constraints) (h : Run s objective flags S r V)
    (h' : Run { s with constraints := l } objective flags S' r' V') (hS' : S'.Exact) :
    ∃ q q', r.status.objective = some q ∧ r'.status.objective = some q' ∧ q' ≤ q :=
  not_worse h h' hS' fun iv p hp => by
    obtain ⟨p', h1, h2, h3⟩ := fewer_program hl hp
    refine ⟨iv, p', h1, fun σ hσ => ?_⟩
    obtain ⟨p2, ⟨⟨iv2, a1⟩, a2⟩, a3⟩ := C56_feasible hl ⟨⟨iv, hp⟩, hσ⟩
    rw [h1] at a1
    cases a1
    exact ⟨a2, a3⟩

end

/-! ### The hypotheses are met -/

/-- C60: a battery of 2 MWh saves 180, one of 4 MWh saves 360. -/
example : ∃ s s' S S' r r' V V', s.Grown s' ∧ (∀ c ∈ s.constraints, c.Plain) ∧ Run s (.str "price") {} S r V ∧ Run s' (.str "price") {} S' r' V' ∧
    S'.Exact ∧ (∀ a ∈ s.assets, a.WellNamed) ∧ (∀ a ∈ s'.assets, a.WellNamed) ∧ r.status.objective = some 370 ∧ r'.status.objective = some 190 := by
  obtain ⟨s, r, V, S, hs, hS, h, ht⟩ := Demo.runOptimal demoGrow_small
  obtain ⟨s', r', V', S', hs', hS', h', ht'⟩ := Demo.runOptimal demoGrow_large
  simp only [Bool.and_eq_true, decide_eq_true_eq] at ht ht'
  have n := site_new hs
  have n' := site_new hs'
  refine ⟨s, s', S, S', r, r', V, V', ⟨?_, ?_, ?_, ?_, ?_, ?_, ?_⟩, ?_, h, h', hS', ?_, ?_, ht.2, ht'.2⟩
  · have e : s.data = s'.data := by
      have a : (demoGrow 2).site.toOption.map Site.data = (demoGrow 4).site.toOption.map Site.data := by decide +kernel
      rw [hs, hs'] at a
      exact Option.some.inj a
    exact e.symm
  · rw [n.constraints, n'.constraints]; rfl
  · rw [n.freq, n'.freq]; rfl
  · rw [n.freq]; decide
  · rw [n.importLimit, n'.importLimit]; exact le_refl _
  · rw [n.exportLimit, n'.exportLimit]; exact le_refl _
  · rw [ht.1.1, ht'.1.1]
    exact .cons (.battery (c := growBattery 2) (le_refl _) (le_refl _) (by decide +kernel)) .nil
  · rw [n.constraints]; simp [demoGrow]
  · rw [ht.1.1]; simp [Asset.WellNamed]; decide +kernel
  · rw [ht'.1.1]; simp [Asset.WellNamed]; decide +kernel

/-- C56: with the constraint that no import exceeds 7 the battery of 4 MWh saves less. -/
example : ∃ s S S' r r' V V', s.constraints = [growConstraint] ∧ Run s (.str "price") {} S r V ∧ Run { s with constraints := [] } (.str "price") {} S' r' V' ∧
    S'.Exact ∧ r.status.objective = some 370 ∧ r'.status.objective = some 190 := by
  obtain ⟨s, r, V, hs, h, ht⟩ := Demo.run demoLimited_test
  obtain ⟨s', r', V', S', hs', hS', h', ht'⟩ := Demo.runOptimal demoGrow_large
  simp only [Bool.and_eq_true, decide_eq_true_eq] at ht ht'
  have n := site_new hs
  have e : ({ s with constraints := [] } : Site) = s' := by
    have : (demoGrow 4).site = demoLimited.site.map (fun s => { s with constraints := [] }) := by
      show Site.new _ _ _ _ _ _ _ = Except.map _ (Site.new _ _ _ _ _ _ _)
      rfl
    rw [hs, hs'] at this
    exact (Except.ok.inj this).symm
  exact ⟨s, _, S', r, r', V, V', n.constraints, h, by rw [e]; exact h', hS', ht.2, ht'.2⟩

end EPL
