/-
C44, C45: objective terms that price the minimum or maximum of two or many variables.
-/
import Verif.Proofs.Optimum
import Verif.Props.CustomObjectives
import Verif.Spec.DemoCustom

namespace EPL

section
variable {s : Site} {flags : Flags} {iv : IVars} {p : Prob} {σ : Assign}

/-! ### C44 -/

/-- The value of any custom objective in any feasible assignment is the sum of what its terms contribute. -/
theorem C44_terms {terms : List OneTerm} (h : s.program (.custom terms) flags = .ok (iv, p)) (hf : p.Feasible σ) :
    ∃ qs, List.Forall₂ (OneTerm.Contributes σ s iv) terms qs ∧ p.obj.eval σ = qs.sum := by
  have hp := program_spec h
  have hiv := hp.iv_eq
  subst hiv
  obtain ⟨_, _, objCons, _, _, ho, hcons⟩ := hp.built
  simp only [getObjective, customObjective, bind_ok, Except.ok.injEq, Prod.mk.injEq] at ho
  obtain ⟨simple, h1, two, h2, many, h3, ho, hoc⟩ := ho
  have hc : ∀ c ∈ two.flatMap Prod.snd ++ many.flatMap Prod.snd, c ∈ p.cons := by
    intro c hc
    rw [hcons, ← hoc]
    exact List.mem_append_right _ hc
  obtain ⟨qs, hqs, hsum⟩ := contributions_aux hp hf terms 0 simple two many h1 h2 h3 (fun c hx => hc c (List.mem_append_left _ hx))
    (fun c hx => hc c (List.mem_append_right _ hx))
  refine ⟨qs, hqs, ?_⟩
  rw [← ho, ← hsum, Expr.eval_sum]
  simp only [List.map_append, List.sum_append]

/-- Simple terms and one more term. -/
theorem simple_and_one {ts : List Term} {t : OneTerm} {qs : List ℚ}
    (h : List.Forall₂ (OneTerm.Contributes σ s iv) (ts.map .simple ++ [t]) qs) :
    ∃ q, t.Contributes σ s iv q ∧ qs.sum = (ts.map (fun t => s.sumIntervals (fun i => t.value σ s.data (iv.getD i []) i))).sum + q := by
  induction ts generalizing qs with
  | nil =>
    cases h with
    | cons h1 h2 => cases h2; exact ⟨_, h1, by simp⟩
  | cons x ts ih =>
    simp only [List.map_cons, List.cons_append] at h
    cases h with
    | cons h1 h2 =>
      obtain ⟨q, hq, hs⟩ := ih h2
      simp only [OneTerm.Contributes] at h1
      exact ⟨q, hq, by rw [List.sum_cons, hs, List.map_cons, List.sum_cons, h1]; ring⟩

/-- A `max_two_variables` term contributes coefficient * interval data * the maximum of its operands in every interval. -/
theorem C44_max {ts : List Term} {a b : TermOrFloat} {M : ℚ} {data : Option String} {k : ℚ}
    (h : s.program (.custom (ts.map .simple ++ [.two "max_two_variables" a b M data k])) flags = .ok (iv, p)) (hf : p.Feasible σ) :
    p.obj.eval σ = (ts.map (fun t => s.sumIntervals (fun i => t.value σ s.data (iv.getD i []) i))).sum +
      s.sumIntervals (fun i => max (a.value σ s i) (b.value σ s i) * s.data.value data i * k) := by
  obtain ⟨qs, hqs, ho⟩ := C44_terms h hf
  obtain ⟨q, hq, hs⟩ := simple_and_one hqs
  simp only [OneTerm.Contributes, if_true] at hq
  rw [ho, hs, hq]

/-- A `min_two_variables` term contributes coefficient * interval data * the minimum of its operands in every interval. -/
theorem C44_min {ts : List Term} {a b : TermOrFloat} {M : ℚ} {data : Option String} {k : ℚ}
    (h : s.program (.custom (ts.map .simple ++ [.two "min_two_variables" a b M data k])) flags = .ok (iv, p)) (hf : p.Feasible σ) :
    p.obj.eval σ = (ts.map (fun t => s.sumIntervals (fun i => t.value σ s.data (iv.getD i []) i))).sum +
      s.sumIntervals (fun i => min (a.value σ s i) (b.value σ s i) * s.data.value data i * k) := by
  obtain ⟨qs, hqs, ho⟩ := C44_terms h hf
  obtain ⟨q, hq, hs⟩ := simple_and_one hqs
  have hne : ("min_two_variables" : String) ≠ "max_two_variables" := by decide
  simp only [OneTerm.Contributes, hne, if_false, if_true] at hq
  rw [ho, hs, hq]

/-! ### C45 -/

/-- A `min_many_variables` term contributes coefficient * the smallest of its operands and the constant. -/
theorem C45_min {ts : List Term} {v : Term} {M constant k : ℚ}
    (h : s.program (.custom (ts.map .simple ++ [.many "min_many_variables" v M constant k])) flags = .ok (iv, p)) (hf : p.Feasible σ) :
    ∃ m, Least (v.operands σ iv constant) m ∧
      p.obj.eval σ = (ts.map (fun t => s.sumIntervals (fun i => t.value σ s.data (iv.getD i []) i))).sum + m * k := by
  obtain ⟨qs, hqs, ho⟩ := C44_terms h hf
  obtain ⟨q, hq, hs⟩ := simple_and_one hqs
  have hne : ("min_many_variables" : String) ≠ "max_many_variables" := by decide
  simp only [OneTerm.Contributes, hne, if_false, if_true] at hq
  obtain ⟨m, hm, hq⟩ := hq
  exact ⟨m, hm, by rw [ho, hs, hq]⟩

/-- A `max_many_variables` term with a non-negative coefficient contributes at least coefficient * every operand and the constant. -/
theorem C45_max_bound {ts : List Term} {v : Term} {M constant k : ℚ} (hk : 0 ≤ k)
    (h : s.program (.custom (ts.map .simple ++ [.many "max_many_variables" v M constant k])) flags = .ok (iv, p)) (hf : p.Feasible σ) :
    ∀ x ∈ v.operands σ iv constant,
      (ts.map (fun t => s.sumIntervals (fun i => t.value σ s.data (iv.getD i []) i))).sum + x * k ≤ p.obj.eval σ := by
  intro x hx
  obtain ⟨qs, hqs, ho⟩ := C44_terms h hf
  obtain ⟨q, hq, hs⟩ := simple_and_one hqs
  simp only [OneTerm.Contributes, if_true] at hq
  obtain ⟨m, hm, hq⟩ := hq
  rw [ho, hs, hq]
  have := mul_le_mul_of_nonneg_right (hm x hx) hk
  linarith

/-- At an optimum every `max_many_variables` term with a positive coefficient contributes exactly coefficient * the greatest of its
operands and the constant, whatever the other terms are. -/
theorem C45_terms_optimum {terms : List OneTerm} (h : s.program (.custom terms) flags = .ok (iv, p)) (hopt : p.Optimal σ) :
    ∃ qs, List.Forall₂ (OneTerm.AtOptimum σ s iv) terms qs ∧ p.obj.eval σ = qs.sum := by
  have hp := program_spec h
  have hiv := hp.iv_eq
  have hf := hopt.1
  obtain ⟨_, _, objCons, _, _, ho, hcons⟩ := hp.built
  simp only [getObjective, customObjective, bind_ok, Except.ok.injEq, Prod.mk.injEq] at ho
  obtain ⟨simple, h1, two, h2, many, h3, ho, hoc⟩ := ho
  have hc : ∀ c ∈ two.flatMap Prod.snd ++ many.flatMap Prod.snd, c ∈ p.cons := by
    intro c hc
    rw [hcons, ← hoc]
    exact List.mem_append_right _ hc
  obtain ⟨qs, hqs, hsum⟩ := contributions_gen (σ := σ) (C := fun q x => q.1.AtOptimum σ s iv x) terms 0 simple two many h1 h2 h3 (by
    rintro ⟨t, k⟩ hq x1 x2 x3 e1 e2 e3 c2 c3
    simp only at e1 e2 e3 ⊢
    have hc2 : ∀ c ∈ x2.flatMap Prod.snd, c ∈ p.cons := fun c hx => hc c (List.mem_append_left _ (c2 c hx))
    have hc3 : ∀ c ∈ x3.flatMap Prod.snd, c ∈ p.cons := fun c hx => hc c (List.mem_append_right _ (c3 c hx))
    constructor
    · cases t with
      | simple t =>
        rw [two_nil e2 (by simp), many_nil e3 (by simp)]
        simp only [OneTerm.Contributes, List.map_nil, List.sum_nil, add_zero]
        exact simple_eval e1
      | two f a b M data coef =>
        subst hiv
        rw [simple_nil (by simp) e1, many_nil e3 (by simp)]
        have := two_eval hp hf e2 hc2 f a b M data coef rfl
        simp only [OneTerm.Contributes, List.map_nil, List.sum_nil, add_zero, zero_add]
        rw [this]
        split
        · rfl
        · split <;> rfl
      | many f v M constant coef =>
        rw [simple_nil (by simp) e1, two_nil e2 (by simp)]
        simp only [List.map_nil, List.sum_nil, zero_add]
        exact many_eval hf e3 hc3
    · rintro v M constant coef rfl hk
      rw [simple_nil (by simp) e1, two_nil e2 (by simp)]
      simp only [List.map_nil, List.sum_nil, zero_add]
      exact max_many_optimum h hopt hq hk e3)
  refine ⟨qs, forall₂_zipIdx hqs, ?_⟩
  rw [← ho, ← hsum, Expr.eval_sum]
  simp only [List.map_append, List.sum_append]

/-- Simple terms and a charge on a maximum: at an optimum the charge is on exactly the maximum. -/
theorem C45_max_optimum {ts : List Term} {v : Term} {M constant k : ℚ} (hk : 0 < k)
    (h : s.program (.custom (ts.map .simple ++ [.many "max_many_variables" v M constant k])) flags = .ok (iv, p)) (hopt : p.Optimal σ) :
    ∃ m, Greatest (v.operands σ iv constant) m ∧
      p.obj.eval σ = (ts.map (fun t => s.sumIntervals (fun i => t.value σ s.data (iv.getD i []) i))).sum + m * k := by
  obtain ⟨qs, hqs, ho⟩ := C45_terms_optimum h hopt
  have key : ∀ {ts : List Term} {qs : List ℚ}, List.Forall₂ (OneTerm.AtOptimum σ s iv) (ts.map .simple ++
      [.many "max_many_variables" v M constant k]) qs → ∃ m, Greatest (v.operands σ iv constant) m ∧
      qs.sum = (ts.map (fun t => s.sumIntervals (fun i => t.value σ s.data (iv.getD i []) i))).sum + m * k := by
    intro ts
    induction ts with
    | nil =>
      intro qs h
      cases h with
      | cons h1 h2 =>
        cases h2
        obtain ⟨m, hm, hq⟩ := h1.2 _ _ _ _ rfl hk
        exact ⟨m, hm, by simp [hq]⟩
    | cons x ts ih =>
      intro qs h
      simp only [List.map_cons, List.cons_append] at h
      cases h with
      | cons h1 h2 =>
        obtain ⟨m, hm, hs⟩ := ih h2
        have h1 := h1.1
        simp only [OneTerm.Contributes] at h1
        exact ⟨m, hm, by rw [List.sum_cons, hs, List.map_cons, List.sum_cons, h1]; ring⟩
  obtain ⟨m, hm, hs⟩ := key hqs
  exact ⟨m, hm, by rw [ho, hs]⟩

end

/-! ### As read from the results -/

section
variable {s : Site} {objective : Objective} {flags : Flags} {S : Solver} {r : SimResult} {V : String → Nat → ℚ} {p : Prob}
  {σ : Assign}

theorem operand_read (h : Core s objective flags S r V p σ) {i : Nat} (hi : i < s.data.n) {a : TermOrFloat} (ha : a.Readable) :
    a.value σ s i = a.read V i := by
  cases a with
  | float q => rfl
  | term t =>
    rcases ha with ha | ha
    · simp only [TermOrFloat.value, TermOrFloat.read, ha]
      rw [show "site-" ++ "import_power_mwh" = "site-import_power_mwh" from rfl, h.import_cell hi]
      rfl
    · simp only [TermOrFloat.value, TermOrFloat.read, ha]
      rw [show "site-" ++ "export_power_mwh" = "site-export_power_mwh" from rfl, h.export_cell hi]
      rfl

/-- Optimality only depends on the variables of the program. -/
theorem optimal_congr {τ : Assign} (h : p.Optimal τ) (he : ∀ v ∈ p.vars, τ v.id = σ v.id) : p.Optimal σ := by
  have hobj : p.obj.eval τ = p.obj.eval σ := Expr.eval_congr fun v hv => he v (prob_vars_iff.2 (.inr hv))
  refine ⟨⟨?_, ?_⟩, ?_⟩
  · intro c hc
    refine (Con.Over.holds fun v hv => ?_).1 (h.1.1 c hc)
    exact he v (prob_vars_iff.2 (.inl ⟨c, hc, hv⟩))
  · intro v hv
    have := h.1.2 v hv
    simpa only [LpVar.InBounds, he v hv] using this
  · intro ρ hρ
    rw [← hobj]
    exact h.2 ρ hρ

/-- With an exact solver the reported values are an optimum. -/
theorem core_optimal (h : Core s objective flags S r V p σ) (hS : S.Exact) (_hr : r.feasible = true) : p.Optimal σ := by
  obtain ⟨τ, hτ, hv⟩ := hS p h.status
  refine optimal_congr hτ fun v hvm => ?_
  have := (hv v hvm).symm.trans (h.values v hvm)
  simpa using this

end

section
variable {s : Site} {flags : Flags} {S : Solver} {r : SimResult} {V : String → Nat → ℚ}

theorem simple_reads {objective : Objective} {p : Prob} {σ : Assign} (hco : Core s objective flags S r V p σ)
    (hw : ∀ a ∈ s.assets, a.WellNamed) {ts : List Term} (hr : ∀ t ∈ ts, t.attr ∈ readable) :
    (ts.map (fun t => s.sumIntervals (fun i => t.value σ s.data ((s.ivarsTo flags s.data.n).getD i []) i))).sum =
      (ts.map (fun t => s.sumIntervals (fun i => t.read s V i))).sum := by
  apply list_sum_congr
  intro t ht
  unfold Site.sumIntervals
  apply list_sum_congr
  intro i hi
  rw [List.mem_range] at hi
  exact value_read hco hw hi (hr t ht)

/-- C44 from the results: simple terms plus a maximum (minimum) of site import, site export or a number in every row. -/
theorem C44_results {f : String} {ts : List Term} {a b : TermOrFloat} {M : ℚ} {data : Option String} {k : ℚ}
    (hfn : f = "max_two_variables" ∨ f = "min_two_variables")
    (h : Run s (.custom (ts.map .simple ++ [.two f a b M data k])) flags S r V) (hw : ∀ a ∈ s.assets, a.WellNamed)
    (hr : ∀ t ∈ ts, t.attr ∈ readable) (ha : a.Readable) (hb : b.Readable) :
    r.status.objective = some ((ts.map (fun t => s.sumIntervals (fun i => t.read s V i))).sum +
      s.sumIntervals (fun i => (if f = "max_two_variables" then max (a.read V i) (b.read V i) else min (a.read V i) (b.read V i)) *
        s.data.value data i * k)) := by
  obtain ⟨p, σ, hco⟩ := h.core
  rw [objective_value hco]
  congr 1
  rcases hfn with rfl | rfl
  · rw [C44_max hco.program hco.feas, simple_reads hco hw hr]
    congr 1
    apply list_sum_congr
    intro i hi
    rw [List.mem_range] at hi
    simp only [if_true, operand_read hco hi ha, operand_read hco hi hb]
  · rw [C44_min hco.program hco.feas, simple_reads hco hw hr]
    congr 1
    apply list_sum_congr
    intro i hi
    rw [List.mem_range] at hi
    have hne : ("min_two_variables" : String) ≠ "max_two_variables" := by decide
    simp only [hne, if_false, operand_read hco hi ha, operand_read hco hi hb]

/-- The operand of a charge on the peak import (export) of the site. -/
def siteTerm (attr : String) : Term := { attr := attr, assetType := some "site" }

theorem site_operands {objective : Objective} {p : Prob} {σ : Assign} (hco : Core s objective flags S r V p σ) {attr : String}
    (ha : attr = "import_power_mwh" ∨ attr = "export_power_mwh") (constant : ℚ) :
    (siteTerm attr).operands σ (s.ivarsTo flags s.data.n) constant =
      (List.range s.data.n).map (fun i => V ("site-" ++ attr) i) ++ [constant] := by
  unfold Term.operands
  congr 1
  simp only [Site.ivarsTo, List.flatMap_map, List.filterMap_flatMap]
  have : ∀ i ∈ List.range s.data.n, ((siteTerm attr).pool (s.ones flags i)).filterMap (OneInterval.number? σ (siteTerm attr).attr) =
      [V ("site-" ++ attr) i] := by
    intro i hi
    rw [List.mem_range] at hi
    have hpool : (siteTerm attr).pool (s.ones flags i) = [.site (s.oneInterval i)] := by
      unfold Term.pool siteTerm
      have h1 : ¬ (some "site" : Option String) = some "*" := by decide
      simp only [h1, if_false, if_true]
      rw [ones_eq hco.prog.vars hi, List.filter_cons, if_pos (by simp [Selected, OneInterval.kind, Kind.typeName])]
      congr 1
      rw [List.filter_eq_nil_iff]
      intro o ho
      obtain ⟨a, ha, ho⟩ := List.mem_flatMap.1 ho
      have hk := (ois_name_kind ho).2
      rw [decide_eq_true_iff]
      intro hsel
      have hty := hsel.1
      simp only [h1, false_or, reduceCtorEq] at hty
      cases a <;> simp [Asset.kinds] at hk <;> (try rcases hk with hk | hk) <;> rw [hk] at hty <;> simp [Kind.typeName] at hty
    rw [hpool]
    rcases ha with rfl | rfl
    · rw [show "site-" ++ "import_power_mwh" = "site-import_power_mwh" from rfl, hco.import_cell hi]
      rfl
    · rw [show "site-" ++ "export_power_mwh" = "site-export_power_mwh" from rfl, hco.export_cell hi]
      rfl
  rw [← List.flatMap_singleton' ((List.range s.data.n).map (fun i => V ("site-" ++ attr) i)), List.flatMap_map]
  rw [List.flatMap_def, List.flatMap_def]
  congr 1
  exact List.map_congr_left this

/-- C45 from the results: with an exact solver the objective value is the sum of the simple terms plus `k` times the peak, the
greatest of the constant and the imports (exports) in all rows. -/
theorem C45_peak_results {ts : List Term} {attr : String} {M constant k : ℚ} (hk : 0 < k)
    (ha : attr = "import_power_mwh" ∨ attr = "export_power_mwh")
    (h : Run s (.custom (ts.map .simple ++ [.many "max_many_variables" (siteTerm attr) M constant k])) flags S r V) (hS : S.Exact)
    (hw : ∀ a ∈ s.assets, a.WellNamed) (hr : ∀ t ∈ ts, t.attr ∈ readable) :
    ∃ peak, Greatest ((List.range s.data.n).map (fun i => V ("site-" ++ attr) i) ++ [constant]) peak ∧
      r.status.objective = some ((ts.map (fun t => s.sumIntervals (fun i => t.read s V i))).sum + peak * k) := by
  obtain ⟨p, σ, hco⟩ := h.core
  obtain ⟨m, hm, ho⟩ := C45_max_optimum hk hco.program (core_optimal hco hS h.feasible)
  rw [site_operands hco ha] at hm
  exact ⟨m, hm, by rw [objective_value hco, ho, simple_reads hco hw hr]⟩

/-- C45 from the results: a charge on the smallest import (export) is exact for every sound solver. -/
theorem C45_min_results {ts : List Term} {attr : String} {M constant k : ℚ} (ha : attr = "import_power_mwh" ∨ attr = "export_power_mwh")
    (h : Run s (.custom (ts.map .simple ++ [.many "min_many_variables" (siteTerm attr) M constant k])) flags S r V)
    (hw : ∀ a ∈ s.assets, a.WellNamed) (hr : ∀ t ∈ ts, t.attr ∈ readable) :
    ∃ m, Least ((List.range s.data.n).map (fun i => V ("site-" ++ attr) i) ++ [constant]) m ∧
      r.status.objective = some ((ts.map (fun t => s.sumIntervals (fun i => t.read s V i))).sum + m * k) := by
  obtain ⟨p, σ, hco⟩ := h.core
  obtain ⟨m, hm, ho⟩ := C45_min hco.program hco.feas
  rw [site_operands hco ha] at hm
  exact ⟨m, hm, by rw [objective_value hco, ho, simple_reads hco hw hr]⟩

end

/-! ### The hypotheses are met -/

/-- C42, C44: a site of two intervals with the import cost as objective, and with a charge on the greater of import and 4. -/
example : (∃ s r V, Run s (.custom ([importCost].map .simple)) {} (checkSolver (tab demoSimple.answer)) r V ∧
      (∀ a ∈ s.assets, a.WellNamed) ∧ (∀ t ∈ [importCost], t.attr ∈ readable) ∧ r.status.objective = some 130) ∧
    (∃ s r V, Run s (.custom ([importCost].map .simple ++ [.two "max_two_variables" (.term importTerm) (.float 4) 100 none 7])) {}
        (checkSolver (tab demoMaxTwo.answer)) r V ∧ (∀ a ∈ s.assets, a.WellNamed) ∧
      (TermOrFloat.term importTerm).Readable ∧ (TermOrFloat.float 4).Readable ∧ r.status.objective = some 193) := by
  constructor
  · obtain ⟨s, r, V, hs, h, ht⟩ := Demo.run demoSimple_test
    simp only [Bool.and_eq_true, decide_eq_true_eq] at ht
    refine ⟨s, r, V, h, ?_, by decide +kernel, ht.2⟩
    rw [ht.1.1]
    simp
  · obtain ⟨s, r, V, hs, h, ht⟩ := Demo.run demoMaxTwo_test
    simp only [Bool.and_eq_true, decide_eq_true_eq] at ht
    refine ⟨s, r, V, h, ?_, by decide +kernel, by decide +kernel, ht.2⟩
    rw [ht.1.1]
    simp

/-- C45: an optimum with a charge on the peak import. -/
example : ∃ s r V S, S.Exact ∧ Run s (.custom ([importCost].map .simple ++ [.many "max_many_variables" (siteTerm "import_power_mwh") 100 0 7])) {}
    S r V ∧ (∀ a ∈ s.assets, a.WellNamed) ∧ r.status.objective = some 165 := by
  obtain ⟨s, r, V, S, hs, hS, h, ht⟩ := Demo.runOptimal demoMaxMany_test
  simp only [Bool.and_eq_true, decide_eq_true_eq] at ht
  refine ⟨s, r, V, S, hS, h, ?_, ht.2⟩
  rw [ht.1.1]
  simp

end EPL
