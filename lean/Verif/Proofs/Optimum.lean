/-
The terms of a custom objective at an optimum.
-/
import Verif.Proofs.OwnerTerms

namespace EPL

section
variable {σ : Assign} {s : Site} {flags : Flags} {p : Prob}

theorem zipIdx_split {α : Type} {l : List α} {a : α} {k : Nat} (h : (a, k) ∈ l.zipIdx) :
    ∃ pre post, l = pre ++ a :: post ∧ pre.length = k := by
  rw [List.mem_zipIdx_iff_getElem?] at h
  obtain ⟨hk, h⟩ := List.getElem?_eq_some_iff.1 h
  simp only at hk h
  exact ⟨l.take k, l.drop (k + 1), by rw [← h]; simp, by simp; omega⟩

/-- The terms one by one. -/
theorem contributions_gen {iv : IVars} {C : OneTerm × Nat → ℚ → Prop} (terms : List OneTerm) :
    ∀ (k : Nat) (simple : List Expr) (two many : List (Expr × List Con)),
    flatMapE (OneTerm.simpleExprs s.data iv) terms = .ok simple →
    flatMapE (fun (q : OneTerm × Nat) => q.1.twoExprs s.data iv q.2) (terms.zipIdx k) = .ok two →
    flatMapE (fun (q : OneTerm × Nat) => q.1.manyExprs iv q.2) (terms.zipIdx k) = .ok many →
    (∀ q ∈ terms.zipIdx k, ∀ x1 x2 x3, q.1.simpleExprs s.data iv = .ok x1 → q.1.twoExprs s.data iv q.2 = .ok x2 →
      q.1.manyExprs iv q.2 = .ok x3 → (∀ c ∈ x2.flatMap Prod.snd, c ∈ two.flatMap Prod.snd) → (∀ c ∈ x3.flatMap Prod.snd, c ∈ many.flatMap Prod.snd) →
      C q ((x1.map (Expr.eval σ)).sum + ((x2.map Prod.fst).map (Expr.eval σ)).sum + ((x3.map Prod.fst).map (Expr.eval σ)).sum)) →
    ∃ qs, List.Forall₂ C (terms.zipIdx k) qs ∧
      (simple.map (Expr.eval σ)).sum + ((two.map Prod.fst).map (Expr.eval σ)).sum + ((many.map Prod.fst).map (Expr.eval σ)).sum =
        qs.sum := by
  induction terms with
  | nil =>
    intro k simple two many h1 h2 h3 _
    simp only [List.zipIdx_nil, flatMapE_nil, Except.ok.injEq] at h1 h2 h3
    subst h1 h2 h3
    exact ⟨[], .nil, by simp⟩
  | cons t terms ih =>
    intro k simple two many h1 h2 h3 hC
    rw [List.zipIdx_cons] at h2 h3
    rw [flatMapE_cons] at h1 h2 h3
    simp only [bind_ok, Except.ok.injEq] at h1 h2 h3
    obtain ⟨x1, e1, y1, r1, rfl⟩ := h1
    obtain ⟨x2, e2, y2, r2, rfl⟩ := h2
    obtain ⟨x3, e3, y3, r3, rfl⟩ := h3
    simp only [List.zipIdx_cons, List.mem_cons, List.flatMap_append, List.mem_append] at hC
    obtain ⟨qs, hqs, hsum⟩ := ih (k + 1) y1 y2 y3 r1 r2 r3 (fun q hq x1 x2 x3 a1 a2 a3 a4 a5 =>
      hC q (.inr hq) x1 x2 x3 a1 a2 a3 (fun c h => .inr (a4 c h)) (fun c h => .inr (a5 c h)))
    refine ⟨_, .cons (hC (t, k) (.inl rfl) x1 x2 x3 e1 e2 e3 (fun c h => .inl h) (fun c h => .inl h)) hqs, ?_⟩
    rw [List.sum_cons, ← hsum]
    simp only [List.map_append, List.sum_append]
    ring

theorem forall₂_zipIdx {α β : Type} {R : α → β → Prop} {l : List α} : ∀ {k : Nat} {bs : List β},
    List.Forall₂ (fun (q : α × Nat) b => R q.1 b) (l.zipIdx k) bs → List.Forall₂ R l bs := by
  induction l with
  | nil => intro k bs h; rw [List.zipIdx_nil] at h; cases h; exact .nil
  | cons a l ih => intro k bs h; rw [List.zipIdx_cons] at h; cases h with | cons h1 h2 => exact .cons h1 (ih h2)

/-- Base and custom constraints are about variables of the site and its assets. -/
theorem base_over (hv : VarsOk s flags s.data.n) (hb : ∀ i < s.data.n, ∀ a ∈ s.assets, a.Buildable i) {c : Con} (hc : s.BaseCon flags c) :
    c.Over s.Owns := by
  rcases hc with ⟨i, hi, hc⟩ | ⟨i, hi, a, ha, hc⟩ | ⟨a, ha, hc⟩
  · exact siteList_over hv hi (hb i hi) c hc
  · exact (within_over c hc).mono fun v hv => .inr ⟨a, ha, hv⟩
  · exact (after_over c hc).mono fun v hv => .inr ⟨a, ha, hv⟩

theorem not_aux {v : LpVar} {k : Nat} (h : s.Owns v) : v.id.owner ≠ .aux k := by
  rcases h with h | ⟨a, _, h⟩ <;> rw [h] <;> simp

/-- A charge on a maximum is a charge on exactly the maximum, at an optimum. -/
theorem max_many_optimum {terms : List OneTerm} {iv : IVars} (hprog : s.program (.custom terms) flags = .ok (iv, p)) (hopt : p.Optimal σ)
    {k : Nat} {v : Term} {M constant coef : ℚ} (hm : (OneTerm.many "max_many_variables" v M constant coef, k) ∈ terms.zipIdx)
    (hcoef : 0 < coef) {es : List (Expr × List Con)}
    (he : (OneTerm.many "max_many_variables" v M constant coef).manyExprs iv k = .ok es) :
    ∃ m, Greatest (v.operands σ iv constant) m ∧ ((es.map Prod.fst).map (Expr.eval σ)).sum = m * coef := by
  obtain ⟨base, custom, objCons, hb, hcu, ho, hcons⟩ := (program_spec hprog).built
  have hiv := hb.iv_eq
  have hov : iv.Over s.Owns := by rw [hiv]; exact ivars_over hb.vars hb.buildable
  simp only [getObjective, customObjective, bind_ok, Except.ok.injEq, Prod.mk.injEq] at ho
  obtain ⟨simple, h1, two, h2, many, h3, hobj, hoc⟩ := ho
  -- the variable of the term
  have he' := he
  simp only [OneTerm.manyExprs, true_or, if_true, bind_ok, Prod.exists, Except.ok.injEq] at he
  obtain ⟨_, -, xs, hxs, c, cons, hmax, rfl⟩ := he
  obtain ⟨oc, -⟩ := manyVars_over (manyOperands_over hov hxs) (.inl hmax)
  have other : ∀ {i : Nat} {w : LpVar}, i ≠ k → OrAux s.Owns i w → w.id ≠ c.id := by
    intro i w hik hw e
    rcases hw with hw | hw
    · exact not_aux hw (e ▸ oc)
    · rw [e, oc] at hw
      simp at hw
      exact hik hw.symm
  have own : ∀ {w : LpVar}, s.Owns w → w.id ≠ c.id := fun hw e => not_aux hw (e ▸ oc)
  -- terms at other positions
  have twoMem : ∀ x ∈ two, ∃ i, i ≠ k ∧ x.1.Over (OrAux s.Owns i) ∧ ∀ c ∈ x.2, c.Over (OrAux s.Owns i) := by
    intro x hx
    obtain ⟨q, hq, l, hl, hx⟩ := (flatMapE_mem h2).1 hx
    refine ⟨q.2, ?_, twoExprs_over hov hl x hx⟩
    intro e
    have : q.1 = .many "max_many_variables" v M constant coef := by
      obtain ⟨q1, q2⟩ := q
      simp only at e
      subst e
      rw [List.mem_zipIdx_iff_getElem?] at hq hm
      exact Option.some.inj (hq.symm.trans hm)
    rw [this, OneTerm.twoExprs, if_neg (by decide)] at hl
    simp only [Except.ok.injEq] at hl
    subst hl
    simp at hx
  have manyMem : ∀ x ∈ many, x = (Expr.var c * coef, cons) ∨ ∃ i, i ≠ k ∧ x.1.Over (OrAux s.Owns i) ∧ ∀ c ∈ x.2, c.Over (OrAux s.Owns i) := by
    intro x hx
    obtain ⟨q, hq, l, hl, hx⟩ := (flatMapE_mem h3).1 hx
    by_cases e : q.2 = k
    · left
      have : q.1 = .many "max_many_variables" v M constant coef := by
        obtain ⟨q1, q2⟩ := q
        simp only at e
        subst e
        rw [List.mem_zipIdx_iff_getElem?] at hq hm
        exact Option.some.inj (hq.symm.trans hm)
      rw [this, e, he'] at hl
      simp only [Except.ok.injEq] at hl
      subst hl
      exact List.mem_singleton.1 hx
    · exact .inr ⟨q.2, e, manyExprs_over hov hl x hx⟩
  -- the part of the list before and after the term
  obtain ⟨pre, post, hterms, hlen⟩ := zipIdx_split hm
  have hmany : ∃ l1 l2, many = l1 ++ (Expr.var c * coef, cons) :: l2 ∧ ∀ x ∈ l1 ++ l2, ∃ i, i ≠ k ∧ x.1.Over (OrAux s.Owns i) := by
    rw [hterms, List.zipIdx_append, flatMapE_append, List.zipIdx_cons] at h3
    simp only [bind_ok, Except.ok.injEq] at h3
    obtain ⟨l1, hl1, l2', hl2, rfl⟩ := h3
    rw [flatMapE_cons] at hl2
    simp only [bind_ok, Except.ok.injEq] at hl2
    obtain ⟨x, hx, l2, hl2, rfl⟩ := hl2
    rw [show 0 + pre.length = k by omega] at hx hl2
    rw [he'] at hx
    simp only [Except.ok.injEq] at hx
    subst hx
    refine ⟨l1, l2, rfl, ?_⟩
    intro y hy
    rcases List.mem_append.1 hy with hy | hy
    · obtain ⟨q, hq, l, hl, hy⟩ := (flatMapE_mem hl1).1 hy
      refine ⟨q.2, ?_, (manyExprs_over hov hl y hy).1⟩
      obtain ⟨q1, q2⟩ := q
      have := List.mem_zipIdx hq
      simp only
      omega
    · obtain ⟨q, hq, l, hl, hy⟩ := (flatMapE_mem hl2).1 hy
      refine ⟨q.2, ?_, (manyExprs_over hov hl y hy).1⟩
      obtain ⟨q1, q2⟩ := q
      have := List.mem_zipIdx hq
      simp only
      omega
  obtain ⟨l1, l2, hl, hl12⟩ := hmany
  have hsub : ∀ con ∈ cons, con ∈ p.cons := by
    intro con hcon
    rw [hcons, ← hoc, hl]
    simp only [List.mem_append, List.mem_flatMap]
    exact .inr (.inr ⟨(Expr.var c * coef, cons), by simp, hcon⟩)
  have hval : values σ xs = v.operands σ iv constant := manyOperands_ok hxs
  refine ⟨σ c.id, ?_, by simp⟩
  rw [← hval]
  refine max_optimum hmax (others := p.cons.filter (fun con => con ∉ cons)) ?_ ?_ ?_ hcoef ?_ ?_ hopt
  · intro con
    by_cases hcc : con ∈ cons <;> simp [hcc, hsub]
  · intro con hcon w hw
    rw [List.mem_filter, decide_eq_true_iff] at hcon
    obtain ⟨hcon, hnot⟩ := hcon
    rw [hcons, ← hoc] at hcon
    rcases List.mem_append.1 hcon with hcon | hcon
    · rcases List.mem_append.1 hcon with hcon | hcon
      · exact own (base_over hb.vars hb.buildable ((hb.mem_iff con).1 hcon) w hw)
      · exact own (custom_over hov hcu con hcon w hw)
    · rcases List.mem_append.1 hcon with hcon | hcon
      · obtain ⟨x, hx, hcx⟩ := List.mem_flatMap.1 hcon
        obtain ⟨i, hik, _, hi⟩ := twoMem x hx
        exact other hik (hi con hcx w hw)
      · obtain ⟨x, hx, hcx⟩ := List.mem_flatMap.1 hcon
        rcases manyMem x hx with rfl | ⟨i, hik, _, hi⟩
        · exact absurd hcx hnot
        · exact other hik (hi con hcx w hw)
  · intro x hx hxc
    have := manyOperands_over hov hxs x hx
    cases x with
    | var w => exact own this hxc
    | _ => exact hxc
  · intro w hw hwc
    rw [← hobj, Expr.vars_sum, List.mem_flatMap] at hw
    obtain ⟨e, he, hw⟩ := hw
    rcases List.mem_append.1 he with he | he
    · rcases List.mem_append.1 he with he | he
      · obtain ⟨t, _, l, hl, hx⟩ := (flatMapE_mem h1).1 he
        exact absurd hwc (own (simpleExprs_over hov hl e hx w hw))
      · obtain ⟨x, hx, rfl⟩ := List.mem_map.1 he
        obtain ⟨i, hik, hi, _⟩ := twoMem x hx
        exact absurd hwc (other hik (hi w hw))
    · obtain ⟨x, hx, rfl⟩ := List.mem_map.1 he
      rcases manyMem x hx with rfl | ⟨i, hik, hi, _⟩
      · simp only [Expr.mem_vars_mul, Expr.vars_var, List.mem_singleton] at hw
        exact hw.2
      · exact absurd hwc (other hik (hi w hw))
  · intro τ hτ
    have same : ∀ {e : Expr} {i : Nat}, i ≠ k → e.Over (OrAux s.Owns i) → e.eval τ = e.eval σ := fun hik h =>
      Expr.eval_congr fun w hw => hτ _ (other hik (h w hw))
    rw [← hobj, hl]
    simp only [Expr.eval_sum, List.map_append, List.sum_append, List.map_cons, List.sum_cons, Expr.eval_mul, Expr.eval_var, List.map_map]
    have e1 : (simple.map (Expr.eval τ)).sum = (simple.map (Expr.eval σ)).sum := by
      refine congrArg List.sum (List.map_congr_left fun e he => ?_)
      obtain ⟨t, _, l, hl, hx⟩ := (flatMapE_mem h1).1 he
      exact Expr.eval_congr fun w hw => hτ _ (own (simpleExprs_over hov hl e hx w hw))
    have e2 : (two.map (Expr.eval τ ∘ Prod.fst)).sum = (two.map (Expr.eval σ ∘ Prod.fst)).sum := by
      refine congrArg List.sum (List.map_congr_left fun x hx => ?_)
      obtain ⟨i, hik, hi, _⟩ := twoMem x hx
      exact same hik hi
    have e3 : (l1.map (Expr.eval τ ∘ Prod.fst)).sum = (l1.map (Expr.eval σ ∘ Prod.fst)).sum := by
      refine congrArg List.sum (List.map_congr_left fun x hx => ?_)
      obtain ⟨i, hik, hi⟩ := hl12 x (List.mem_append.2 (.inl hx))
      exact same hik hi
    have e4 : (l2.map (Expr.eval τ ∘ Prod.fst)).sum = (l2.map (Expr.eval σ ∘ Prod.fst)).sum := by
      refine congrArg List.sum (List.map_congr_left fun x hx => ?_)
      obtain ⟨i, hik, hi⟩ := hl12 x (List.mem_append.2 (.inr hx))
      exact same hik hi
    rw [e1, e2, e3, e4]
    ring

end

end EPL
