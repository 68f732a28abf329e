/-
Custom objective terms and what they evaluate to.
-/
import Verif.Proofs.Terms
import Verif.Proofs.Cost
import Verif.Proofs.Reads
import Verif.Props.Helpers
import Verif.Spec.ObjectiveTerms

namespace EPL

theorem sum_flatten_eval {σ : Assign} {α : Type} {f : α → Res (List Expr)} {g : α → ℚ} {l : List α} {es : List Expr}
    (h : flatMapE f l = .ok es) (hg : ∀ a ∈ l, ∀ e, f a = .ok e → (e.map (Expr.eval σ)).sum = g a) :
    (es.map (Expr.eval σ)).sum = (l.map g).sum := by
  induction l generalizing es with
  | nil => simp at h; subst h; rfl
  | cons a l ih =>
    rw [flatMapE_cons] at h
    simp only [bind_ok, Except.ok.injEq] at h
    obtain ⟨x, hx, y, hy, rfl⟩ := h
    rw [List.map_append, List.sum_append, List.map_cons, List.sum_cons, hg a (by simp) x hx,
      ih hy (fun i hi => hg i (by simp [hi]))]

section
variable {σ : Assign} {s : Site} {iv : IVars}

theorem simpleTermAssets_ok {i : Nat} {t : Term} {l : List OneInterval} (h : simpleTermAssets iv i t = .ok l) :
    l = t.select (iv.getD i []) := by
  unfold simpleTermAssets at h
  unfold Term.select
  split at h
  · rename_i ht
    rw [if_pos ht]
    rw [pyIndex_nat] at h
    rw [List.getD_eq_getElem?_getD, h]; rfl
  · rename_i ht
    rw [if_neg ht]
    exact (filterStr_ok h).2.1

/-- A simple term. -/
theorem simple_eval {t : Term} {es : List Expr} (h : (OneTerm.simple t).simpleExprs s.data iv = .ok es) :
    (es.map (Expr.eval σ)).sum = s.sumIntervals (fun i => t.value σ s.data (iv.getD i []) i) := by
  unfold OneTerm.simpleExprs at h
  refine sum_flatten_eval h ?_
  intro i _ e he
  rw [bind_ok] at he
  obtain ⟨l, hl, he⟩ := he
  rw [simpleTermAssets_ok hl] at he
  unfold simpleTermExprs at he
  refine term_exprs he ?_
  intro o x hx
  simp only [bind_ok, Except.ok.injEq] at hx
  obtain ⟨v, hv, q, hq, rfl⟩ := hx
  rw [attrValue_of hv, factor_value hq]
  simp

theorem simple_nil {t : OneTerm} {es : List Expr} (ht : ∀ t', t ≠ .simple t') (h : t.simpleExprs s.data iv = .ok es) : es = [] := by
  cases t with
  | simple t => exact absurd rfl (ht t)
  | _ => simp only [OneTerm.simpleExprs, Except.ok.injEq] at h; exact h.symm

end

section
variable {σ : Assign} {s : Site} {flags : Flags} {p : Prob} {objective : Objective}

/-- The operands of a two variable term are numbers or attributes of the site. -/
theorem resolve_operand (hp : Prog s objective flags (s.ivarsTo flags s.data.n) p) {i : Nat} (hi : i < s.data.n) {a : TermOrFloat} {v : Val}
    (hc : a.check = .ok ()) (h : a.resolve (s.ivarsTo flags s.data.n) i = .ok v) : v.eval σ = a.value σ s i := by
  cases a with
  | float q =>
    simp only [TermOrFloat.resolve, Except.ok.injEq] at h
    subst h; rfl
  | term t =>
    simp only [TermOrFloat.resolve, bind_ok] at h
    obtain ⟨l, hl, x, hx, h⟩ := h
    obtain ⟨_, hl, _⟩ := filterStr_ok hl
    simp only [TermOrFloat.check, bind_ok, pyAssert_ok] at hc
    obtain ⟨_, _, _, hn, _⟩ := hc
    have e : (s.ivarsTo flags s.data.n).getD i [] = s.ones flags i := by
      rw [List.getD_eq_getElem?_getD, ivarsTo_get s flags hi]; rfl
    rw [e, ones_eq hp.vars hi, List.filter_cons, if_pos] at hl
    · subst hl
      have h0 : pyIndex (α := OneInterval) (OneInterval.site (s.oneInterval i) ::
          List.filter (fun o => decide (Selected none t.assetName o)) (s.assets.flatMap fun a => a.ois i s.freq flags)) 0 =
          .ok (.site (s.oneInterval i)) := rfl
      rw [h0, Except.ok.injEq] at hx
      subst hx
      exact (attrValue_of h).symm
    · simp only [Bool.or_eq_true, beq_iff_eq] at hn
      exact decide_eq_true ⟨.inl rfl, hn⟩

theorem two_eval (hp : Prog s objective flags (s.ivarsTo flags s.data.n) p) (hf : p.Feasible σ) {t : OneTerm} {k : Nat}
    {es : List (Expr × List Con)} (h : t.twoExprs s.data (s.ivarsTo flags s.data.n) k = .ok es) (hc : ∀ c ∈ es.flatMap Prod.snd, c ∈ p.cons) :
    ∀ f a b M data coef, t = .two f a b M data coef →
      (((es.map Prod.fst).map (Expr.eval σ)).sum =
        if f = "max_two_variables" then s.sumIntervals (fun i => max (a.value σ s i) (b.value σ s i) * s.data.value data i * coef)
        else if f = "min_two_variables" then s.sumIntervals (fun i => min (a.value σ s i) (b.value σ s i) * s.data.value data i * coef)
        else 0) := by
  rintro f a b M data coef rfl
  by_cases hfn : f = "max_two_variables" ∨ f = "min_two_variables"
  swap
  · simp only [OneTerm.twoExprs, if_neg hfn, Except.ok.injEq] at h
    subst h
    rw [if_neg (fun h => hfn (.inl h)), if_neg (fun h => hfn (.inr h))]
    rfl
  simp only [OneTerm.twoExprs, if_pos hfn] at h
  have key : ∀ (is : List Nat) (es : List (Expr × List Con)), (∀ i ∈ is, i < s.data.n) →
      mapE (fun (i : Nat) => do
        a.check
        b.check
        let x ← a.resolve (s.ivarsTo flags s.data.n) i
        let y ← b.resolve (s.ivarsTo flags s.data.n) i
        let (c, cons) ←
          if f = "max_two_variables" then maxTwoVariables (twoName f i a b) k x y M
          else minTwoVariables (twoName f i a b) k x y M
        let fac ← s.data.factor data i
        .ok (Expr.var c * fac * coef, cons)) is = .ok es → (∀ c ∈ es.flatMap Prod.snd, c ∈ p.cons) →
      ((es.map Prod.fst).map (Expr.eval σ)).sum = (is.map (fun i =>
        (if f = "max_two_variables" then max (a.value σ s i) (b.value σ s i) else min (a.value σ s i) (b.value σ s i)) *
          s.data.value data i * coef)).sum := by
    intro is
    induction is with
    | nil => intro es _ h _; simp only [mapE, Except.ok.injEq] at h; subst h; rfl
    | cons i is ih =>
      intro es hlt h hc
      simp only [mapE] at h
      rw [bind_ok] at h
      obtain ⟨x, hx, h⟩ := h
      rw [bind_ok] at h
      obtain ⟨xs, hxs, h⟩ := h
      simp only [Except.ok.injEq] at h
      subst h
      rw [List.map_cons, List.map_cons, List.sum_cons, List.map_cons, List.sum_cons,
        ih xs (fun j hj => hlt j (by simp [hj])) hxs (fun c hcc => hc c (by rw [List.flatMap_cons]; exact List.mem_append_right _ hcc))]
      congr 1
      rw [bind_ok] at hx
      obtain ⟨u, h1, hx⟩ := hx
      rw [bind_ok] at hx
      obtain ⟨u', h2, hx⟩ := hx
      rw [bind_ok] at hx
      obtain ⟨va, h3, hx⟩ := hx
      rw [bind_ok] at hx
      obtain ⟨vb, h4, hx⟩ := hx
      have hi := hlt i (by simp)
      have ea := resolve_operand (σ := σ) hp hi h1 h3
      have eb := resolve_operand (σ := σ) hp hi h2 h4
      have hcons : ∀ c ∈ x.2, c ∈ p.cons := fun c hcc => hc c (by rw [List.flatMap_cons]; exact List.mem_append_left _ hcc)
      by_cases hm : f = "max_two_variables"
      · simp only [if_pos hm] at hx ⊢
        simp only [bind_ok, Prod.exists, Except.ok.injEq] at hx
        obtain ⟨c, cons, hmax, fac, hfac, rfl⟩ := hx
        have := C34_max_exact hmax hcons hf
        simp only [Expr.eval_mul, Expr.eval_var, this, ea, eb, factor_value hfac]
      · simp only [if_neg hm] at hx ⊢
        simp only [bind_ok, Prod.exists, Except.ok.injEq] at hx
        obtain ⟨c, cons, hmin, fac, hfac, rfl⟩ := hx
        have := C34_min_exact hmin hcons hf
        simp only [Expr.eval_mul, Expr.eval_var, this, ea, eb, factor_value hfac]
  have := key (List.range s.data.n) es (fun i hi => List.mem_range.1 hi) h hc
  rw [this]
  by_cases hm : f = "max_two_variables"
  · simp only [if_pos hm]; rfl
  · have hm2 : f = "min_two_variables" := hfn.resolve_left hm
    simp only [if_neg hm, if_pos hm2]; rfl

theorem two_nil {t : OneTerm} {iv : IVars} {k : Nat} {es : List (Expr × List Con)} (h : t.twoExprs s.data iv k = .ok es)
    (ht : ∀ f a b M data coef, t ≠ .two f a b M data coef) : es = [] := by
  cases t with
  | simple t => simp only [OneTerm.twoExprs, Except.ok.injEq] at h; exact h.symm
  | two f a b M data coef => exact (ht _ _ _ _ _ _ rfl).elim
  | many f v M c coef =>
    simp only [OneTerm.twoExprs] at h
    split at h
    · simp at h
    · simp only [Except.ok.injEq] at h; exact h.symm

theorem many_nil {t : OneTerm} {iv : IVars} {k : Nat} {es : List (Expr × List Con)} (h : t.manyExprs iv k = .ok es)
    (ht : ∀ f v M c coef, t ≠ .many f v M c coef) : es = [] := by
  cases t with
  | simple t => simp only [OneTerm.manyExprs, Except.ok.injEq] at h; exact h.symm
  | many f v M c coef => exact (ht _ _ _ _ _ rfl).elim
  | two f a b M d coef =>
    simp only [OneTerm.manyExprs] at h
    split at h
    · simp at h
    · simp only [Except.ok.injEq] at h; exact h.symm

/-- `filter_objective_variables_all_intervals` selects in every interval. -/
theorem filterAllStr_ok {iv : IVars} {type name : Option String} {l : List (List OneInterval)} (h : iv.filterAllStr type name = .ok l) :
    l = iv.map (fun objects => objects.filter (fun o => Selected type name o)) := by
  cases iv with
  | nil => simp only [IVars.filterAllStr, Except.ok.injEq] at h; subst h; rfl
  | cons x xs =>
    have key : ∀ {k : Option Kind}, IVars.filterAll (x :: xs) k name = l → (∀ o, matchesFilter k name o = decide (Selected type name o)) →
        l = (x :: xs).map (fun objects => objects.filter (fun o => Selected type name o)) := by
      intro k h hk
      rw [← h]
      unfold IVars.filterAll
      apply List.map_congr_left
      intro objects _
      exact List.filter_congr (fun o _ => hk o)
    cases type with
    | none =>
      simp only [IVars.filterAllStr, ok_bind, Except.ok.injEq] at h
      refine key h ?_
      intro o
      cases name with
      | none => simp [matchesFilter, Selected]
      | some n => simp [matchesFilter, Selected, eq_comm, Bool.beq_eq_decide_eq]
    | some t =>
      simp only [IVars.filterAllStr, bind_ok, Except.ok.injEq] at h
      obtain ⟨k, hk, h⟩ := h
      exact key h (fun o => typeMapper_selected hk name o)

theorem manyOperands_ok {iv : IVars} {v : Term} {constant : ℚ} {xs : List Val} (h : manyOperands iv v constant = .ok xs) :
    values σ xs = v.operands σ iv constant := by
  unfold manyOperands at h
  have hsel : ∃ assets : List (List OneInterval), assets.flatten = iv.flatMap v.pool ∧
      (do let vals ← mapE (fun (a : OneInterval) => a.getattr v.attr) assets.flatten
          (.ok (vals.filter (fun (x : Val) => !x.isNone) ++ [Val.num constant]) : Res (List Val))) = .ok xs := by
    by_cases h1 : v.assetType = some "*"
    · simp only [if_pos h1] at h
      rw [bind_ok] at h
      obtain ⟨as, has, h⟩ := h
      refine ⟨as, ?_, h⟩
      rw [filterAllStr_ok has, List.flatMap]
      congr 1
      apply List.map_congr_left
      intro objects _
      simp only [Term.pool, if_pos h1]
      rw [List.filter_eq_self]
      intro o _
      simp [Selected, h1]
    · simp only [if_neg h1] at h
      by_cases h2 : v.assetName = none
      · simp only [if_pos h2] at h
        rw [bind_ok] at h
        obtain ⟨as, has, h⟩ := h
        refine ⟨as, ?_, h⟩
        rw [filterAllStr_ok has, List.flatMap]
        congr 1
        apply List.map_congr_left
        intro objects _
        simp only [Term.pool, if_neg h1, if_pos h2]
      · simp only [if_neg h2] at h
        rw [bind_ok] at h
        obtain ⟨as, has, h⟩ := h
        refine ⟨as, ?_, h⟩
        rw [filterAllStr_ok has, List.flatMap]
        congr 1
        apply List.map_congr_left
        intro objects _
        simp only [Term.pool, if_neg h1, if_neg h2]
  obtain ⟨as, has, h⟩ := hsel
  rw [has] at h
  simp only [bind_ok, Except.ok.injEq] at h
  obtain ⟨vals, hv, rfl⟩ := h
  unfold values Term.operands
  rw [List.map_append]
  congr 1
  rw [mapE_ok] at hv
  clear h has
  generalize iv.flatMap v.pool = l at hv
  induction hv with
  | nil => rfl
  | @cons o x os vs h1 _ ih =>
    rw [List.filterMap_cons, List.filter_cons]
    simp only [OneInterval.number?, h1]
    cases x with
    | none => simpa [Val.isNone] using ih
    | _ => simpa [Val.isNone] using ih

theorem many_eval {iv : IVars} (hf : p.Feasible σ) {f : String} {v : Term} {M constant coef : ℚ} {k : Nat}
    {es : List (Expr × List Con)} (h : (OneTerm.many f v M constant coef).manyExprs iv k = .ok es) (hc : ∀ c ∈ es.flatMap Prod.snd, c ∈ p.cons) :
    (OneTerm.many f v M constant coef).Contributes σ s iv (((es.map Prod.fst).map (Expr.eval σ)).sum) := by
  unfold OneTerm.Contributes
  by_cases hfn : f = "max_many_variables" ∨ f = "min_many_variables"
  swap
  · simp only [OneTerm.manyExprs, if_neg hfn, Except.ok.injEq] at h
    subst h
    simp only [if_neg (fun h => hfn (.inl h)), if_neg (fun h => hfn (.inr h))]
    rfl
  simp only [OneTerm.manyExprs, if_pos hfn] at h
  rw [bind_ok] at h
  obtain ⟨_, _, h⟩ := h
  rw [bind_ok] at h
  obtain ⟨ops, hops, h⟩ := h
  have hval := manyOperands_ok (σ := σ) hops
  by_cases hm : f = "max_many_variables"
  · simp only [if_pos hm] at h ⊢
    simp only [bind_ok, Prod.exists, Except.ok.injEq] at h
    obtain ⟨c, cons, hmax, rfl⟩ := h
    simp only [List.flatMap_cons, List.flatMap_nil, List.append_nil] at hc
    refine ⟨σ c.id, ?_, by simp⟩
    rw [← hval]
    exact C36_max_bound hmax hc hf
  · have hm2 : f = "min_many_variables" := hfn.resolve_left hm
    simp only [if_neg hm, if_pos hm2] at h ⊢
    simp only [bind_ok, Prod.exists, Except.ok.injEq] at h
    obtain ⟨c, cons, hmin, rfl⟩ := h
    simp only [List.flatMap_cons, List.flatMap_nil, List.append_nil] at hc
    refine ⟨σ c.id, ?_, by simp⟩
    rw [← hval]
    exact C35_min_exact hmin hc hf

/-- All terms of a custom objective. -/
theorem contributions_aux (hp : Prog s objective flags (s.ivarsTo flags s.data.n) p) (hf : p.Feasible σ) (terms : List OneTerm) :
    ∀ (k : Nat) (simple : List Expr) (two many : List (Expr × List Con)),
    flatMapE (OneTerm.simpleExprs s.data (s.ivarsTo flags s.data.n)) terms = .ok simple →
    flatMapE (fun (q : OneTerm × Nat) => q.1.twoExprs s.data (s.ivarsTo flags s.data.n) q.2) (terms.zipIdx k) = .ok two →
    flatMapE (fun (q : OneTerm × Nat) => q.1.manyExprs (s.ivarsTo flags s.data.n) q.2) (terms.zipIdx k) = .ok many →
    (∀ c ∈ two.flatMap Prod.snd, c ∈ p.cons) → (∀ c ∈ many.flatMap Prod.snd, c ∈ p.cons) →
    ∃ qs, List.Forall₂ (OneTerm.Contributes σ s (s.ivarsTo flags s.data.n)) terms qs ∧
      (simple.map (Expr.eval σ)).sum + ((two.map Prod.fst).map (Expr.eval σ)).sum + ((many.map Prod.fst).map (Expr.eval σ)).sum =
        qs.sum := by
  induction terms with
  | nil =>
    intro k simple two many h1 h2 h3 _ _
    simp only [List.zipIdx_nil, flatMapE_nil, Except.ok.injEq] at h1 h2 h3
    subst h1 h2 h3
    exact ⟨[], .nil, by simp⟩
  | cons t terms ih =>
    intro k simple two many h1 h2 h3 hc2 hc3
    rw [List.zipIdx_cons] at h2 h3
    rw [flatMapE_cons] at h1 h2 h3
    simp only [bind_ok, Except.ok.injEq] at h1 h2 h3
    obtain ⟨x1, e1, y1, r1, rfl⟩ := h1
    obtain ⟨x2, e2, y2, r2, rfl⟩ := h2
    obtain ⟨x3, e3, y3, r3, rfl⟩ := h3
    simp only [List.flatMap_append, List.mem_append] at hc2 hc3
    obtain ⟨qs, hqs, hsum⟩ := ih (k + 1) y1 y2 y3 r1 r2 r3 (fun c h => hc2 c (.inr h)) (fun c h => hc3 c (.inr h))
    have ht : t.Contributes σ s (s.ivarsTo flags s.data.n) ((x1.map (Expr.eval σ)).sum + ((x2.map Prod.fst).map (Expr.eval σ)).sum +
        ((x3.map Prod.fst).map (Expr.eval σ)).sum) := by
      cases t with
      | simple t =>
        rw [two_nil e2 (by simp), many_nil e3 (by simp)]
        unfold OneTerm.Contributes
        simp only [List.map_nil, List.sum_nil, add_zero]
        exact simple_eval e1
      | two f a b M data coef =>
        rw [simple_nil (by simp) e1, many_nil e3 (by simp)]
        have := two_eval hp hf e2 (fun c h => hc2 c (.inl h)) f a b M data coef rfl
        unfold OneTerm.Contributes
        simp only [List.map_nil, List.sum_nil, add_zero, zero_add]
        rw [this]
        split
        · rfl
        · split <;> rfl
      | many f v M constant coef =>
        rw [simple_nil (by simp) e1, two_nil e2 (by simp)]
        simp only [List.map_nil, List.sum_nil, zero_add]
        exact many_eval hf e3 (fun c h => hc3 c (.inl h))
    refine ⟨_, .cons ht hqs, ?_⟩
    rw [List.sum_cons, ← hsum]
    simp only [List.map_append, List.sum_append]
    ring

end

end EPL
