/-
Custom constraint terms and what they evaluate to.
-/
import Verif.Proofs.Program
import Verif.Spec.Terms
import Mathlib.Algebra.BigOperators.Ring.List

namespace EPL

section
variable {σ : Assign} {d : SiteData} {i : Nat}

/-- The specified value of interval data is found in the dump of the data. -/
theorem value_dump {n : String} : d.value (some n) i = if n = "idx" then (i : ℚ) else ((d.dump.lookup n).getD []).getD i 0 := by
  simp only [SiteData.value, SiteData.dump, List.cons_append, List.nil_append]
  split
  · rfl
  · by_cases h1 : n = "electricity_prices"
    · simp [h1]
    rw [if_neg h1, List.lookup_cons, beq_false_of_ne h1]
    by_cases h2 : n = "export_electricity_prices"
    · simp [h2]
    simp only
    rw [if_neg h2, List.lookup_cons, beq_false_of_ne h2]
    by_cases h3 : n = "electricity_carbon_intensities"
    · simp [h3]
    simp only
    rw [if_neg h3, List.lookup_cons, beq_false_of_ne h3]
    by_cases h4 : n = "gas_prices"
    · simp [h4]
    simp only
    rw [if_neg h4, List.lookup_cons, beq_false_of_ne h4]
    by_cases h5 : n = "electric_load_mwh"
    · simp [h5]
    simp only
    rw [if_neg h5, List.lookup_cons, beq_false_of_ne h5]
    by_cases h6 : n = "high_temperature_load_mwh"
    · simp [h6]
    simp only
    rw [if_neg h6, List.lookup_cons, beq_false_of_ne h6]
    by_cases h7 : n = "low_temperature_load_mwh"
    · simp [h7]
    simp only
    rw [if_neg h7, List.lookup_cons, beq_false_of_ne h7]
    by_cases h8 : n = "low_temperature_generation_mwh"
    · simp [h8]
    simp only
    rw [if_neg h8, List.lookup_cons, beq_false_of_ne h8]

theorem at_value {n : String} {q : ℚ} (h : d.at n i = .ok q) : d.value (some n) i = q := by
  unfold SiteData.at at h
  rw [value_dump]
  by_cases hn : n = "idx"
  · simp only [hn, if_true] at h ⊢
    split at h
    · cases h; rfl
    · cases h
  · simp only [if_neg hn] at h ⊢
    cases hl : d.dump.lookup n with
    | none => rw [hl] at h; cases h
    | some l =>
      rw [hl] at h
      rw [pyIndex_nat] at h
      simp [List.getD_eq_getElem?_getD, h]

theorem factor_value {n : Option String} {q : ℚ} (h : d.factor n i = .ok q) : d.value n i = q := by
  cases n with
  | none => simp only [SiteData.factor, Except.ok.injEq] at h; simp [SiteData.value, h]
  | some n => exact at_value h

theorem attrValue_of {x : OneInterval} {a : String} {v : Val} (h : x.getattr a = .ok v) : x.attrValue σ a = v.eval σ := by
  simp [OneInterval.attrValue, h]

/-- The expressions of a term evaluate to its sum over the objects. -/
theorem term_exprs {f : OneInterval → Res Expr} {attr : String} {data : Option String} {k : ℚ} {l : List OneInterval}
    {es : List Expr} (h : mapE f l = .ok es)
    (hf : ∀ o e, f o = .ok e → e.eval σ = o.attrValue σ attr * d.value data i * k) :
    (es.map (Expr.eval σ)).sum = termSum σ d i attr data k l := by
  rw [mapE_ok] at h
  unfold termSum
  induction h with
  | nil => rfl
  | cons h1 _ ih => rw [List.map_cons, List.sum_cons, List.map_cons, List.sum_cons, ih, hf _ _ h1]

theorem typeMapper_known {t : String} {k : Option Kind} (h : typeMapper t = .ok k) : t ∈ assetTypes := by
  unfold typeMapper at h
  simp only [assetTypes, List.mem_cons, List.not_mem_nil, or_false]
  split_ifs at h <;> simp_all

theorem typeMapper_kind {t : String} {k : Option Kind} (h : typeMapper t = .ok k) (κ : Kind) :
    (match k with | some k => κ == k | none => true) =
      decide ((some t : Option String) = none ∨ (some t : Option String) = some "*" ∨ κ.typeName = some t) := by
  unfold typeMapper at h
  split_ifs at h <;> (cases h; subst_vars; revert κ; simp only; intro κ; cases κ <;> decide +kernel)

theorem typeMapper_selected {t : String} {k : Option Kind} (h : typeMapper t = .ok k) (name : Option String) (o : OneInterval) :
    matchesFilter k name o = decide (Selected (some t) name o) := by
  have hk := typeMapper_kind h o.kind
  rw [Bool.eq_iff_iff]
  rw [decide_eq_true_iff]
  unfold matchesFilter Selected
  rw [Bool.and_eq_true]
  apply and_congr
  · have hk' := congrArg (fun b => b = true) hk
    simp only [decide_eq_true_eq, eq_iff_iff] at hk'
    cases k <;> exact hk'
  · cases name with
    | none => simp
    | some n => simp only [beq_iff_eq, reduceCtorEq, Option.some.injEq, false_or]; exact eq_comm

/-- `filter_objective_variables` selects the matching objects of the interval. -/
theorem filterStr_ok {iv : IVars} {type name : Option String} {l : List OneInterval} (h : iv.filterStr i type name = .ok l) :
    i < iv.length ∧ l = (iv.getD i []).filter (fun o => Selected type name o) ∧ (∀ t, type = some t → t ∈ assetTypes) := by
  unfold IVars.filterStr at h
  have key : ∀ {k : Option Kind}, iv.filter i k name = .ok l → (∀ o, matchesFilter k name o = decide (Selected type name o)) →
      i < iv.length ∧ l = (iv.getD i []).filter (fun o => Selected type name o) := by
    intro k h hk
    simp only [IVars.filter, bind_ok, pyIndex_nat, Except.ok.injEq] at h
    obtain ⟨objs, ho, rfl⟩ := h
    refine ⟨(List.getElem?_eq_some_iff.1 ho).1, ?_⟩
    rw [List.getD_eq_getElem?_getD, ho]
    exact List.filter_congr (fun o _ => hk o)
  cases type with
  | none =>
    simp only [ok_bind] at h
    have := key h (by
      intro o
      cases name with
      | none => simp [matchesFilter, Selected]
      | some n => simp [matchesFilter, Selected, eq_comm, Bool.beq_eq_decide_eq])
    exact ⟨this.1, this.2, by simp⟩
  | some t =>
    simp only [bind_ok] at h
    obtain ⟨k, hk, h⟩ := h
    have := key h (fun o => typeMapper_selected hk name o)
    refine ⟨this.1, this.2, ?_⟩
    intro t' ht
    cases ht
    exact typeMapper_known hk

/-- What one interval contributes to an entry: with aggregation a number is spread over the intervals. -/
def CEntry.share (σ : Assign) (d : SiteData) (objects : List OneInterval) (i : Nat) (divide : Bool) : CEntry → ℚ
  | .num q => q / (if divide then (d.n : ℚ) else 1)
  | .term t => CEntry.value σ d objects i (.term t)

/-- One entry of a custom constraint. -/
theorem resolve_value {iv : IVars} {divide : Bool} {e : CEntry} {es : List Expr}
    (h : resolveConstraintTerm d iv i divide e = .ok es) :
    (es.map (Expr.eval σ)).sum = e.share σ d (iv.getD i []) i divide := by
  cases e with
  | num q =>
    simp only [resolveConstraintTerm, Except.ok.injEq] at h
    subst h
    simp [CEntry.share]
  | term t =>
    simp only [resolveConstraintTerm, bind_ok] at h
    obtain ⟨vars, hv, h⟩ := h
    obtain ⟨-, rfl, -⟩ := filterStr_ok hv
    refine (term_exprs (attr := t.attr) (data := t.intervalData) (k := t.coefficient) h ?_)
    intro o e he
    rw [bind_ok] at he
    obtain ⟨x, hx, he⟩ := he
    have hf : ∃ q, d.factor t.intervalData i = .ok q ∧ x.toExpr * q * t.coefficient = e := by
      cases hd : t.intervalData with
      | none => rw [hd] at he; simp only [ok_bind, Except.ok.injEq] at he; exact ⟨1, rfl, he⟩
      | some n =>
        rw [hd] at he
        simp only [bind_ok, Except.ok.injEq] at he
        exact he
    obtain ⟨q, hq, rfl⟩ := hf
    rw [attrValue_of hx, factor_value hq]
    simp

theorem addTerms_value {iv : IVars} {divide : Bool} {side : CSide} {es : List Expr}
    (h : addTerms d iv i divide side = .ok es) :
    (es.map (Expr.eval σ)).sum = (side.entries.map (CEntry.share σ d (iv.getD i []) i divide)).sum := by
  simp only [addTerms, flatMapE, bind_ok, Except.ok.injEq] at h
  obtain ⟨bss, h, rfl⟩ := h
  rw [mapE_ok] at h
  generalize side.entries = entries at h
  induction h with
  | nil => rfl
  | cons h1 _ ih =>
    rw [List.flatten_cons, List.map_append, List.sum_append, ih, List.map_cons, List.sum_cons, resolve_value h1]

theorem addTerms_plain {iv : IVars} {side : CSide} {es : List Expr} (h : addTerms d iv i false side = .ok es) :
    (es.map (Expr.eval σ)).sum = side.value σ d (iv.getD i []) i := by
  rw [addTerms_value h]
  unfold CSide.value
  congr 1
  apply List.map_congr_left
  intro e _
  cases e <;> simp [CEntry.value, CEntry.share]

end

theorem compares_holds {σ : Assign} {a b : Expr} {sense : Sense} :
    (⟨a - b, sense⟩ : Con).Holds σ ↔ sense.Compares (a.eval σ) (b.eval σ) := by
  cases sense <;> simp [Con.Holds, Sense.Compares, sub_eq_zero]

section
variable {σ : Assign} {d : SiteData} {iv : IVars} {c : Constraint}

/-- Without aggregation: one constraint per interval. -/
theorem customLoop_each (hc : c.sumAgg = false) {is : List Nat} {cs : List Con} {l r : List Expr}
    (h : customLoop d iv c is [] [] = .ok (cs, l, r)) :
    (∀ con ∈ cs, con.Holds σ) ↔ ∀ i ∈ is, c.sense.Compares (c.lhs.value σ d (iv.getD i []) i) (c.rhs.value σ d (iv.getD i []) i) := by
  induction is generalizing cs l r with
  | nil =>
    simp only [customLoop, Except.ok.injEq, Prod.mk.injEq] at h
    obtain ⟨rfl, -, -⟩ := h
    simp
  | cons i is ih =>
    simp only [customLoop, hc, Bool.false_eq_true, if_false, List.nil_append, bind_ok, Prod.exists, Except.ok.injEq,
      Prod.mk.injEq] at h
    obtain ⟨ls, hl, rs, hr, _, _, _, _, cs', l', r', hrec, rfl, rfl, rfl⟩ := h
    simp only [List.forall_mem_cons]
    rw [ih hrec]
    apply and_congr_left
    intro _
    rw [compares_holds]
    simp only [Expr.eval_sum]
    rw [addTerms_plain hl, addTerms_plain hr]

/-- With aggregation: the terms pile up. -/
theorem customLoop_sum (hc : c.sumAgg = true) {is : List Nat} {cs : List Con} {l0 r0 l r : List Expr}
    (h : customLoop d iv c is l0 r0 = .ok (cs, l, r)) :
    cs = [] ∧
    (l.map (Expr.eval σ)).sum = (l0.map (Expr.eval σ)).sum + (is.map (fun i => (c.lhs.entries.map (CEntry.share σ d (iv.getD i []) i true)).sum)).sum ∧
    (r.map (Expr.eval σ)).sum = (r0.map (Expr.eval σ)).sum + (is.map (fun i => (c.rhs.entries.map (CEntry.share σ d (iv.getD i []) i true)).sum)).sum := by
  induction is generalizing l0 r0 with
  | nil =>
    simp only [customLoop, Except.ok.injEq, Prod.mk.injEq] at h
    obtain ⟨rfl, rfl, rfl⟩ := h
    simp
  | cons i is ih =>
    simp only [customLoop, hc, if_true, bind_ok] at h
    obtain ⟨ls, hl, rs, hr, _, _, _, _, hrec⟩ := h
    obtain ⟨e1, e2, e3⟩ := ih hrec
    refine ⟨e1, ?_, ?_⟩
    · rw [e2, List.map_append, List.sum_append, addTerms_value hl, List.map_cons, List.sum_cons, add_assoc]
    · rw [e3, List.map_append, List.sum_append, addTerms_value hr, List.map_cons, List.sum_cons, add_assoc]

end

end EPL
