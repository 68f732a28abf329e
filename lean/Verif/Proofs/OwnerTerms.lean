/-
Which variables custom constraints and objectives are about: those of the site and its assets, and the auxiliary variables of each
objective term.
-/
import Verif.Proofs.Owner
import Verif.Proofs.ObjectiveTerms

namespace EPL

/-- All objects of all intervals hold variables with a property. -/
def IVars.Over (P : LpVar → Prop) (iv : IVars) : Prop := ∀ l ∈ iv, ∀ o ∈ l, o.base.AllOver P ∧ o.Over P

theorem ivars_over {s : Site} {flags : Flags} (hv : VarsOk s flags s.data.n) (hb : ∀ i < s.data.n, ∀ a ∈ s.assets, a.Buildable i) :
    (s.ivarsTo flags s.data.n).Over s.Owns := by
  intro l hl o ho
  simp only [Site.ivarsTo, List.mem_map, List.mem_range] at hl
  obtain ⟨i, hi, rfl⟩ := hl
  exact ones_over hv hi (hb i hi) ho

section
variable {P : LpVar → Prop} {A : String → Prop} {iv : IVars} {d : SiteData}

theorem mem_of_index {α : Type} {l : List α} {i : Nat} {a : α} (h : pyIndex l (i : Int) = .ok a) : a ∈ l :=
  List.mem_of_getElem? (pyIndex_nat.1 h)

theorem filterStr_over (hv : iv.Over P) {i : Nat} {type name : Option String} {l : List OneInterval}
    (h : iv.filterStr i type name = .ok l) : ∀ o ∈ l, o.base.AllOver P ∧ o.Over P := by
  obtain ⟨hi, rfl, -⟩ := filterStr_ok h
  intro o ho
  have hm : iv.getD i [] ∈ iv := by
    rw [List.getD_eq_getElem?_getD, List.getElem?_eq_getElem hi]
    exact List.getElem_mem hi
  exact hv _ hm o (List.mem_filter.1 ho).1

/-- Some attributes of all objects of all intervals hold variables with a property. -/
def IVars.Has (A : String → Prop) (P : LpVar → Prop) (iv : IVars) : Prop := ∀ l ∈ iv, ∀ o ∈ l, ∀ attr v, A attr → o.getattr attr = .ok v → v.Over P

/-- A side of a custom constraint is about some attributes. -/
def CSide.On (A : String → Prop) (side : CSide) : Prop := ∀ t, CEntry.term t ∈ side.entries → A t.attr

theorem filterStr_has (hv : iv.Has A P) {i : Nat} {type name : Option String} {l : List OneInterval}
    (h : iv.filterStr i type name = .ok l) : ∀ o ∈ l, ∀ attr v, A attr → o.getattr attr = .ok v → v.Over P := by
  obtain ⟨hi, rfl, -⟩ := filterStr_ok h
  intro o ho
  have hm : iv.getD i [] ∈ iv := by
    rw [List.getD_eq_getElem?_getD, List.getElem?_eq_getElem hi]
    exact List.getElem_mem hi
  exact hv _ hm o (List.mem_filter.1 ho).1

theorem resolve_has (hv : iv.Has A P) {i : Nat} {divide : Bool} {e : CEntry} (hA : ∀ t, e = .term t → A t.attr) {es : List Expr}
    (h : resolveConstraintTerm d iv i divide e = .ok es) : ∀ x ∈ es, x.Over P := by
  cases e with
  | num q =>
    simp only [resolveConstraintTerm, Except.ok.injEq] at h
    subst h
    intro x hx
    rw [List.mem_singleton] at hx
    exact hx ▸ .num _
  | term t =>
    simp only [resolveConstraintTerm, bind_ok] at h
    obtain ⟨l, hl, h⟩ := h
    intro x hx
    obtain ⟨o, ho, hox⟩ := (mapE_mem h).1 hx
    rw [bind_ok] at hox
    obtain ⟨v, hv', hox⟩ := hox
    have hval := (filterStr_has hv hl o ho _ _ (hA t rfl) hv').toExpr
    split at hox
    · simp only [bind_ok, Except.ok.injEq] at hox
      obtain ⟨q, -, rfl⟩ := hox
      exact .mul (.mul hval _) _
    · simp only [bind_ok, Except.ok.injEq] at hox
      obtain ⟨q, -, rfl⟩ := hox
      exact .mul (.mul hval _) _

theorem addTerms_has (hv : iv.Has A P) {i : Nat} {divide : Bool} {side : CSide} (hA : side.On A) {es : List Expr}
    (h : addTerms d iv i divide side = .ok es) : ∀ x ∈ es, x.Over P := by
  intro x hx
  obtain ⟨e, he, l, hl, hx⟩ := (flatMapE_mem h).1 hx
  exact resolve_has hv (fun t ht => hA t (ht ▸ he)) hl x hx

theorem customLoop_has (hv : iv.Has A P) {c : Constraint} (hl : c.lhs.On A) (hr : c.rhs.On A) {is : List Nat} : ∀ {l0 r0 : List Expr} {cs : List Con} {l r : List Expr},
    customLoop d iv c is l0 r0 = .ok (cs, l, r) → (∀ x ∈ l0, x.Over P) → (∀ x ∈ r0, x.Over P) →
    (∀ con ∈ cs, con.Over P) ∧ (∀ x ∈ l, x.Over P) ∧ (∀ x ∈ r, x.Over P) := by
  induction is with
  | nil =>
    intro l0 r0 cs l r h hl0 hr0
    simp only [customLoop, Except.ok.injEq, Prod.mk.injEq] at h
    obtain ⟨rfl, rfl, rfl⟩ := h
    exact ⟨by simp, hl0, hr0⟩
  | cons i is ih =>
    intro l0 r0 cs l r h hl0 hr0
    simp only [customLoop, bind_ok] at h
    obtain ⟨a, ha, b, hb, _, -, _, -, h⟩ := h
    have hl' : ∀ x ∈ l0 ++ a, x.Over P := fun x hx => (List.mem_append.1 hx).elim (hl0 x) (addTerms_has hv hl ha x)
    have hr' : ∀ x ∈ r0 ++ b, x.Over P := fun x hx => (List.mem_append.1 hx).elim (hr0 x) (addTerms_has hv hr hb x)
    split at h
    · exact ih h hl' hr'
    · rw [bind_ok] at h
      obtain ⟨⟨cs', l', r'⟩, hloop, h⟩ := h
      simp only [Except.ok.injEq, Prod.mk.injEq] at h
      obtain ⟨rfl, rfl, rfl⟩ := h
      obtain ⟨h1, h2, h3⟩ := ih hloop (by simp) (by simp)
      refine ⟨?_, h2, h3⟩
      intro con hcon
      rcases List.mem_cons.1 hcon with rfl | hcon
      · exact Expr.Over.sub (.sum hl') (.sum hr')
      · exact h1 con hcon

/-- A custom constraint is about variables of the site and its assets. -/
theorem customConstraint_has (hv : iv.Has A P) {c : Constraint} (hl : c.lhs.On A) (hr : c.rhs.On A) {cs : List Con} (h : addCustomConstraint d iv c = .ok cs) :
    ∀ con ∈ cs, con.Over P := by
  simp only [addCustomConstraint, bind_ok] at h
  obtain ⟨⟨cs', l, r⟩, hloop, h⟩ := h
  obtain ⟨h1, h2, h3⟩ := customLoop_has hv hl hr hloop (by simp) (by simp)
  simp only at h
  split at h
  · simp only [Except.ok.injEq] at h
    subst h
    intro con hcon
    rcases List.mem_append.1 hcon with hcon | hcon
    · exact h1 con hcon
    · rw [List.mem_singleton] at hcon
      subst hcon
      exact Expr.Over.sub (.sum h2) (.sum h3)
  · simp only [Except.ok.injEq] at h
    subst h
    exact h1

theorem customConstraint_over (hv : iv.Over P) {c : Constraint} {cs : List Con} (h : addCustomConstraint d iv c = .ok cs) :
    ∀ con ∈ cs, con.Over P :=
  customConstraint_has (A := fun _ => True) (fun l hl o ho attr v _ h => (hv l hl o ho).2 attr v h) (fun _ _ => trivial) (fun _ _ => trivial) h

theorem custom_over (hv : iv.Over P) {l : List Constraint} {cs : List Con} (h : flatMapE (addCustomConstraint d iv) l = .ok cs) :
    ∀ con ∈ cs, con.Over P := by
  intro con hcon
  obtain ⟨c, _, l, hl, hc⟩ := (flatMapE_mem h).1 hcon
  exact customConstraint_over hv hl con hc

/-! ### objectives -/

/-- A variable with the property or an auxiliary variable of term `k`. -/
def OrAux (P : LpVar → Prop) (k : Nat) (v : LpVar) : Prop := P v ∨ v.id.owner = .aux k

theorem Expr.Over.mono {Q : LpVar → Prop} {e : Expr} (h : e.Over P) (hpq : ∀ v, P v → Q v) : e.Over Q := fun v hv => hpq v (h v hv)

theorem Val.Over.mono {Q : LpVar → Prop} {x : Val} (h : x.Over P) (hpq : ∀ v, P v → Q v) : x.Over Q := by
  cases x with
  | var v => exact hpq v h
  | _ => trivial

theorem simpleExprs_over (hv : iv.Over P) {t : OneTerm} {es : List Expr} (h : t.simpleExprs d iv = .ok es) : ∀ x ∈ es, x.Over P := by
  cases t with
  | simple t =>
    intro x hx
    simp only [OneTerm.simpleExprs] at h
    obtain ⟨i, _, l, hl, hx⟩ := (flatMapE_mem h).1 hx
    rw [bind_ok] at hl
    obtain ⟨objs, ho, hl⟩ := hl
    have hobjs : ∀ o ∈ objs, o.base.AllOver P ∧ o.Over P := by
      unfold simpleTermAssets at ho
      split at ho
      · exact hv _ (mem_of_index ho)
      · exact filterStr_over hv ho
    unfold simpleTermExprs at hl
    obtain ⟨o, hom, hox⟩ := (mapE_mem hl).1 hx
    simp only [bind_ok, Except.ok.injEq] at hox
    obtain ⟨v, hv', q, -, rfl⟩ := hox
    exact .mul (.mul ((hobjs o hom).2 _ _ hv').toExpr _) _
  | two f a b M data k => simp only [OneTerm.simpleExprs, Except.ok.injEq] at h; subst h; simp
  | many f v M c k => simp only [OneTerm.simpleExprs, Except.ok.injEq] at h; subst h; simp

theorem resolveOperand_over (hv : iv.Over P) {i : Nat} {a : TermOrFloat} {x : Val} (h : a.resolve iv i = .ok x) : x.Over P := by
  cases a with
  | float q => simp only [TermOrFloat.resolve, Except.ok.injEq] at h; subst h; trivial
  | term t =>
    simp only [TermOrFloat.resolve, bind_ok] at h
    obtain ⟨l, hl, o, ho, h⟩ := h
    exact (filterStr_over hv hl o (mem_of_index (i := 0) ho)).2 _ _ h

theorem twoVars_over {name : String} {k : Nat} {a b : Val} {M : ℚ} {v : LpVar} {cons : List Con} (ha : a.Over P) (hb : b.Over P)
    (h : maxTwoVariables name k a b M = .ok (v, cons) ∨ minTwoVariables name k a b M = .ok (v, cons)) :
    v.id.owner = .aux k ∧ ∀ c ∈ cons, c.Over (OrAux P k) := by
  have ha' : a.toExpr.Over (OrAux P k) := (ha.mono fun _ h => .inl h).toExpr
  have hb' : b.toExpr.Over (OrAux P k) := (hb.mono fun _ h => .inl h).toExpr
  have aux : ∀ {w : LpVar}, w.id.owner = .aux k → (Expr.var w).Over (OrAux P k) := fun h => .var (.inr h)
  rcases h with h | h
  · obtain ⟨hv, rfl⟩ := maxTwo_eq h
    have ov : v.id.owner = .aux k := by rw [hv]; rfl
    refine ⟨ov, ?_⟩
    intro c hc
    simp only [List.mem_cons, List.not_mem_nil, or_false] at hc
    rcases hc with rfl | rfl | rfl | rfl
    · exact .geC (aux ov) ha'
    · exact .geC (aux ov) hb'
    · exact .geC (.add ha' (.mul (aux rfl) _)) (aux ov)
    · exact .geC (.add hb' (.mul (.sub (.num _) (aux rfl)) _)) (aux ov)
  · obtain ⟨hv, rfl⟩ := minTwo_eq h
    have ov : v.id.owner = .aux k := by rw [hv]; rfl
    refine ⟨ov, ?_⟩
    intro c hc
    simp only [List.mem_cons, List.not_mem_nil, or_false] at hc
    rcases hc with rfl | rfl | rfl | rfl
    · exact .geC ha' (aux ov)
    · exact .geC hb' (aux ov)
    · exact .geC (aux ov) (.sub ha' (.mul (.sub (.num _) (aux rfl)) _))
    · exact .geC (aux ov) (.sub hb' (.mul (aux rfl) _))

theorem twoExprs_over (hv : iv.Over P) {t : OneTerm} {k : Nat} {es : List (Expr × List Con)} (h : t.twoExprs d iv k = .ok es) :
    ∀ x ∈ es, x.1.Over (OrAux P k) ∧ ∀ c ∈ x.2, c.Over (OrAux P k) := by
  cases t with
  | simple t => simp only [OneTerm.twoExprs, Except.ok.injEq] at h; subst h; simp
  | many f v M c q =>
    simp only [OneTerm.twoExprs] at h
    split at h
    · simp at h
    · simp only [Except.ok.injEq] at h; subst h; simp
  | two f a b M data q =>
    simp only [OneTerm.twoExprs] at h
    split at h
    · intro x hx
      obtain ⟨i, _, hox⟩ := (mapE_mem h).1 hx
      simp only [bind_ok] at hox
      obtain ⟨_, -, _, -, y, hy, z, hz, hox⟩ := hox
      have key : ∀ {v : LpVar} {cons : List Con} {g : ℚ}, (maxTwoVariables (twoName f i a b) k y z M = .ok (v, cons) ∨
          minTwoVariables (twoName f i a b) k y z M = .ok (v, cons)) → x = (Expr.var v * g * q, cons) →
          x.1.Over (OrAux P k) ∧ ∀ c ∈ x.2, c.Over (OrAux P k) := by
        intro v cons g h1 hx
        subst hx
        obtain ⟨ov, hc⟩ := twoVars_over (resolveOperand_over hv hy) (resolveOperand_over hv hz) h1
        exact ⟨.mul (.mul (.var (.inr ov)) _) _, hc⟩
      by_cases hm : f = "max_two_variables"
      · simp only [if_pos hm, bind_ok, Except.ok.injEq, Prod.exists] at hox
        obtain ⟨v, cons, h1, g, -, hx⟩ := hox
        exact key (.inl h1) hx.symm
      · simp only [if_neg hm, bind_ok, Except.ok.injEq, Prod.exists] at hox
        obtain ⟨v, cons, h1, g, -, hx⟩ := hox
        exact key (.inr h1) hx.symm
    · simp only [Except.ok.injEq] at h; subst h; simp

theorem manyOperands_over (hv : iv.Over P) {v : Term} {constant : ℚ} {xs : List Val} (h : manyOperands iv v constant = .ok xs) :
    ∀ x ∈ xs, x.Over P := by
  have all : ∀ {type name : Option String} {l : List (List OneInterval)}, iv.filterAllStr type name = .ok l →
      ∀ o ∈ l.flatten, o.base.AllOver P ∧ o.Over P := by
    intro type name l hl o ho
    rw [filterAllStr_ok hl, List.mem_flatten] at ho
    obtain ⟨l', hl', ho⟩ := ho
    obtain ⟨objs, hobjs, rfl⟩ := List.mem_map.1 hl'
    exact hv objs hobjs o (List.mem_filter.1 ho).1
  have fin : ∀ {l : List OneInterval}, (∀ o ∈ l, o.base.AllOver P ∧ o.Over P) →
      (do let vals ← mapE (fun (a : OneInterval) => a.getattr v.attr) l
          (.ok (vals.filter (fun (x : Val) => !x.isNone) ++ [Val.num constant]) : Res (List Val))) = .ok xs → ∀ x ∈ xs, x.Over P := by
    intro l hl h
    simp only [bind_ok, Except.ok.injEq] at h
    obtain ⟨vals, hvals, rfl⟩ := h
    intro x hx
    rcases List.mem_append.1 hx with hx | hx
    · obtain ⟨o, ho, hox⟩ := (mapE_mem hvals).1 (List.mem_filter.1 hx).1
      exact (hl o ho).2 _ _ hox
    · rw [List.mem_singleton] at hx; subst hx; trivial
  unfold manyOperands at h
  by_cases h1 : v.assetType = some "*"
  · simp only [if_pos h1] at h
    rw [bind_ok] at h
    obtain ⟨l, hl, h⟩ := h
    exact fin (all hl) h
  · by_cases h2 : v.assetName = none
    · simp only [if_neg h1, if_pos h2] at h
      rw [bind_ok] at h
      obtain ⟨l, hl, h⟩ := h
      exact fin (all hl) h
    · simp only [if_neg h1, if_neg h2] at h
      rw [bind_ok] at h
      obtain ⟨l, hl, h⟩ := h
      exact fin (all hl) h

theorem manyVars_over {name : String} {k : Nat} {xs : List Val} {M : ℚ} {v : LpVar} {cons : List Con} (hx : ∀ x ∈ xs, x.Over P)
    (h : maxManyVariables name k xs M = .ok (v, cons) ∨ minManyVariables name k xs M = .ok (v, cons)) :
    v.id.owner = .aux k ∧ ∀ c ∈ cons, c.Over (OrAux P k) := by
  have hx' : ∀ r ∈ xs.zipIdx, r.1.toExpr.Over (OrAux P k) := by
    intro r hr
    rw [List.mem_zipIdx_iff_getElem?] at hr
    exact ((hx _ (List.mem_of_getElem? hr)).mono fun _ h => .inl h).toExpr
  have aux : ∀ {w : LpVar}, w.id.owner = .aux k → (Expr.var w).Over (OrAux P k) := fun h => .var (.inr h)
  rcases h with h | h
  · obtain ⟨hv, rfl⟩ := maxMany_eq h
    have ov : v.id.owner = .aux k := by rw [hv]; rfl
    refine ⟨ov, ?_⟩
    intro c hc
    obtain ⟨r, hr, hc⟩ := List.mem_flatMap.1 hc
    rcases List.mem_cons.1 hc with rfl | hc
    · exact .geC (aux ov) (hx' r hr)
    · split at hc
      · rw [List.mem_singleton] at hc
        subst hc
        exact .geC (.add (hx' r hr) (.mul (.sub (.num _) (aux rfl)) _)) (aux ov)
      · simp at hc
  · obtain ⟨hv, rfl⟩ := minMany_eq h
    have ov : v.id.owner = .aux k := by rw [hv]; rfl
    refine ⟨ov, ?_⟩
    intro c hc
    rcases List.mem_append.1 hc with hc | hc
    · obtain ⟨r, hr, hc⟩ := List.mem_flatMap.1 hc
      simp only [List.mem_cons, List.not_mem_nil, or_false] at hc
      rcases hc with rfl | rfl
      · exact .leC (aux ov) (hx' r hr)
      · exact .leC (.sub (hx' r hr) (.mul (aux rfl) _)) (aux ov)
    · rw [List.mem_singleton] at hc
      subst hc
      refine .leC (.sum fun e he => ?_) (.num _)
      obtain ⟨i, _, rfl⟩ := List.mem_map.1 he
      exact aux rfl

theorem manyExprs_over (hv : iv.Over P) {t : OneTerm} {k : Nat} {es : List (Expr × List Con)} (h : t.manyExprs iv k = .ok es) :
    ∀ x ∈ es, x.1.Over (OrAux P k) ∧ ∀ c ∈ x.2, c.Over (OrAux P k) := by
  cases t with
  | simple t => simp only [OneTerm.manyExprs, Except.ok.injEq] at h; subst h; simp
  | two f a b M data q =>
    simp only [OneTerm.manyExprs] at h
    split at h
    · simp at h
    · simp only [Except.ok.injEq] at h; subst h; simp
  | many f v M constant q =>
    simp only [OneTerm.manyExprs] at h
    split at h
    · simp only [bind_ok] at h
      obtain ⟨_, -, xs, hxs, h⟩ := h
      have key : ∀ {c : LpVar} {cons : List Con}, (maxManyVariables (manyName f v M constant q) k xs M = .ok (c, cons) ∨
          minManyVariables (manyName f v M constant q) k xs M = .ok (c, cons)) → [(Expr.var c * q, cons)] = es →
          ∀ x ∈ es, x.1.Over (OrAux P k) ∧ ∀ c ∈ x.2, c.Over (OrAux P k) := by
        intro c cons h1 he x hx
        subst he
        rw [List.mem_singleton] at hx
        subst hx
        obtain ⟨ov, hc⟩ := manyVars_over (manyOperands_over hv hxs) h1
        exact ⟨.mul (.var (.inr ov)) _, hc⟩
      by_cases hm : f = "max_many_variables"
      · simp only [if_pos hm, bind_ok, Except.ok.injEq, Prod.exists] at h
        obtain ⟨c, cons, h1, hx⟩ := h
        exact key (.inl h1) hx
      · simp only [if_neg hm, bind_ok, Except.ok.injEq, Prod.exists] at h
        obtain ⟨c, cons, h1, hx⟩ := h
        exact key (.inr h1) hx
    · simp only [Except.ok.injEq] at h; subst h; simp

end

end EPL
