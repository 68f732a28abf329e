/-
Two programs built from objects that differ only in variables: custom constraints and objectives are related the same way.
-/
import Verif.Proofs.Program
import Verif.Spec.Growth
import Verif.Proofs.Filter

namespace EPL

/-- What a relation between variables needs to transfer feasibility. -/
structure Transfers (R : LpVar → LpVar → Prop) : Prop where
  refl : ∀ v, R v v
  id : ∀ v w, R v w → v.id = w.id
  low : ∀ v w, R v w → v.low = w.low
  bounds : ∀ v w, R v w → ∀ σ : Assign, v.InBounds σ → w.InBounds σ

/-- Values that are the same or related variables. -/
inductive Val.Rel (R : LpVar → LpVar → Prop) : Val → Val → Prop
  | var {v w : LpVar} : R v w → Val.Rel R (.var v) (.var w)
  | same {x : Val} : x.isVar = false → Val.Rel R x x

/-- Expressions with the same numbers and related variables. -/
def Expr.Rel (R : LpVar → LpVar → Prop) (e e' : Expr) : Prop :=
  e.const = e'.const ∧ List.Forall₂ (fun t t' => R t.1 t'.1 ∧ t.2 = t'.2) e.terms e'.terms

/-- Constraints with the same sense and related expressions. -/
def Con.Rel (R : LpVar → LpVar → Prop) (c c' : Con) : Prop := c.sense = c'.sense ∧ c.e.Rel R c'.e

/-- Objects of the same class and name with related values, apart from configuration. -/
structure OneInterval.Rel (R : LpVar → LpVar → Prop) (o o' : OneInterval) : Prop where
  kind : o.kind = o'.kind
  name : o.name = o'.name
  get : ∀ attr, attr ∉ limitAttrs → ∀ v, o.getattr attr = .ok v → ∃ w, o'.getattr attr = .ok w ∧ Val.Rel R v w

/-- Related objects in every interval. -/
def IVars.Rel (R : LpVar → LpVar → Prop) (iv iv' : IVars) : Prop := List.Forall₂ (List.Forall₂ (OneInterval.Rel R)) iv iv'

theorem forall₂_append {α β : Type} {P : α → β → Prop} {a b : List α} {a' b' : List β} (h : List.Forall₂ P a a') (h' : List.Forall₂ P b b') :
    List.Forall₂ P (a ++ b) (a' ++ b') := by
  induction h with
  | nil => exact h'
  | cons hx _ ih => exact .cons hx ih

theorem forall₂_flatten {α β : Type} {P : α → β → Prop} {a : List (List α)} {a' : List (List β)} (h : List.Forall₂ (List.Forall₂ P) a a') :
    List.Forall₂ P a.flatten a'.flatten := by
  induction h with
  | nil => exact .nil
  | cons hx _ ih => simp only [List.flatten_cons]; exact forall₂_append hx ih

theorem forall₂_same {α : Type} {P : α → α → Prop} {l : List α} (h : ∀ a ∈ l, P a a) : List.Forall₂ P l l := by
  induction l with
  | nil => exact .nil
  | cons a l ih => exact .cons (h a List.mem_cons_self) (ih fun b hb => h b (List.mem_cons_of_mem _ hb))

theorem forall₂_filter {α β : Type} {P : α → β → Prop} {p : α → Bool} {q : β → Bool} (hpq : ∀ a b, P a b → p a = q b) {l : List α}
    {l' : List β} (h : List.Forall₂ P l l') : List.Forall₂ P (l.filter p) (l'.filter q) := by
  induction h with
  | nil => exact .nil
  | cons hx _ ih =>
    rename_i a b l l' _
    simp only [List.filter_cons, hpq a b hx]
    split
    · exact .cons hx ih
    · exact ih

theorem forall₂_mem {α β : Type} {P : α → β → Prop} {l : List α} {l' : List β} (h : List.Forall₂ P l l') {b : β} (hb : b ∈ l') :
    ∃ a ∈ l, P a b := by
  induction h with
  | nil => simp at hb
  | cons hx _ ih =>
    rcases List.mem_cons.1 hb with rfl | hb
    · exact ⟨_, List.mem_cons_self, hx⟩
    · obtain ⟨a, ha, hp⟩ := ih hb
      exact ⟨a, List.mem_cons_of_mem _ ha, hp⟩

theorem forall₂_get {α β : Type} {P : α → β → Prop} {l : List α} {l' : List β} (h : List.Forall₂ P l l') {i : Nat} {a : α}
    (ha : l[i]? = some a) : ∃ b, l'[i]? = some b ∧ P a b := by
  induction h generalizing i with
  | nil => simp at ha
  | cons hx _ ih =>
    cases i with
    | zero => simp at ha; subst ha; exact ⟨_, rfl, hx⟩
    | succ i => simp only [List.getElem?_cons_succ] at ha ⊢; exact ih ha

theorem pyIndex_rel {α β : Type} {P : α → β → Prop} {l : List α} {l' : List β} (h : List.Forall₂ P l l') {i : Nat} {a : α}
    (ha : pyIndex l (i : Int) = .ok a) : ∃ b, pyIndex l' (i : Int) = .ok b ∧ P a b := by
  obtain ⟨b, hb, hp⟩ := forall₂_get h (pyIndex_nat.1 ha)
  exact ⟨b, pyIndex_nat.2 hb, hp⟩

theorem mapE_rel {α α' β β' : Type} {P : α → α' → Prop} {Q : β → β' → Prop} {f : α → Res β} {f' : α' → Res β'} {l : List α}
    {l' : List α'} (h : List.Forall₂ P l l') (hf : ∀ a a', P a a' → ∀ b, f a = .ok b → ∃ b', f' a' = .ok b' ∧ Q b b') {bs : List β}
    (hb : mapE f l = .ok bs) : ∃ bs', mapE f' l' = .ok bs' ∧ List.Forall₂ Q bs bs' := by
  induction h generalizing bs with
  | nil => simp only [mapE, Except.ok.injEq] at hb; subst hb; exact ⟨[], rfl, .nil⟩
  | cons hx _ ih =>
    simp only [mapE, bind_ok, Except.ok.injEq] at hb
    obtain ⟨b, hb1, bs1, hb2, rfl⟩ := hb
    obtain ⟨b', h1, h2⟩ := hf _ _ hx b hb1
    obtain ⟨bs', h3, h4⟩ := ih hb2
    exact ⟨b' :: bs', by simp only [mapE, h1, h3, ok_bind], .cons h2 h4⟩

theorem flatMapE_rel {α α' β β' : Type} {P : α → α' → Prop} {Q : β → β' → Prop} {f : α → Res (List β)} {f' : α' → Res (List β')}
    {l : List α} {l' : List α'} (h : List.Forall₂ P l l')
    (hf : ∀ a a', P a a' → ∀ b, f a = .ok b → ∃ b', f' a' = .ok b' ∧ List.Forall₂ Q b b') {bs : List β}
    (hb : flatMapE f l = .ok bs) : ∃ bs', flatMapE f' l' = .ok bs' ∧ List.Forall₂ Q bs bs' := by
  unfold flatMapE at hb ⊢
  rw [bind_ok] at hb
  obtain ⟨x, hx, hb⟩ := hb
  simp only [Except.ok.injEq] at hb
  subst hb
  obtain ⟨x', h1, h2⟩ := mapE_rel h hf hx
  exact ⟨x'.flatten, by rw [h1]; rfl, forall₂_flatten h2⟩

section
variable {R : LpVar → LpVar → Prop}

namespace Expr.Rel
variable {a b a' b' : Expr}

theorem refl (hR : Transfers R) (e : Expr) : e.Rel R e := ⟨rfl, forall₂_same fun t _ => ⟨hR.refl t.1, rfl⟩⟩
theorem num (q : ℚ) : (Expr.num q).Rel R (.num q) := ⟨rfl, .nil⟩
theorem var {v w : LpVar} (h : R v w) : (Expr.var v).Rel R (.var w) := ⟨rfl, .cons ⟨h, rfl⟩ .nil⟩
theorem add (ha : a.Rel R a') (hb : b.Rel R b') : (a + b).Rel R (a' + b') :=
  ⟨by show a.const + b.const = a'.const + b'.const; rw [ha.1, hb.1], forall₂_append ha.2 hb.2⟩

theorem terms_map {R : LpVar → LpVar → Prop} {l l' : List (LpVar × ℚ)} (g : ℚ → ℚ)
    (h : List.Forall₂ (fun t t' => R t.1 t'.1 ∧ t.2 = t'.2) l l') :
    List.Forall₂ (fun t t' => R t.1 t'.1 ∧ t.2 = t'.2) (l.map (fun t => (t.1, g t.2))) (l'.map (fun t => (t.1, g t.2))) := by
  induction h with
  | nil => exact .nil
  | cons hx _ ih => exact .cons ⟨hx.1, congrArg g hx.2⟩ ih

theorem sub (ha : a.Rel R a') (hb : b.Rel R b') : (a - b).Rel R (a' - b') :=
  ⟨by show a.const - b.const = a'.const - b'.const; rw [ha.1, hb.1], forall₂_append ha.2 (terms_map (fun x => -x) hb.2)⟩
theorem neg (ha : a.Rel R a') : (-a).Rel R (-a') :=
  ⟨by show -a.const = -a'.const; rw [ha.1], terms_map (fun x => -x) ha.2⟩
theorem mul (ha : a.Rel R a') (q : ℚ) : (a * q).Rel R (a' * q) := by
  show (Expr.smul q a).Rel R (Expr.smul q a')
  unfold Expr.smul
  split
  · exact ⟨rfl, .nil⟩
  · exact ⟨by show q * a.const = q * a'.const; rw [ha.1], terms_map (fun x => q * x) ha.2⟩
theorem sum {l l' : List Expr} (h : List.Forall₂ (Expr.Rel R) l l') : (Expr.sum l).Rel R (Expr.sum l') := by
  induction h with
  | nil => exact ⟨rfl, .nil⟩
  | cons hx _ ih => exact add hx ih
theorem leC (ha : a.Rel R a') (hb : b.Rel R b') : (a.leC b).Rel R (a'.leC b') := ⟨rfl, sub ha hb⟩
theorem eqC (ha : a.Rel R a') (hb : b.Rel R b') : (a.eqC b).Rel R (a'.eqC b') := ⟨rfl, sub ha hb⟩
theorem geC (ha : a.Rel R a') (hb : b.Rel R b') : (a.geC b).Rel R (a'.geC b') := ⟨rfl, sub ha hb⟩

theorem eval (hR : Transfers R) (h : a.Rel R a') (σ : Assign) : a.eval σ = a'.eval σ := by
  unfold Expr.eval
  rw [h.1]
  congr 1
  have := h.2
  generalize a.terms = l at this
  generalize a'.terms = l' at this
  induction this with
  | nil => rfl
  | cons hx _ ih => simp only [List.map_cons, List.sum_cons, ih, hR.id _ _ hx.1, hx.2]

theorem vars (h : a.Rel R a') {w : LpVar} (hw : w ∈ a'.vars) : ∃ v ∈ a.vars, R v w := by
  obtain ⟨t', ht', rfl⟩ := List.mem_map.1 hw
  obtain ⟨t, ht, hr⟩ := forall₂_mem h.2 ht'
  exact ⟨t.1, List.mem_map_of_mem ht, hr.1⟩
end Expr.Rel

theorem Con.Rel.holds (hR : Transfers R) {c c' : Con} (h : c.Rel R c') (σ : Assign) : c.Holds σ ↔ c'.Holds σ := by
  unfold Con.Holds
  rw [h.1, h.2.eval hR]

theorem Val.Rel.refl (hR : Transfers R) (x : Val) : Val.Rel R x x := by
  cases x with
  | var v => exact .var (hR.refl v)
  | _ => exact .same rfl

theorem Val.Rel.toExpr {x y : Val} (h : Val.Rel R x y) : x.toExpr.Rel R y.toExpr := by
  cases h with
  | var h => exact .var h
  | same hx => cases x with
    | var v => simp [Val.isVar] at hx
    | _ => exact .num _

theorem Val.Rel.flags {x y : Val} (h : Val.Rel R x y) : x.isVar = y.isVar ∧ x.isNone = y.isNone ∧ x.isFloat = y.isFloat := by
  cases h with
  | var h => exact ⟨rfl, rfl, rfl⟩
  | same hx => exact ⟨rfl, rfl, rfl⟩

theorem OneInterval.Rel.refl (hR : Transfers R) (o : OneInterval) : OneInterval.Rel R o o :=
  ⟨rfl, rfl, fun _ _ v hv => ⟨v, hv, .refl hR v⟩⟩

/-! ### custom constraints -/

variable {iv iv' : IVars}

theorem filter_rel (h : IVars.Rel R iv iv') {i : Nat} {kind : Option Kind} {name : Option String} {l : List OneInterval}
    (hl : iv.filter i kind name = .ok l) : ∃ l', iv'.filter i kind name = .ok l' ∧ List.Forall₂ (OneInterval.Rel R) l l' := by
  unfold IVars.filter at hl ⊢
  rw [bind_ok] at hl
  obtain ⟨x, hx, hl⟩ := hl
  simp only [Except.ok.injEq] at hl
  subst hl
  obtain ⟨x', h1, h2⟩ := pyIndex_rel h hx
  exact ⟨_, by rw [h1]; rfl, forall₂_filter (fun a b hab => by simp only [matchesFilter, hab.kind, hab.name]) h2⟩

theorem filterStr_rel (h : IVars.Rel R iv iv') {i : Nat} {kind name : Option String} {l : List OneInterval}
    (hl : iv.filterStr i kind name = .ok l) : ∃ l', iv'.filterStr i kind name = .ok l' ∧ List.Forall₂ (OneInterval.Rel R) l l' := by
  unfold IVars.filterStr at hl ⊢
  cases kind with
  | none => exact filter_rel h hl
  | some t =>
    simp only at hl ⊢
    rw [bind_ok] at hl
    obtain ⟨k, hk, hl⟩ := hl
    rw [hk]
    exact filter_rel h hl

theorem getattr_rel {attr : String} (ha : attr ∉ limitAttrs) {l l' : List OneInterval} (h : List.Forall₂ (OneInterval.Rel R) l l')
    {d : Res ℚ} {q : ℚ} {es : List Expr}
    (hl : mapE (fun (v : OneInterval) => do
      let x ← v.getattr attr
      let data ← d
      .ok (x.toExpr * data * q)) l = .ok es) :
    ∃ es', mapE (fun (v : OneInterval) => do
      let x ← v.getattr attr
      let data ← d
      .ok (x.toExpr * data * q)) l' = .ok es' ∧ List.Forall₂ (Expr.Rel R) es es' := by
  refine mapE_rel h (fun o o' ho e he => ?_) hl
  simp only [bind_ok, Except.ok.injEq] at he
  obtain ⟨x, hx, y, hy, rfl⟩ := he
  obtain ⟨w, hw, hr⟩ := ho.get attr ha x hx
  exact ⟨_, by rw [hw, hy]; rfl, (hr.toExpr.mul _).mul _⟩

theorem addTerms_rel {d : SiteData} (h : IVars.Rel R iv iv') {i : Nat} {divide : Bool} {side : CSide} (hs : side.Plain) {es : List Expr}
    (he : addTerms d iv i divide side = .ok es) :
    ∃ es', addTerms d iv' i divide side = .ok es' ∧ List.Forall₂ (Expr.Rel R) es es' := by
  unfold addTerms at he ⊢
  have hsame : List.Forall₂ (fun (a b : CEntry) => a = b ∧ a ∈ side.entries) side.entries side.entries := forall₂_same fun a ha => ⟨rfl, ha⟩
  refine flatMapE_rel hsame (fun a b hab l hl => ?_) he
  obtain ⟨rfl, hm⟩ := hab
  cases a with
  | num q =>
    simp only [resolveConstraintTerm, Except.ok.injEq] at hl ⊢
    subst hl
    exact ⟨_, rfl, .cons (.num _) .nil⟩
  | term t =>
    simp only [resolveConstraintTerm] at hl ⊢
    rw [bind_ok] at hl
    obtain ⟨x, hx, hl⟩ := hl
    obtain ⟨x', h1, h2⟩ := filterStr_rel h hx
    rw [h1]
    simp only [ok_bind]
    cases hd : t.intervalData with
    | none =>
      simp only [hd] at hl
      exact getattr_rel (d := .ok 1) (hs t hm) h2 hl
    | some name =>
      simp only [hd] at hl
      exact getattr_rel (d := d.at name i) (hs t hm) h2 hl

theorem forall₂_length {α β : Type} {P : α → β → Prop} {l : List α} {l' : List β} (h : List.Forall₂ P l l') : l.length = l'.length :=
  h.length_eq

theorem customLoop_rel {d : SiteData} (h : IVars.Rel R iv iv') {c : Constraint} (hl : c.lhs.Plain) (hr : c.rhs.Plain) {is : List Nat} :
    ∀ {l0 r0 l0' r0' : List Expr}, List.Forall₂ (Expr.Rel R) l0 l0' → List.Forall₂ (Expr.Rel R) r0 r0' →
      ∀ {x}, customLoop d iv c is l0 r0 = .ok x → ∃ x', customLoop d iv' c is l0' r0' = .ok x' ∧
        List.Forall₂ (Con.Rel R) x.1 x'.1 ∧ List.Forall₂ (Expr.Rel R) x.2.1 x'.2.1 ∧ List.Forall₂ (Expr.Rel R) x.2.2 x'.2.2 := by
  induction is with
  | nil =>
    intro l0 r0 l0' r0' h1 h2 x hx
    simp only [customLoop, Except.ok.injEq] at hx ⊢
    subst hx
    exact ⟨_, rfl, .nil, h1, h2⟩
  | cons i is ih =>
    intro l0 r0 l0' r0' h1 h2 x hx
    simp only [customLoop] at hx ⊢
    rw [bind_ok] at hx
    obtain ⟨l, hl1, hx⟩ := hx
    rw [bind_ok] at hx
    obtain ⟨r, hr1, hx⟩ := hx
    rw [bind_ok] at hx
    obtain ⟨_, ha1, hx⟩ := hx
    rw [bind_ok] at hx
    obtain ⟨_, ha2, hx⟩ := hx
    obtain ⟨l', e1, f1⟩ := addTerms_rel h hl hl1
    obtain ⟨r', e2, f2⟩ := addTerms_rel h hr hr1
    have g1 := forall₂_append h1 f1
    have g2 := forall₂_append h2 f2
    rw [e1, e2]
    simp only [ok_bind]
    rw [← g1.length_eq, ← g2.length_eq, ha1, ha2]
    simp only [ok_bind]
    by_cases hc : c.sumAgg = true
    · rw [if_pos hc] at hx ⊢
      exact ih g1 g2 hx
    · rw [if_neg hc] at hx ⊢
      rw [bind_ok] at hx
      obtain ⟨y, hy, hx⟩ := hx
      simp only [Except.ok.injEq] at hx
      subst hx
      obtain ⟨y', k1, k2, k3, k4⟩ := ih .nil .nil hy
      rw [k1]
      exact ⟨_, rfl, .cons ⟨rfl, (Expr.Rel.sum g1).sub (.sum g2)⟩ k2, k3, k4⟩

theorem addCustom_rel {d : SiteData} (h : IVars.Rel R iv iv') {c : Constraint} (hc : c.Plain) {cs : List Con}
    (hcs : addCustomConstraint d iv c = .ok cs) :
    ∃ cs', addCustomConstraint d iv' c = .ok cs' ∧ List.Forall₂ (Con.Rel R) cs cs' := by
  unfold addCustomConstraint at hcs ⊢
  rw [bind_ok] at hcs
  obtain ⟨x, hx, hcs⟩ := hcs
  obtain ⟨x', e, e1, e2, e3⟩ := customLoop_rel h hc.1 hc.2 .nil .nil hx
  rw [e]
  obtain ⟨x1, x2, x3⟩ := x
  obtain ⟨x1', x2', x3'⟩ := x'
  simp only [ok_bind] at hcs e1 e2 e3 ⊢
  split at hcs <;> simp only [Except.ok.injEq] at hcs <;> subst hcs
  · rename_i hs
    rw [if_pos hs]
    exact ⟨_, rfl, forall₂_append e1 (.cons ⟨rfl, (Expr.Rel.sum e2).sub (.sum e3)⟩ .nil)⟩
  · rename_i hs
    rw [if_neg hs]
    exact ⟨_, rfl, e1⟩

/-! ### objectives -/

theorem simpleExprs_rel {d : SiteData} (h : IVars.Rel R iv iv') {t : OneTerm} (ht : t.Plain) {es : List Expr}
    (he : t.simpleExprs d iv = .ok es) : ∃ es', t.simpleExprs d iv' = .ok es' ∧ List.Forall₂ (Expr.Rel R) es es' := by
  cases t with
  | simple t =>
    simp only [OneTerm.simpleExprs] at he ⊢
    refine flatMapE_rel (P := Eq) (forall₂_same fun _ _ => rfl) (fun i j hij l hl => ?_) he
    subst hij
    rw [bind_ok] at hl
    obtain ⟨x, hx, hl⟩ := hl
    have : ∃ x', simpleTermAssets iv' i t = .ok x' ∧ List.Forall₂ (OneInterval.Rel R) x x' := by
      unfold simpleTermAssets at hx ⊢
      split at hx
      · rename_i hs
        rw [if_pos hs]
        exact pyIndex_rel h hx
      · rename_i hs
        rw [if_neg hs]
        exact filterStr_rel h hx
    obtain ⟨x', e1, e2⟩ := this
    rw [e1]
    exact getattr_rel ht e2 hl
  | two => simp only [OneTerm.simpleExprs, Except.ok.injEq] at he ⊢; subst he; exact ⟨_, rfl, .nil⟩
  | many => simp only [OneTerm.simpleExprs, Except.ok.injEq] at he ⊢; subst he; exact ⟨_, rfl, .nil⟩

/-- The result of a min or max term: a priced expression and its constraints. -/
def PairRel (R : LpVar → LpVar → Prop) (x y : Expr × List Con) : Prop := x.1.Rel R y.1 ∧ List.Forall₂ (Con.Rel R) x.2 y.2

theorem maxTwo_rel (hR : Transfers R) {name : String} {k : Nat} {a b a' b' : Val} {M : ℚ} (ha : Val.Rel R a a') (hb : Val.Rel R b b')
    {x : LpVar × List Con} (h : maxTwoVariables name k a b M = .ok x) :
    ∃ x', maxTwoVariables name k a' b' M = .ok x' ∧ x.1 = x'.1 ∧ List.Forall₂ (Con.Rel R) x.2 x'.2 := by
  unfold maxTwoVariables at h ⊢
  rw [← ha.flags.2.2, ← hb.flags.2.2, ← ha.flags.2.1, ← hb.flags.2.1]
  rw [bind_ok] at h
  obtain ⟨_, h1, h⟩ := h
  rw [bind_ok] at h
  obtain ⟨_, h2, h⟩ := h
  rw [h1, h2]
  simp only [ok_bind]
  split at h
  · simp at h
  · rename_i hn
    rw [if_neg hn]
    simp only [Except.ok.injEq] at h
    subst h
    have r := Expr.Rel.refl hR
    exact ⟨_, rfl, rfl, .cons (Expr.Rel.geC (r _) ha.toExpr) (.cons (Expr.Rel.geC (r _) hb.toExpr) (.cons (Expr.Rel.geC (.add ha.toExpr (r _)) (r _))
      (.cons (Expr.Rel.geC (.add hb.toExpr (r _)) (r _)) .nil)))⟩

theorem minTwo_rel (hR : Transfers R) {name : String} {k : Nat} {a b a' b' : Val} {M : ℚ} (ha : Val.Rel R a a') (hb : Val.Rel R b b')
    {x : LpVar × List Con} (h : minTwoVariables name k a b M = .ok x) :
    ∃ x', minTwoVariables name k a' b' M = .ok x' ∧ x.1 = x'.1 ∧ List.Forall₂ (Con.Rel R) x.2 x'.2 := by
  unfold minTwoVariables at h ⊢
  rw [← ha.flags.2.2, ← hb.flags.2.2, ← ha.flags.2.1, ← hb.flags.2.1]
  rw [bind_ok] at h
  obtain ⟨_, h1, h⟩ := h
  rw [bind_ok] at h
  obtain ⟨_, h2, h⟩ := h
  rw [h1, h2]
  simp only [ok_bind]
  split at h
  · simp at h
  · rename_i hn
    rw [if_neg hn]
    simp only [Except.ok.injEq] at h
    subst h
    have r := Expr.Rel.refl hR
    exact ⟨_, rfl, rfl, .cons (Expr.Rel.geC ha.toExpr (r _)) (.cons (Expr.Rel.geC hb.toExpr (r _)) (.cons (Expr.Rel.geC (r _) (.sub ha.toExpr (r _)))
      (.cons (Expr.Rel.geC (r _) (.sub hb.toExpr (r _))) .nil)))⟩

theorem resolve_rel (hR : Transfers R) (h : IVars.Rel R iv iv') {i : Nat} {a : TermOrFloat} (ha : ∀ t, a = .term t → t.attr ∉ limitAttrs)
    {v : Val} (hv : a.resolve iv i = .ok v) : ∃ w, a.resolve iv' i = .ok w ∧ Val.Rel R v w := by
  cases a with
  | float q =>
    simp only [TermOrFloat.resolve, Except.ok.injEq] at hv ⊢
    subst hv
    exact ⟨_, rfl, .refl hR _⟩
  | term t =>
    simp only [TermOrFloat.resolve] at hv ⊢
    rw [bind_ok] at hv
    obtain ⟨l, hl, hv⟩ := hv
    rw [bind_ok] at hv
    obtain ⟨o, ho, hv⟩ := hv
    obtain ⟨l', e1, e2⟩ := filterStr_rel h hl
    obtain ⟨o', e3, e4⟩ := forall₂_get e2 (pyIndex_zero.1 ho)
    rw [e1]
    simp only [ok_bind]
    rw [pyIndex_zero.2 e3]
    exact e4.get t.attr (ha t rfl) v hv

theorem twoExprs_rel (hR : Transfers R) {d : SiteData} (h : IVars.Rel R iv iv') {t : OneTerm} (ht : t.Plain) {k : Nat}
    {es : List (Expr × List Con)} (he : t.twoExprs d iv k = .ok es) :
    ∃ es', t.twoExprs d iv' k = .ok es' ∧ List.Forall₂ (PairRel R) es es' := by
  cases t with
  | simple t => simp only [OneTerm.twoExprs, Except.ok.injEq] at he ⊢; subst he; exact ⟨_, rfl, .nil⟩
  | many f v M q r =>
    simp only [OneTerm.twoExprs] at he ⊢
    split at he
    · simp at he
    · rename_i hf
      rw [if_neg hf]
      simp only [Except.ok.injEq] at he ⊢
      subst he
      exact ⟨_, rfl, .nil⟩
  | two f a b M data q =>
    simp only [OneTerm.twoExprs] at he ⊢
    by_cases hf : f = "max_two_variables" ∨ f = "min_two_variables"
    · rw [if_pos hf] at he ⊢
      refine mapE_rel (P := Eq) (forall₂_same fun _ _ => rfl) (fun i j hij x hx => ?_) he
      subst hij
      rw [bind_ok] at hx
      obtain ⟨_, c1, hx⟩ := hx
      rw [bind_ok] at hx
      obtain ⟨_, c2, hx⟩ := hx
      rw [bind_ok] at hx
      obtain ⟨v1, r1, hx⟩ := hx
      rw [bind_ok] at hx
      obtain ⟨v2, r2, hx⟩ := hx
      obtain ⟨w1, s1, t1⟩ := resolve_rel hR h ht.1 r1
      obtain ⟨w2, s2, t2⟩ := resolve_rel hR h ht.2 r2
      rw [c1, c2, s1, s2]
      simp only [ok_bind]
      by_cases hm : f = "max_two_variables"
      · simp only [if_pos hm] at hx ⊢
        rw [bind_ok] at hx
        obtain ⟨⟨cv, cons⟩, hcv, hx⟩ := hx
        obtain ⟨⟨cv', cons'⟩, g1, g2, g3⟩ := maxTwo_rel hR t1 t2 hcv
        rw [g1]
        simp only [ok_bind] at hx g2 ⊢
        subst g2
        rw [bind_ok] at hx
        obtain ⟨y, hy, hx⟩ := hx
        simp only [Except.ok.injEq] at hx
        subst hx
        rw [hy]
        exact ⟨_, rfl, .refl hR _, g3⟩
      · simp only [if_neg hm] at hx ⊢
        rw [bind_ok] at hx
        obtain ⟨⟨cv, cons⟩, hcv, hx⟩ := hx
        obtain ⟨⟨cv', cons'⟩, g1, g2, g3⟩ := minTwo_rel hR t1 t2 hcv
        rw [g1]
        simp only [ok_bind] at hx g2 ⊢
        subst g2
        rw [bind_ok] at hx
        obtain ⟨y, hy, hx⟩ := hx
        simp only [Except.ok.injEq] at hx
        subst hx
        rw [hy]
        exact ⟨_, rfl, .refl hR _, g3⟩
    · rw [if_neg hf] at he ⊢
      simp only [Except.ok.injEq] at he ⊢
      subst he
      exact ⟨_, rfl, .nil⟩

theorem filterAll_rel (h : IVars.Rel R iv iv') {kind : Option Kind} {name : Option String} :
    List.Forall₂ (List.Forall₂ (OneInterval.Rel R)) (iv.filterAll kind name) (iv'.filterAll kind name) := by
  unfold IVars.filterAll
  unfold IVars.Rel at h
  induction h with
  | nil => exact .nil
  | cons hx _ ih => exact .cons (forall₂_filter (fun a b hab => by simp only [matchesFilter, hab.kind, hab.name]) hx) ih

theorem filterAllStr_rel (h : IVars.Rel R iv iv') {kind name : Option String} {l : List (List OneInterval)}
    (hl : iv.filterAllStr kind name = .ok l) :
    ∃ l', iv'.filterAllStr kind name = .ok l' ∧ List.Forall₂ (List.Forall₂ (OneInterval.Rel R)) l l' := by
  cases h with
  | nil => simp only [IVars.filterAllStr, Except.ok.injEq] at hl ⊢; subst hl; exact ⟨_, rfl, .nil⟩
  | cons hx hs =>
    have h' := List.Forall₂.cons hx hs
    simp only [IVars.filterAllStr] at hl ⊢
    cases kind with
    | none =>
      simp only [ok_bind, Except.ok.injEq] at hl ⊢
      subst hl
      exact ⟨_, rfl, filterAll_rel h'⟩
    | some t =>
      simp only at hl ⊢
      rw [bind_ok] at hl
      obtain ⟨k, hk, hl⟩ := hl
      rw [hk]
      simp only [Except.ok.injEq] at hl
      subst hl
      exact ⟨_, rfl, filterAll_rel h'⟩

theorem manyOperands_rel (hR : Transfers R) (h : IVars.Rel R iv iv') {v : Term} (hv : v.attr ∉ limitAttrs) {q : ℚ} {xs : List Val}
    (hx : manyOperands iv v q = .ok xs) : ∃ xs', manyOperands iv' v q = .ok xs' ∧ List.Forall₂ (Val.Rel R) xs xs' := by
  unfold manyOperands at hx ⊢
  have key : ∀ {kind name : Option String}, (do
      let assets ← iv.filterAllStr kind name
      let vals ← mapE (fun (a : OneInterval) => a.getattr v.attr) assets.flatten
      (Except.ok (vals.filter (fun (x : Val) => !x.isNone) ++ [Val.num q]) : Res (List Val))) = .ok xs → ∃ xs', (do
      let assets ← iv'.filterAllStr kind name
      let vals ← mapE (fun (a : OneInterval) => a.getattr v.attr) assets.flatten
      (Except.ok (vals.filter (fun (x : Val) => !x.isNone) ++ [Val.num q]) : Res (List Val))) = .ok xs' ∧ List.Forall₂ (Val.Rel R) xs xs' := by
    intro kind name hk
    rw [bind_ok] at hk
    obtain ⟨l, hl, hk⟩ := hk
    rw [bind_ok] at hk
    obtain ⟨vs, hvs, hk⟩ := hk
    simp only [Except.ok.injEq] at hk
    subst hk
    obtain ⟨l', e1, e2⟩ := filterAllStr_rel h hl
    obtain ⟨vs', e3, e4⟩ := mapE_rel (Q := Val.Rel R) (forall₂_flatten e2) (fun o o' ho x hx => ho.get v.attr hv x hx) hvs
    rw [e1]
    simp only [ok_bind]
    rw [e3]
    exact ⟨_, rfl, forall₂_append (forall₂_filter (fun a b hab => by rw [hab.flags.2.1]) e4) (.cons (.refl hR _) .nil)⟩
  by_cases h1 : v.assetType = some "*"
  · simp only [if_pos h1] at hx ⊢
    exact key hx
  · by_cases h2 : v.assetName = none
    · simp only [if_neg h1, if_pos h2] at hx ⊢
      exact key hx
    · simp only [if_neg h1, if_neg h2] at hx ⊢
      exact key hx

theorem nonNegative_rel (hR : Transfers R) {x y : Val} (h : Val.Rel R x y) : assertNonNegative x = assertNonNegative y := by
  cases h with
  | var h => simp only [assertNonNegative, hR.low _ _ h]
  | same => rfl

theorem zipIdx_rel {xs xs' : List Val} (h : List.Forall₂ (Val.Rel R) xs xs') (k : Nat) :
    List.Forall₂ (fun p p' => Val.Rel R p.1 p'.1 ∧ p.2 = p'.2) (xs.zipIdx k) (xs'.zipIdx k) := by
  induction h generalizing k with
  | nil => exact .nil
  | cons hx _ ih => exact .cons ⟨hx, rfl⟩ (ih (k + 1))

theorem flatMap_rel {α α' β β' : Type} {P : α → α' → Prop} {Q : β → β' → Prop} {f : α → List β} {f' : α' → List β'} {l : List α}
    {l' : List α'} (h : List.Forall₂ P l l') (hf : ∀ a a', P a a' → List.Forall₂ Q (f a) (f' a')) :
    List.Forall₂ Q (l.flatMap f) (l'.flatMap f') := by
  induction h with
  | nil => exact .nil
  | cons hx _ ih => simp only [List.flatMap_cons]; exact forall₂_append (hf _ _ hx) ih

theorem maxMany_rel (hR : Transfers R) {name : String} {k : Nat} {xs xs' : List Val} (hxs : List.Forall₂ (Val.Rel R) xs xs') {M : ℚ}
    {x : LpVar × List Con} (h : maxManyVariables name k xs M = .ok x) :
    ∃ x', maxManyVariables name k xs' M = .ok x' ∧ x.1 = x'.1 ∧ List.Forall₂ (Con.Rel R) x.2 x'.2 := by
  unfold maxManyVariables at h ⊢
  rw [bind_ok] at h
  obtain ⟨_, h1, h⟩ := h
  rw [bind_ok] at h
  obtain ⟨us, h2, h⟩ := h
  simp only [Except.ok.injEq] at h
  subst h
  obtain ⟨us', h3, _⟩ := mapE_rel (Q := fun _ _ => True) (f' := assertNonNegative) hxs (fun a b hab u hu => ⟨u, by rw [← nonNegative_rel hR hab]; exact hu, trivial⟩) h2
  rw [h1, h3]
  have r := Expr.Rel.refl hR
  refine ⟨_, rfl, rfl, flatMap_rel (zipIdx_rel hxs 0) fun a b hab => ?_⟩
  refine .cons (Expr.Rel.geC (r _) hab.1.toExpr) ?_
  rw [hab.1.flags.1, hab.2]
  split
  · exact .cons (Expr.Rel.geC (.add hab.1.toExpr (r _)) (r _)) .nil
  · exact .nil

theorem minMany_rel (hR : Transfers R) {name : String} {k : Nat} {xs xs' : List Val} (hxs : List.Forall₂ (Val.Rel R) xs xs') {M : ℚ}
    {x : LpVar × List Con} (h : minManyVariables name k xs M = .ok x) :
    ∃ x', minManyVariables name k xs' M = .ok x' ∧ x.1 = x'.1 ∧ List.Forall₂ (Con.Rel R) x.2 x'.2 := by
  unfold minManyVariables at h ⊢
  rw [bind_ok] at h
  obtain ⟨_, h1, h⟩ := h
  rw [bind_ok] at h
  obtain ⟨us, h2, h⟩ := h
  simp only [Except.ok.injEq] at h
  subst h
  obtain ⟨us', h3, _⟩ := mapE_rel (Q := fun _ _ => True) (f' := assertNonNegative) hxs (fun a b hab u hu => ⟨u, by rw [← nonNegative_rel hR hab]; exact hu, trivial⟩) h2
  rw [h1, h3]
  have r := Expr.Rel.refl hR
  refine ⟨_, rfl, rfl, forall₂_append (flatMap_rel (zipIdx_rel hxs 0) fun a b hab => ?_) ?_⟩
  · rw [hab.2]
    exact .cons (Expr.Rel.leC (r _) hab.1.toExpr) (.cons (Expr.Rel.leC (.sub hab.1.toExpr (r _)) (r _)) .nil)
  · rw [← hxs.length_eq]
    exact .cons (Expr.Rel.leC (r _) (r _)) .nil

theorem manyExprs_rel (hR : Transfers R) (h : IVars.Rel R iv iv') {t : OneTerm} (ht : t.Plain) {k : Nat}
    {es : List (Expr × List Con)} (he : t.manyExprs iv k = .ok es) :
    ∃ es', t.manyExprs iv' k = .ok es' ∧ List.Forall₂ (PairRel R) es es' := by
  cases t with
  | simple t => simp only [OneTerm.manyExprs, Except.ok.injEq] at he ⊢; subst he; exact ⟨_, rfl, .nil⟩
  | two f a b M q r =>
    simp only [OneTerm.manyExprs] at he ⊢
    split at he
    · simp at he
    · rename_i hf
      rw [if_neg hf]
      simp only [Except.ok.injEq] at he ⊢
      subst he
      exact ⟨_, rfl, .nil⟩
  | many f v M q c =>
    simp only [OneTerm.manyExprs] at he ⊢
    by_cases hf : f = "max_many_variables" ∨ f = "min_many_variables"
    · rw [if_pos hf] at he ⊢
      rw [bind_ok] at he
      obtain ⟨_, c1, he⟩ := he
      rw [bind_ok] at he
      obtain ⟨ops, c2, he⟩ := he
      obtain ⟨ops', e1, e2⟩ := manyOperands_rel hR h ht c2
      rw [c1, e1]
      simp only [ok_bind]
      by_cases hm : f = "max_many_variables"
      · simp only [if_pos hm] at he ⊢
        rw [bind_ok] at he
        obtain ⟨⟨cv, cons⟩, hcv, he⟩ := he
        obtain ⟨⟨cv', cons'⟩, g1, g2, g3⟩ := maxMany_rel hR e2 hcv
        rw [g1]
        simp only [ok_bind, Except.ok.injEq] at he g2 ⊢
        subst g2 he
        exact ⟨_, rfl, .cons ⟨.refl hR _, g3⟩ .nil⟩
      · simp only [if_neg hm] at he ⊢
        rw [bind_ok] at he
        obtain ⟨⟨cv, cons⟩, hcv, he⟩ := he
        obtain ⟨⟨cv', cons'⟩, g1, g2, g3⟩ := minMany_rel hR e2 hcv
        rw [g1]
        simp only [ok_bind, Except.ok.injEq] at he g2 ⊢
        subst g2 he
        exact ⟨_, rfl, .cons ⟨.refl hR _, g3⟩ .nil⟩
    · rw [if_neg hf] at he ⊢
      simp only [Except.ok.injEq] at he ⊢
      subst he
      exact ⟨_, rfl, .nil⟩

theorem pairs_rel {l l' : List (Expr × List Con)} (h : List.Forall₂ (PairRel R) l l') :
    List.Forall₂ (Expr.Rel R) (l.map Prod.fst) (l'.map Prod.fst) ∧ List.Forall₂ (Con.Rel R) (l.flatMap Prod.snd) (l'.flatMap Prod.snd) := by
  induction h with
  | nil => exact ⟨.nil, .nil⟩
  | cons hx _ ih => exact ⟨.cons hx.1 ih.1, by simp only [List.flatMap_cons]; exact forall₂_append hx.2 ih.2⟩

theorem customObjective_rel (hR : Transfers R) {d : SiteData} (h : IVars.Rel R iv iv') {terms : List OneTerm} (ht : ∀ t ∈ terms, t.Plain)
    {x : Expr × List Con} (hx : customObjective d iv terms = .ok x) : ∃ x', customObjective d iv' terms = .ok x' ∧ PairRel R x x' := by
  unfold customObjective at hx ⊢
  rw [bind_ok] at hx
  obtain ⟨a, ha, hx⟩ := hx
  rw [bind_ok] at hx
  obtain ⟨b, hb, hx⟩ := hx
  rw [bind_ok] at hx
  obtain ⟨c, hc, hx⟩ := hx
  simp only [Except.ok.injEq] at hx
  subst hx
  have mem : ∀ p ∈ terms.zipIdx, p.1 ∈ terms := fun p hp => (List.mem_zipIdx' hp).2 ▸ List.getElem_mem _
  obtain ⟨a', a1, a2⟩ := flatMapE_rel (P := fun x y => x = y ∧ x ∈ terms) (forall₂_same fun a ha => ⟨rfl, ha⟩)
    (fun x y hxy l hl => by obtain ⟨rfl, hm⟩ := hxy; exact simpleExprs_rel h (ht x hm) hl) ha
  obtain ⟨b', b1, b2⟩ := flatMapE_rel (P := fun x y => x = y ∧ x.1 ∈ terms) (Q := PairRel R) (forall₂_same fun a ha => ⟨rfl, mem a ha⟩)
    (fun x y hxy l hl => by obtain ⟨rfl, hm⟩ := hxy; exact twoExprs_rel hR h (ht x.1 hm) hl) hb
  obtain ⟨c', c1, c2⟩ := flatMapE_rel (P := fun x y => x = y ∧ x.1 ∈ terms) (Q := PairRel R) (forall₂_same fun a ha => ⟨rfl, mem a ha⟩)
    (fun x y hxy l hl => by obtain ⟨rfl, hm⟩ := hxy; exact manyExprs_rel hR h (ht x.1 hm) hl) hc
  rw [a1, b1, c1]
  exact ⟨_, rfl, .sum (forall₂_append (forall₂_append a2 (pairs_rel b2).1) (pairs_rel c2).1),
    forall₂_append (pairs_rel b2).2 (pairs_rel c2).2⟩

/-! ### price and carbon -/

theorem filterMap_rel {α α' β β' : Type} {P : α → α' → Prop} {Q : β → β' → Prop} {f : α → Option β} {f' : α' → Option β'} {l : List α}
    {l' : List α'} (h : List.Forall₂ P l l')
    (hf : ∀ a a', P a a' → (f a = none ∧ f' a' = none) ∨ ∃ b b', f a = some b ∧ f' a' = some b' ∧ Q b b') :
    List.Forall₂ Q (l.filterMap f) (l'.filterMap f') := by
  induction h with
  | nil => exact .nil
  | cons hx _ ih =>
    rcases hf _ _ hx with ⟨h1, h2⟩ | ⟨b, b', h1, h2, h3⟩
    · rw [List.filterMap_cons_none h1, List.filterMap_cons_none h2]; exact ih
    · rw [List.filterMap_cons_some h1, List.filterMap_cons_some h2]; exact .cons h3 ih

/-- The quantities of related objects are related. -/
structure Base.Rel (R : LpVar → LpVar → Prop) (b b' : Base) : Prop where
  electricGeneration : Val.Rel R b.electricGeneration b'.electricGeneration
  htGeneration : Val.Rel R b.htGeneration b'.htGeneration
  ltGeneration : Val.Rel R b.ltGeneration b'.ltGeneration
  electricLoad : Val.Rel R b.electricLoad b'.electricLoad
  htLoad : Val.Rel R b.htLoad b'.htLoad
  ltLoad : Val.Rel R b.ltLoad b'.ltLoad
  electricCharge : Val.Rel R b.electricCharge b'.electricCharge
  electricDischarge : Val.Rel R b.electricDischarge b'.electricDischarge
  gasConsumption : Val.Rel R b.gasConsumption b'.gasConsumption

theorem get_rel {o o' : OneInterval} (h : OneInterval.Rel R o o') {attr : String} {v w : Val} (ha : attr ∉ limitAttrs)
    (hv : o.getattr attr = .ok v) (hw : o'.getattr attr = .ok w) : Val.Rel R v w := by
  obtain ⟨w', h1, h2⟩ := h.get attr ha v hv
  rw [hw] at h1
  cases h1
  exact h2

theorem OneInterval.Rel.base {o o' : OneInterval} (h : OneInterval.Rel R o o') : Base.Rel R o.base o'.base where
  electricGeneration := get_rel h (attr := "electric_generation_mwh") (by decide) rfl rfl
  htGeneration := get_rel h (attr := "high_temperature_generation_mwh") (by decide) rfl rfl
  ltGeneration := get_rel h (attr := "low_temperature_generation_mwh") (by decide) rfl rfl
  electricLoad := get_rel h (attr := "electric_load_mwh") (by decide) rfl rfl
  htLoad := get_rel h (attr := "high_temperature_load_mwh") (by decide) rfl rfl
  ltLoad := get_rel h (attr := "low_temperature_load_mwh") (by decide) rfl rfl
  electricCharge := get_rel h (attr := "electric_charge_mwh") (by decide) rfl rfl
  electricDischarge := get_rel h (attr := "electric_discharge_mwh") (by decide) rfl rfl
  gasConsumption := get_rel h (attr := "gas_consumption_mwh") (by decide) rfl rfl

theorem var_rel {v w : LpVar} (h : Val.Rel R (.var v) (.var w)) : R v w := by
  cases h with
  | var h => exact h
  | same h => simp [Val.isVar] at h

theorem site_rel {s s' : SiteOI} (h : OneInterval.Rel R (.site s) (.site s')) : R s.importPower s'.importPower ∧ R s.exportPower s'.exportPower :=
  ⟨var_rel (get_rel h (attr := "import_power_mwh") (by decide) rfl rfl), var_rel (get_rel h (attr := "export_power_mwh") (by decide) rfl rfl)⟩

theorem priceTerms_rel {d : SiteData} {i : Nat} {l l' : List OneInterval} (h : List.Forall₂ (OneInterval.Rel R) l l') {es : List Expr}
    (he : priceTerms d i l = .ok es) : ∃ es', priceTerms d i l' = .ok es' ∧ List.Forall₂ (Expr.Rel R) es es' := by
  unfold priceTerms at he ⊢
  rw [bind_ok] at he
  obtain ⟨p, hp, he⟩ := he
  rw [bind_ok] at he
  obtain ⟨x, hx, he⟩ := he
  rw [bind_ok] at he
  obtain ⟨g, hg, he⟩ := he
  rw [hp, hx, hg]
  simp only [ok_bind, Except.ok.injEq] at he ⊢
  subst he
  refine ⟨_, rfl, ?_⟩
  refine forall₂_append (forall₂_append (forall₂_append (forall₂_append ?_ ?_) ?_) ?_) ?_ <;>
    refine filterMap_rel h fun a a' haa => ?_ <;> have hk := haa.kind <;> have hb := haa.base <;>
    cases a <;> cases a' <;> simp only [OneInterval.kind, reduceCtorEq] at hk <;>
    first
    | exact .inl ⟨rfl, rfl⟩
    | refine .inr ⟨_, _, rfl, rfl, ?_⟩
  · exact (Expr.Rel.mul (.var (site_rel haa).1) _).sub (.mul (.var (site_rel haa).2) _)
  · exact (((hb.electricGeneration.toExpr.mul _).add (hb.htGeneration.toExpr.mul _)).add (hb.electricLoad.toExpr.mul _)).add
      (hb.htLoad.toExpr.mul _)
  · exact (hb.electricCharge.toExpr.mul _).add (hb.electricDischarge.toExpr.mul _)
  · exact hb.gasConsumption.toExpr.mul _
  · exact hb.gasConsumption.toExpr.mul _

theorem carbonSpill_rel {b b' : Base} (hb : Base.Rel R b b') : (carbonSpillTerm b).Rel R (carbonSpillTerm b') :=
  ((((hb.electricGeneration.toExpr.mul _).add (hb.htGeneration.toExpr.mul _)).add (hb.electricLoad.toExpr.mul _)).add
    (hb.electricCharge.toExpr.mul _)).add (hb.electricDischarge.toExpr.mul _)

theorem carbonTerms_rel {d : SiteData} {i : Nat} {l l' : List OneInterval} (h : List.Forall₂ (OneInterval.Rel R) l l') {es : List Expr}
    (he : carbonTerms d i l = .ok es) : ∃ es', carbonTerms d i l' = .ok es' ∧ List.Forall₂ (Expr.Rel R) es es' := by
  unfold carbonTerms at he ⊢
  rw [bind_ok] at he
  obtain ⟨p, hp, he⟩ := he
  rw [hp]
  simp only [ok_bind, Except.ok.injEq] at he ⊢
  subst he
  refine ⟨_, rfl, ?_⟩
  refine forall₂_append (forall₂_append (forall₂_append (forall₂_append ?_ ?_) ?_) ?_) ?_ <;>
    refine filterMap_rel h fun a a' haa => ?_ <;> have hk := haa.kind <;> have hb := haa.base <;>
    cases a <;> cases a' <;> simp only [OneInterval.kind, reduceCtorEq] at hk <;>
    first
    | exact .inl ⟨rfl, rfl⟩
    | refine .inr ⟨_, _, rfl, rfl, ?_⟩
  · exact (Expr.Rel.mul (.var (site_rel haa).1) _).sub (.mul (.var (site_rel haa).2) _)
  · exact carbonSpill_rel hb
  · exact carbonSpill_rel hb
  · exact hb.gasConsumption.toExpr.mul _
  · exact hb.gasConsumption.toExpr.mul _

theorem termFactory_same {t t' : OneTerm} (h : termFactory t = .ok t') : t' = t := by
  cases t with
  | simple t => simp only [termFactory, Except.ok.injEq] at h; exact h.symm
  | two f a b M data q =>
    simp only [termFactory] at h
    repeat' split at h
    all_goals first | (simp only [Except.ok.injEq] at h; exact h.symm) | simp at h
  | many f v M c q =>
    simp only [termFactory] at h
    repeat' split at h
    all_goals first | (simp only [Except.ok.injEq] at h; exact h.symm) | simp at h

theorem getObjective_rel (hR : Transfers R) {d : SiteData} (h : IVars.Rel R iv iv') {objective : Objective} (ho : objective.Plain)
    {x : Expr × List Con} (hx : getObjective d iv objective = .ok x) : ∃ x', getObjective d iv' objective = .ok x' ∧ PairRel R x x' := by
  cases objective with
  | str s =>
    simp only [getObjective] at hx ⊢
    by_cases h1 : s = "price"
    · rw [if_pos h1] at hx ⊢
      unfold priceObjective at hx ⊢
      simp only [bind_ok, Except.ok.injEq] at hx
      obtain ⟨_, ⟨ts, hts, rfl⟩, rfl⟩ := hx
      obtain ⟨ts', e1, e2⟩ := flatMapE_rel (P := Eq) (Q := Expr.Rel R) (f' := fun (i : Nat) => do
        let assets ← pyIndex iv' i
        priceTerms d i assets) (forall₂_same fun _ _ => rfl) (fun i j hij l hl => by
        subst hij
        rw [bind_ok] at hl
        obtain ⟨a, ha, hl⟩ := hl
        obtain ⟨a', g1, g2⟩ := pyIndex_rel h ha
        rw [g1]
        exact priceTerms_rel g2 hl) hts
      rw [e1]
      exact ⟨_, rfl, .sum e2, .nil⟩
    · rw [if_neg h1] at hx ⊢
      by_cases h2 : s = "carbon"
      · rw [if_pos h2] at hx ⊢
        unfold carbonObjective at hx ⊢
        simp only [bind_ok, Except.ok.injEq] at hx
        obtain ⟨_, ⟨ts, hts, rfl⟩, rfl⟩ := hx
        obtain ⟨ts', e1, e2⟩ := flatMapE_rel (P := Eq) (Q := Expr.Rel R) (f' := fun (i : Nat) => do
          let assets ← pyIndex iv' i
          carbonTerms d i assets) (forall₂_same fun _ _ => rfl) (fun i j hij l hl => by
          subst hij
          rw [bind_ok] at hl
          obtain ⟨a, ha, hl⟩ := hl
          obtain ⟨a', g1, g2⟩ := pyIndex_rel h ha
          rw [g1]
          exact carbonTerms_rel g2 hl) hts
        rw [e1]
        exact ⟨_, rfl, .sum e2, .nil⟩
      · rw [if_neg h2] at hx
        simp at hx
  | custom terms => exact customObjective_rel hR h ho hx
  | dict terms =>
    simp only [getObjective] at hx ⊢
    rw [bind_ok] at hx
    obtain ⟨ts, hts, hx⟩ := hx
    rw [hts]
    refine customObjective_rel hR h (fun t ht => ?_) hx
    obtain ⟨t0, h0, h1⟩ := (mapE_mem hts).1 ht
    rw [termFactory_same h1]
    exact ho t0 h0

/-! ### programs -/

theorem bounds_rel (hR : Transfers R) {e e' : Expr} (h : e.Rel R e') {σ : Assign} (hb : ∀ v ∈ e.vars, v.InBounds σ) :
    ∀ w ∈ e'.vars, w.InBounds σ := by
  intro w hw
  obtain ⟨v, hv, hr⟩ := h.vars hw
  exact hR.bounds v w hr σ (hb v hv)

theorem cons_rel (hR : Transfers R) {l l' : List Con} (h : List.Forall₂ (Con.Rel R) l l') {σ : Assign}
    (hl : ∀ c ∈ l, c.Holds σ ∧ ∀ v ∈ c.e.vars, v.InBounds σ) : ∀ c ∈ l', c.Holds σ ∧ ∀ v ∈ c.e.vars, v.InBounds σ := by
  intro c' hc'
  obtain ⟨c, hc, hr⟩ := forall₂_mem h hc'
  exact ⟨(hr.holds hR σ).1 (hl c hc).1, bounds_rel hR hr.2 (hl c hc).2⟩

theorem feasible_iff {p : Prob} {σ : Assign} :
    p.Feasible σ ↔ (∀ c ∈ p.cons, c.Holds σ ∧ ∀ v ∈ c.e.vars, v.InBounds σ) ∧ ∀ v ∈ p.obj.vars, v.InBounds σ := by
  unfold Prob.Feasible
  constructor
  · rintro ⟨h1, h2⟩
    exact ⟨fun c hc => ⟨h1 c hc, fun v hv => h2 v (prob_vars_iff.2 (.inl ⟨c, hc, hv⟩))⟩, fun v hv => h2 v (prob_vars_iff.2 (.inr hv))⟩
  · rintro ⟨h1, h2⟩
    refine ⟨fun c hc => (h1 c hc).1, fun v hv => ?_⟩
    rcases prob_vars_iff.1 hv with ⟨c, hc, hv⟩ | hv
    · exact (h1 c hc).2 v hv
    · exact h2 v hv

/-- A site with the same data and constraints and related objects: its program exists, has the same objective, and feasible answers carry
over if they satisfy the constraints of its assets and of the site itself. -/
theorem program_transfer (hR : Transfers R) {s s' : Site} {objective : Objective} {flags : Flags} {p : Prob} (hd : s'.data = s.data)
    (hc : s'.constraints = s.constraints) (hpc : ∀ c ∈ s.constraints, c.Plain) (hpo : objective.Plain)
    (hn : (s'.assets.map Asset.name).Nodup) (hb : ∃ cs, s'.build flags = .ok (s'.ivarsTo flags s'.data.n, cs))
    (hiv : IVars.Rel R iv (s'.ivarsTo flags s'.data.n)) (h : s.program objective flags = .ok (iv, p)) :
    ∃ p', s'.program objective flags = .ok (s'.ivarsTo flags s'.data.n, p') ∧ (∀ σ, p'.obj.eval σ = p.obj.eval σ) ∧
      ∀ σ, p.Feasible σ → (∀ c, s'.BaseCon flags c → c.Holds σ ∧ ∀ v ∈ c.e.vars, v.InBounds σ) → p'.Feasible σ := by
  obtain ⟨base, custom, objCons, hbu, hcu, hob, hcons⟩ := (program_spec h).built
  obtain ⟨base', hb'⟩ := hb
  obtain ⟨custom', e1, e2⟩ := flatMapE_rel (P := fun x y => x = y ∧ x ∈ s.constraints) (Q := Con.Rel R)
    (f' := addCustomConstraint s.data (s'.ivarsTo flags s'.data.n)) (forall₂_same fun a ha => ⟨rfl, ha⟩)
    (fun x y hxy l hl => by obtain ⟨rfl, hm⟩ := hxy; exact addCustom_rel hiv (hpc x hm) hl) hcu
  obtain ⟨⟨obj', objCons'⟩, e3, e4⟩ := getObjective_rel hR hiv hpo hob
  refine ⟨⟨base' ++ custom' ++ objCons', obj'⟩, ?_, ?_, ?_⟩
  · unfold Site.program
    have : noDup (s'.assets.map Asset.name) = true := decide_eq_true hn
    rw [this, pyAssert_true, hb']
    simp only [ok_bind]
    generalize s'.ivarsTo flags s'.data.n = iv' at e1 e3 ⊢
    rw [hc, hd, e1]
    simp only [ok_bind]
    rw [e3]
    rfl
  · intro σ
    exact (e4.1.eval hR σ).symm
  · intro σ hf hbase
    rw [feasible_iff] at hf ⊢
    obtain ⟨hf1, hf2⟩ := hf
    refine ⟨fun c hcm => ?_, bounds_rel hR e4.1 hf2⟩
    rw [List.mem_append, List.mem_append] at hcm
    rcases hcm with (hcm | hcm) | hcm
    · exact hbase c (((built_of_build hn hb').mem_iff c).1 hcm)
    · exact cons_rel hR e2 (fun c hc => hf1 c (by rw [hcons]; simp [hc])) c hcm
    · exact cons_rel hR e4.2 (fun c hc => hf1 c (by rw [hcons]; simp [hc])) c hcm

end

end EPL
