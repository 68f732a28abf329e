/-
Lemmas about the Python primitives and linear expressions.
-/
import Verif.Spec.Values
import Mathlib.Tactic.Linarith
import Mathlib.Tactic.Ring
import Mathlib.Algebra.BigOperators.Group.List.Basic
import Mathlib.Algebra.Order.BigOperators.Group.List

namespace EPL

/-! ### Exceptions -/

theorem bind_ok {α β : Type} {x : Res α} {f : α → Res β} {b : β} :
    (x >>= f) = .ok b ↔ ∃ a, x = .ok a ∧ f a = .ok b := by
  cases x with
  | error e => simp [bind, Except.bind]
  | ok a => simp [bind, Except.bind]

@[simp] theorem ok_bind {α β : Type} (a : α) (f : α → Res β) : ((.ok a : Res α) >>= f) = f a := rfl

@[simp] theorem error_bind {α β : Type} (e : Err) (f : α → Res β) : ((.error e : Res α) >>= f) = .error e := rfl

@[simp] theorem pyAssert_ok {b : Bool} {m : String} {u : Unit} : pyAssert b m = .ok u ↔ b = true := by
  unfold pyAssert; cases b <;> simp

@[simp] theorem pyValidate_ok {b : Bool} {m : String} {u : Unit} : pyValidate b m = .ok u ↔ b = true := by
  unfold pyValidate; cases b <;> simp

@[simp] theorem pyAssert_true {m : String} : pyAssert true m = .ok () := rfl
@[simp] theorem pyValidate_true {m : String} : pyValidate true m = .ok () := rfl

theorem mapE_ok {α β : Type} {f : α → Res β} {l : List α} {bs : List β} :
    mapE f l = .ok bs ↔ List.Forall₂ (fun a b => f a = .ok b) l bs := by
  induction l generalizing bs with
  | nil => cases bs <;> simp [mapE]
  | cons a l ih =>
    simp only [mapE, bind_ok]
    constructor
    · rintro ⟨b, hb, bs', hbs, h⟩
      cases h
      exact .cons hb (ih.1 hbs)
    · intro h
      cases h with
      | cons hb hbs => exact ⟨_, hb, _, ih.2 hbs, rfl⟩

theorem mapE_eq_map {α β : Type} {f : α → Res β} {g : α → β} {l : List α} (h : ∀ a ∈ l, f a = .ok (g a)) :
    mapE f l = .ok (l.map g) := by
  induction l with
  | nil => rfl
  | cons a l ih =>
    simp only [mapE, h a (by simp), ok_bind, ih (fun a ha => h a (by simp [ha])), List.map_cons]

theorem mapE_length {α β : Type} {f : α → Res β} {l : List α} {bs : List β} (h : mapE f l = .ok bs) :
    bs.length = l.length := (mapE_ok.1 h).length_eq.symm

theorem mapE_mem {α β : Type} {f : α → Res β} {l : List α} {bs : List β} (h : mapE f l = .ok bs) {b : β} :
    b ∈ bs ↔ ∃ a ∈ l, f a = .ok b := by
  induction l generalizing bs with
  | nil => simp [mapE] at h; subst h; simp
  | cons a l ih =>
    simp only [mapE, bind_ok] at h
    obtain ⟨b', hb, bs', hbs, h⟩ := h
    cases h
    simp only [List.mem_cons, ih hbs, exists_eq_or_imp, hb, Except.ok.injEq]
    rw [eq_comm]

theorem mapE_all_ok {α β : Type} {f : α → Res β} {l : List α} {bs : List β} (h : mapE f l = .ok bs) {a : α}
    (ha : a ∈ l) : ∃ b ∈ bs, f a = .ok b := by
  induction l generalizing bs with
  | nil => simp at ha
  | cons a' l ih =>
    simp only [mapE, bind_ok] at h
    obtain ⟨b', hb, bs', hbs, h⟩ := h
    cases h
    rcases List.mem_cons.1 ha with rfl | ha
    · exact ⟨_, by simp, hb⟩
    · obtain ⟨b, hb, h⟩ := ih hbs ha
      exact ⟨b, by simp [hb], h⟩

theorem mapE_get {α β : Type} {f : α → Res β} {l : List α} {bs : List β} (h : mapE f l = .ok bs) {i : Nat} {a : α}
    (ha : l[i]? = some a) : ∃ b, bs[i]? = some b ∧ f a = .ok b := by
  induction l generalizing bs i with
  | nil => simp at ha
  | cons a' l ih =>
    simp only [mapE, bind_ok] at h
    obtain ⟨b', hb, bs', hbs, h⟩ := h
    cases h
    cases i with
    | zero => simp at ha; subst ha; exact ⟨_, by simp, hb⟩
    | succ i => simpa using ih hbs (by simpa using ha)

theorem mapE_append {α β : Type} (f : α → Res β) (l l' : List α) :
    mapE f (l ++ l') = (do let a ← mapE f l; let b ← mapE f l'; .ok (a ++ b)) := by
  induction l with
  | nil =>
    simp only [List.nil_append, mapE, ok_bind]
    cases mapE f l' <;> rfl
  | cons a l ih =>
    simp only [List.cons_append, mapE, ih]
    cases f a with
    | error e => rfl
    | ok b =>
      simp only [ok_bind]
      cases mapE f l with
      | error e => rfl
      | ok bs =>
        simp only [ok_bind]
        cases mapE f l' <;> rfl

theorem mapE_error_mem {α β : Type} {f : α → Res β} {l : List α} {e : Err} {a : α} (ha : a ∈ l)
    (h : f a = .error e) : ∃ e', mapE f l = .error e' := by
  induction l with
  | nil => simp at ha
  | cons b l ih =>
    simp only [mapE]
    cases hb : f b with
    | error e' => exact ⟨e', rfl⟩
    | ok b' =>
      rcases List.mem_cons.1 ha with rfl | ha
      · rw [hb] at h; cases h
      · obtain ⟨e', he⟩ := ih ha
        exact ⟨e', by simp [he]⟩

theorem flatMapE_ok {α β : Type} {f : α → Res (List β)} {l : List α} {r : List β} :
    flatMapE f l = .ok r ↔ ∃ bs, mapE f l = .ok bs ∧ r = bs.flatten := by
  simp only [flatMapE, bind_ok, Except.ok.injEq]
  constructor
  · rintro ⟨a, h, rfl⟩; exact ⟨a, h, rfl⟩
  · rintro ⟨a, h, rfl⟩; exact ⟨a, h, rfl⟩

theorem flatMapE_mem {α β : Type} {f : α → Res (List β)} {l : List α} {r : List β} (h : flatMapE f l = .ok r)
    {b : β} : b ∈ r ↔ ∃ a ∈ l, ∃ bs, f a = .ok bs ∧ b ∈ bs := by
  obtain ⟨bs, hbs, rfl⟩ := flatMapE_ok.1 h
  simp only [List.mem_flatten, mapE_mem hbs]
  constructor
  · rintro ⟨l', ⟨a, ha, hl⟩, hb⟩; exact ⟨a, ha, l', hl, hb⟩
  · rintro ⟨a, ha, l', hl, hb⟩; exact ⟨l', ⟨a, ha, hl⟩, hb⟩

theorem flatMapE_all_ok {α β : Type} {f : α → Res (List β)} {l : List α} {r : List β} (h : flatMapE f l = .ok r)
    {a : α} (ha : a ∈ l) : ∃ bs, f a = .ok bs := by
  obtain ⟨bs, hbs, rfl⟩ := flatMapE_ok.1 h
  obtain ⟨b, _, hb⟩ := mapE_all_ok hbs ha
  exact ⟨b, hb⟩

theorem flatMapE_eq {α β : Type} {f : α → Res (List β)} {g : α → List β} {l : List α}
    (h : ∀ a ∈ l, f a = .ok (g a)) : flatMapE f l = .ok (l.flatMap g) := by
  simp only [flatMapE, mapE_eq_map h, ok_bind, List.flatMap]

theorem flatMapE_error_mem {α β : Type} {f : α → Res (List β)} {l : List α} {e : Err} {a : α} (ha : a ∈ l)
    (h : f a = .error e) : ∃ e', flatMapE f l = .error e' := by
  obtain ⟨e', he⟩ := mapE_error_mem ha h
  exact ⟨e', by simp [flatMapE, he]⟩

@[simp] theorem flatMapE_nil {α β : Type} (f : α → Res (List β)) : flatMapE f [] = .ok [] := rfl

theorem flatMapE_cons {α β : Type} (f : α → Res (List β)) (a : α) (l : List α) :
    flatMapE f (a :: l) = (do let x ← f a; let y ← flatMapE f l; .ok (x ++ y)) := by
  simp only [flatMapE, mapE]
  cases f a with
  | error e => rfl
  | ok b =>
    simp only [ok_bind]
    cases mapE f l <;> rfl

theorem flatMapE_append {α β : Type} (f : α → Res (List β)) (l l' : List α) :
    flatMapE f (l ++ l') = (do let x ← flatMapE f l; let y ← flatMapE f l'; .ok (x ++ y)) := by
  simp only [flatMapE, mapE_append]
  cases mapE f l with
  | error e => rfl
  | ok b =>
    simp only [ok_bind]
    cases mapE f l' with
    | error e => rfl
    | ok b' => simp

/-! ### Indexing -/

theorem pyIndex_nat {α : Type} {l : List α} {i : Nat} {a : α} : pyIndex l (i : Int) = .ok a ↔ l[i]? = some a := by
  unfold pyIndex
  have h : ¬ ((i : Int) < 0) := by omega
  simp only [h, if_false, Int.toNat_natCast]
  cases l[i]? <;> simp

theorem pyIndex_zero {α : Type} {l : List α} {a : α} : pyIndex l 0 = .ok a ↔ l[0]? = some a :=
  pyIndex_nat (i := 0)

theorem pyIndex_nat_eq {α : Type} {l : List α} {i : Nat} {a : α} (h : l[i]? = some a) :
    pyIndex l (i : Int) = .ok a := pyIndex_nat.2 h

theorem pyIndex_neg {α : Type} {l : List α} {k : Nat} (hk : 0 < k) (hl : k ≤ l.length) :
    pyIndex l (-(k : Int)) = .ok (l[l.length - k]'(by omega)) := by
  unfold pyIndex
  have h : (-(k : Int)) < 0 := by omega
  have h2 : ¬ ((-(k : Int)) + (l.length : Int) < 0) := by omega
  simp only [h, if_true, h2, if_false]
  have h3 : ((-(k : Int)) + (l.length : Int)).toNat = l.length - k := by omega
  rw [h3, List.getElem?_eq_getElem (by omega)]

theorem pyIndex_error_iff {α : Type} {l : List α} {i : Nat} : (∃ e, pyIndex l (i : Int) = .error e) ↔ l.length ≤ i := by
  unfold pyIndex
  have h : ¬ ((i : Int) < 0) := by omega
  simp only [h, if_false, Int.toNat_natCast]
  cases hi : l[i]? with
  | none => simpa using hi
  | some a =>
    have := (List.getElem?_eq_some_iff.1 hi).1
    simp; omega

/-! ### Expressions -/

namespace Expr

/-- The variables of an expression. -/
def vars (e : Expr) : List LpVar := e.terms.map Prod.fst

@[simp] theorem eval_num (σ : Assign) (c : ℚ) : (num c).eval σ = c := by simp [eval, num]

@[simp] theorem eval_var (σ : Assign) (v : LpVar) : (var v).eval σ = σ v.id := by simp [eval, var]

@[simp] theorem eval_add (σ : Assign) (a b : Expr) : (a + b).eval σ = a.eval σ + b.eval σ := by
  show (add a b).eval σ = _
  simp [eval, add]; ring

theorem sum_map_mul_left (l : List (LpVar × ℚ)) (σ : Assign) (c : ℚ) :
    (l.map (fun t => c * t.2 * σ t.1.id)).sum = c * (l.map (fun t => t.2 * σ t.1.id)).sum := by
  induction l with
  | nil => simp
  | cons a l ih => simp [ih]; ring

theorem sum_map_neg (l : List (LpVar × ℚ)) (σ : Assign) :
    (l.map (fun t => -(t.2 * σ t.1.id))).sum = -(l.map (fun t => t.2 * σ t.1.id)).sum := by
  induction l with
  | nil => simp
  | cons a l ih => simp [ih]; ring

@[simp] theorem eval_sub (σ : Assign) (a b : Expr) : (a - b).eval σ = a.eval σ - b.eval σ := by
  show (sub a b).eval σ = _
  simp [eval, sub, Function.comp_def, sum_map_neg]; ring

@[simp] theorem eval_neg (σ : Assign) (a : Expr) : (-a).eval σ = -a.eval σ := by
  show (neg a).eval σ = _
  simp [eval, neg, Function.comp_def, sum_map_neg]; ring

@[simp] theorem eval_mul (σ : Assign) (a : Expr) (c : ℚ) : (a * c).eval σ = a.eval σ * c := by
  show (smul c a).eval σ = _
  unfold smul
  split
  · rename_i h; simp [eval, h]
  · simp [eval, Function.comp_def, sum_map_mul_left]; ring

@[simp] theorem eval_sum (σ : Assign) (l : List Expr) : (sum l).eval σ = (l.map (·.eval σ)).sum := by
  induction l with
  | nil => simp [sum, eval]
  | cons a l ih => simp [sum, ih]

@[simp] theorem vars_num (c : ℚ) : (num c).vars = [] := rfl
@[simp] theorem vars_var (v : LpVar) : (var v).vars = [v] := rfl
@[simp] theorem vars_add (a b : Expr) : (a + b).vars = a.vars ++ b.vars := by
  show (add a b).vars = _
  simp [vars, add]
@[simp] theorem vars_sub (a b : Expr) : (a - b).vars = a.vars ++ b.vars := by
  show (sub a b).vars = _
  simp [vars, sub, Function.comp_def]
@[simp] theorem vars_neg (a : Expr) : (-a).vars = a.vars := by
  show (neg a).vars = _
  simp [vars, neg, Function.comp_def]
theorem vars_mul (a : Expr) (c : ℚ) : (a * c).vars = if c = 0 then [] else a.vars := by
  show (smul c a).vars = _
  unfold smul
  split <;> simp [vars, Function.comp_def]
@[simp] theorem vars_sum (l : List Expr) : (sum l).vars = l.flatMap vars := by
  induction l with
  | nil => rfl
  | cons a l ih => simp [sum, ih]
theorem mem_vars_mul {v : LpVar} {a : Expr} {c : ℚ} : v ∈ (a * c).vars ↔ c ≠ 0 ∧ v ∈ a.vars := by
  rw [vars_mul]; split <;> simp_all

theorem eval_congr {σ τ : Assign} {e : Expr} (h : ∀ v ∈ e.vars, σ v.id = τ v.id) : e.eval σ = e.eval τ := by
  unfold eval
  congr 2
  apply List.map_congr_left
  intro t ht
  rw [h t.1 (List.mem_map.2 ⟨t, ht, rfl⟩)]

end Expr

@[simp] theorem leC_holds (σ : Assign) (a b : Expr) : (a.leC b).Holds σ ↔ a.eval σ ≤ b.eval σ := by
  simp [Con.Holds, Expr.leC]

@[simp] theorem eqC_holds (σ : Assign) (a b : Expr) : (a.eqC b).Holds σ ↔ a.eval σ = b.eval σ := by
  simp [Con.Holds, Expr.eqC, sub_eq_zero]

@[simp] theorem geC_holds (σ : Assign) (a b : Expr) : (a.geC b).Holds σ ↔ b.eval σ ≤ a.eval σ := by
  simp [Con.Holds, Expr.geC]

@[simp] theorem leC_vars (a b : Expr) : (a.leC b).e.vars = a.vars ++ b.vars := by simp [Expr.leC]
@[simp] theorem eqC_vars (a b : Expr) : (a.eqC b).e.vars = a.vars ++ b.vars := by simp [Expr.eqC]
@[simp] theorem geC_vars (a b : Expr) : (a.geC b).e.vars = a.vars ++ b.vars := by simp [Expr.geC]

@[simp] theorem constrainMax_holds (σ : Assign) (x b : Expr) (m : ℚ) :
    (constrainMax x b m).Holds σ ↔ x.eval σ ≤ b.eval σ * m := by
  simp [constrainMax]

@[simp] theorem constrainMin_holds (σ : Assign) (x b : Expr) (m : ℚ) :
    (constrainMin x b m).Holds σ ↔ b.eval σ * m ≤ x.eval σ := by
  simp [constrainMin]

@[simp] theorem constrainMax_vars (x b : Expr) (m : ℚ) :
    (constrainMax x b m).e.vars = x.vars ++ (b * m).vars := by simp [constrainMax]
@[simp] theorem constrainMin_vars (x b : Expr) (m : ℚ) :
    (constrainMin x b m).e.vars = x.vars ++ (b * m).vars := by simp [constrainMin]

@[simp] theorem toExpr_eval (σ : Assign) (v : Val) : v.toExpr.eval σ = v.eval σ := by
  cases v <;> simp [Val.toExpr, Val.eval]

theorem mem_prob_vars {p : Prob} {c : Con} {v : LpVar} (hc : c ∈ p.cons) (hv : v ∈ c.e.vars) : v ∈ p.vars := by
  unfold Prob.vars
  rw [List.mem_append, List.mem_flatMap]
  exact .inl ⟨c, hc, hv⟩

theorem prob_vars_iff {p : Prob} {v : LpVar} : v ∈ p.vars ↔ (∃ c ∈ p.cons, v ∈ c.e.vars) ∨ v ∈ p.obj.vars := by
  unfold Prob.vars
  rw [List.mem_append, List.mem_flatMap]
  rfl

theorem Prob.Feasible.bounds {p : Prob} {σ : Assign} (h : p.Feasible σ) {c : Con} {v : LpVar} (hc : c ∈ p.cons)
    (hv : v ∈ c.e.vars) : v.InBounds σ := h.2 v (mem_prob_vars hc hv)

theorem InBounds_continuous {σ : Assign} {id : VarId} {low up : Option ℚ} :
    (continuous id low up).InBounds σ ↔ (∀ l ∈ low, l ≤ σ id) ∧ (∀ u ∈ up, σ id ≤ u) := by
  simp [LpVar.InBounds, continuous]

theorem InBounds_binary {σ : Assign} {id : VarId} :
    (binary id).InBounds σ ↔ σ id = 0 ∨ σ id = 1 := by
  simp only [LpVar.InBounds, binary, Option.mem_def, Option.some.injEq, forall_eq', forall_const]
  constructor
  · exact fun h => h.2.2
  · intro h
    rcases h with h | h <;> simp [h]

end EPL
