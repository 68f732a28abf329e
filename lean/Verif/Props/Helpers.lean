/-
C33-C36: the helpers of `Optimizer` that build semi-continuous variables, minima and maxima.
-/
import Verif.Proofs.Units
import Std.Data.String.ToNat

namespace EPL

/-! ### C33 -/

/-- C33.  With a binary variable `b`, the two constraints hold for an assignment exactly when `x` is switched off (`b = 0`) or
within `[min, max]` (`b = 1`). -/
theorem C33_semicontinuous (σ : Assign) (x b : LpVar) (mn mx : ℚ) (hb : σ b.id = 0 ∨ σ b.id = 1) :
    ((constrainMax (.var x) (.var b) mx).Holds σ ∧ (constrainMin (.var x) (.var b) mn).Holds σ) ↔
      (σ b.id = 0 ∧ σ x.id ≤ 0 ∧ 0 ≤ σ x.id) ∨ (σ b.id = 1 ∧ mn ≤ σ x.id ∧ σ x.id ≤ mx) := by
  simp only [constrainMax_holds, constrainMin_holds, Expr.eval_var]
  rcases hb with h | h <;> simp [h] ; tauto

/-- C33, inside a program: a feasible assignment of any program holding both constraints makes `x` semi-continuous; the binary is a
variable of the program as soon as one of the two bounds is not zero. -/
theorem C33_program {p : Prob} {σ : Assign} {x : LpVar} {id : VarId} {mn mx : ℚ} (hf : p.Feasible σ)
    (h1 : constrainMax (.var x) (.var (binary id)) mx ∈ p.cons) (h2 : constrainMin (.var x) (.var (binary id)) mn ∈ p.cons) :
    σ x.id = 0 ∨ (mn ≤ σ x.id ∧ σ x.id ≤ mx) := by
  have e1 := hf.1 _ h1
  have e2 := hf.1 _ h2
  by_cases hm : mx = 0
  · by_cases hn : mn = 0
    · simp [hm, hn] at e1 e2
      exact .inl (le_antisymm e1 e2)
    · have hb : σ id = 0 ∨ σ id = 1 := bounds_binary (hf.bounds h2 (v := binary id) (by simp [Expr.mem_vars_mul, hn]))
      rcases (C33_semicontinuous σ x (binary id) mn mx hb).1 ⟨e1, e2⟩ with h | h
      · exact .inl (le_antisymm h.2.1 h.2.2)
      · exact .inr h.2
  · have hb : σ id = 0 ∨ σ id = 1 := bounds_binary (hf.bounds h1 (v := binary id) (by simp [Expr.mem_vars_mul, hm]))
    rcases (C33_semicontinuous σ x (binary id) mn mx hb).1 ⟨e1, e2⟩ with h | h
    · exact .inl (le_antisymm h.2.1 h.2.2)
    · exact .inr h.2

/-! ### C34 -/

section two
variable {name : String} {serial : Nat} {a b : Val} {M : ℚ} {v : LpVar} {cons : List Con}

theorem minTwo_eq (h : minTwoVariables name serial a b M = .ok (v, cons)) :
    v = continuous (.aux (name ++ "-continuous") serial) (low := none) (up := none) ∧
    cons = [ a.toExpr.geC (.var v), b.toExpr.geC (.var v),
        (Expr.var v).geC (a.toExpr - (Expr.num 1 - Expr.var (binary (.aux (name ++ "-binary") serial))) * M),
        (Expr.var v).geC (b.toExpr - Expr.var (binary (.aux (name ++ "-binary") serial)) * M) ] := by
  simp only [minTwoVariables, bind_ok, pyAssert_ok] at h
  obtain ⟨_, -, _, -, h⟩ := h
  split at h
  · cases h
  · cases h; exact ⟨rfl, rfl⟩

theorem maxTwo_eq (h : maxTwoVariables name serial a b M = .ok (v, cons)) :
    v = continuous (.aux (name ++ "-continuous") serial) (low := none) (up := none) ∧
    cons = [ (Expr.var v).geC a.toExpr, (Expr.var v).geC b.toExpr,
        (a.toExpr + Expr.var (binary (.aux (name ++ "-binary") serial)) * M).geC (.var v),
        (b.toExpr + (Expr.num 1 - Expr.var (binary (.aux (name ++ "-binary") serial))) * M).geC (.var v) ] := by
  simp only [maxTwoVariables, bind_ok, pyAssert_ok] at h
  obtain ⟨_, -, _, -, h⟩ := h
  split at h
  · cases h
  · cases h; exact ⟨rfl, rfl⟩

/-- C34.  The variable made by `min_two_variables` is the minimum of its operands in every feasible assignment of every program
that holds its constraints. -/
theorem C34_min_exact (h : minTwoVariables name serial a b M = .ok (v, cons)) {p : Prob} {σ : Assign}
    (hp : ∀ c ∈ cons, c ∈ p.cons) (hf : p.Feasible σ) : σ v.id = min (a.eval σ) (b.eval σ) := by
  obtain ⟨hv, rfl⟩ := minTwo_eq h
  clear hv
  have h1 := hf.1 _ (hp _ (.head _))
  have h2 := hf.1 _ (hp _ (.tail _ (.head _)))
  have h3 := hf.1 _ (hp _ (.tail _ (.tail _ (.head _))))
  have h4 := hf.1 _ (hp _ (.tail _ (.tail _ (.tail _ (.head _)))))
  simp only [geC_holds, Expr.eval_var, toExpr_eval, Expr.eval_sub, Expr.eval_mul, Expr.eval_num] at h1 h2 h3 h4
  by_cases hM : M = 0
  · subst hM
    simp only [mul_zero, sub_zero] at h3 h4
    exact le_antisymm (le_min h1 h2) (min_le_of_left_le h3)
  · have hb := bounds_binary (hf.bounds (hp _ (.tail _ (.tail _ (.tail _ (.head _)))))
      (v := binary (.aux (name ++ "-binary") serial)) (by simp [Expr.mem_vars_mul, hM]))
    simp only [binary] at h3 h4
    refine le_antisymm (le_min h1 h2) ?_
    rcases hb with hb | hb <;> rw [hb] at h3 h4
    · exact min_le_of_right_le (by linarith)
    · exact min_le_of_left_le (by linarith)

/-- C34.  The variable made by `max_two_variables` is the maximum of its operands in every feasible assignment of every program
that holds its constraints. -/
theorem C34_max_exact (h : maxTwoVariables name serial a b M = .ok (v, cons)) {p : Prob} {σ : Assign}
    (hp : ∀ c ∈ cons, c ∈ p.cons) (hf : p.Feasible σ) : σ v.id = max (a.eval σ) (b.eval σ) := by
  obtain ⟨hv, rfl⟩ := maxTwo_eq h
  clear hv
  have h1 := hf.1 _ (hp _ (.head _))
  have h2 := hf.1 _ (hp _ (.tail _ (.head _)))
  have h3 := hf.1 _ (hp _ (.tail _ (.tail _ (.head _))))
  have h4 := hf.1 _ (hp _ (.tail _ (.tail _ (.tail _ (.head _)))))
  simp only [geC_holds, Expr.eval_var, toExpr_eval, Expr.eval_sub, Expr.eval_mul, Expr.eval_num, Expr.eval_add] at h1 h2 h3 h4
  by_cases hM : M = 0
  · subst hM
    simp only [mul_zero, add_zero] at h3 h4
    exact le_antisymm (le_max_of_le_left h3) (max_le h1 h2)
  · have hb := bounds_binary (hf.bounds (hp _ (.tail _ (.tail _ (.head _))))
      (v := binary (.aux (name ++ "-binary") serial)) (by simp [Expr.mem_vars_mul, hM]))
    simp only [binary] at h3 h4
    refine le_antisymm ?_ (max_le h1 h2)
    rcases hb with hb | hb <;> rw [hb] at h3 h4
    · exact le_max_of_le_left (by linarith)
    · exact le_max_of_le_right (by linarith)

/-- The two new variables of a two variable helper. -/
def twoIds (name : String) (serial : Nat) : List VarId :=
  [.aux (name ++ "-continuous") serial, .aux (name ++ "-binary") serial]

/-- Give the two new variables their values. -/
def setTwo (σ : Assign) (name : String) (serial : Nat) (c b : ℚ) : Assign := fun id =>
  if id = .aux (name ++ "-continuous") serial then c else if id = .aux (name ++ "-binary") serial then b else σ id

theorem setTwo_other {σ : Assign} {c b : ℚ} {id : VarId} (h : id ∉ twoIds name serial) :
    setTwo σ name serial c b id = σ id := by
  simp only [twoIds, List.mem_cons, List.not_mem_nil, or_false, not_or] at h
  simp [setTwo, h.1, h.2]

theorem setTwo_cont {σ : Assign} {c b : ℚ} : setTwo σ name serial c b (.aux (name ++ "-continuous") serial) = c := by
  simp [setTwo]

theorem append_ne {s t u : String} (h : t ≠ u) : s ++ t ≠ s ++ u := by
  intro e
  apply h
  have := congrArg String.toList e
  simp only [String.toList_append, List.append_cancel_left_eq] at this
  exact String.toList_injective this

theorem setTwo_bin {σ : Assign} {c b : ℚ} : setTwo σ name serial c b (.aux (name ++ "-binary") serial) = b := by
  simp [setTwo]

theorem Val.eval_of_fresh {σ τ : Assign} {ids : List VarId} (hτ : ∀ id, id ∉ ids → τ id = σ id) {x : Val}
    (hx : ∀ id ∈ ids, ¬ x.Is id) : x.eval τ = x.eval σ := by
  cases x with
  | var w => exact hτ _ (fun hw => hx _ hw rfl)
  | _ => rfl

theorem Val.bounds_of_fresh {σ τ : Assign} {ids : List VarId} (hτ : ∀ id, id ∉ ids → τ id = σ id) {x : Val}
    (hx : ∀ id ∈ ids, ¬ x.Is id) (hb : x.InBounds σ) {w : LpVar} (hw : w ∈ x.toExpr.vars) : w.InBounds τ := by
  cases x with
  | var w' =>
    simp [Val.toExpr] at hw
    subst hw
    simp only [Val.InBounds, LpVar.InBounds] at hb ⊢
    rwa [hτ _ (fun hw => hx _ hw rfl)]
  | _ => simp [Val.toExpr] at hw

/-- C34.  An assignment of the operands extends to the new variables exactly when the operands differ by at most `M`. -/
theorem C34_min_extends (h : minTwoVariables name serial a b M = .ok (v, cons)) {σ : Assign}
    (ha : a.InBounds σ) (hb : b.InBounds σ) (fa : ∀ id ∈ twoIds name serial, ¬ a.Is id)
    (fb : ∀ id ∈ twoIds name serial, ¬ b.Is id) :
    (∃ τ, (∀ id, id ∉ twoIds name serial → τ id = σ id) ∧ (⟨cons, .num 0⟩ : Prob).Feasible τ) ↔
      |a.eval σ - b.eval σ| ≤ M := by
  constructor
  · rintro ⟨τ, hτ, hf⟩
    have hmin := C34_min_exact h (fun c hc => hc) hf
    obtain ⟨hv, rfl⟩ := minTwo_eq h
    rw [Val.eval_of_fresh hτ fa, Val.eval_of_fresh hτ fb] at hmin
    have h3 := hf.1 _ (.tail _ (.tail _ (.head _)))
    have h4 := hf.1 _ (.tail _ (.tail _ (.tail _ (.head _))))
    simp only [geC_holds, Expr.eval_var, toExpr_eval, Expr.eval_sub, Expr.eval_mul, Expr.eval_num,
      Val.eval_of_fresh hτ fa, Val.eval_of_fresh hτ fb, hmin] at h3 h4
    have hb' : M = 0 ∨ (τ (.aux (name ++ "-binary") serial) = 0 ∨ τ (.aux (name ++ "-binary") serial) = 1) := by
      by_cases hM : M = 0
      · exact .inl hM
      · exact .inr (bounds_binary (hf.bounds (.tail _ (.tail _ (.tail _ (.head _))))
          (v := binary (.aux (name ++ "-binary") serial)) (by simp [Expr.mem_vars_mul, hM])))
    simp only [binary] at h3 h4
    rcases hb' with rfl | hb' | hb'
    · simp only [mul_zero, sub_zero, le_min_iff] at h3 h4
      rw [abs_le]; constructor <;> linarith [h3.2, h4.1]
    · rw [hb'] at h3 h4
      have := min_le_left (a.eval σ) (b.eval σ); have := min_le_right (a.eval σ) (b.eval σ)
      rw [abs_le]; constructor <;> linarith
    · rw [hb'] at h3 h4
      have := min_le_left (a.eval σ) (b.eval σ); have := min_le_right (a.eval σ) (b.eval σ)
      rw [abs_le]; constructor <;> linarith
  · intro hab
    obtain ⟨hv, rfl⟩ := minTwo_eq h
    refine ⟨setTwo σ name serial (min (a.eval σ) (b.eval σ)) (if a.eval σ ≤ b.eval σ then 1 else 0),
      fun id hid => setTwo_other hid, ?_⟩
    have hτ := fun id (hid : id ∉ twoIds name serial) => setTwo_other (σ := σ) (c := min (a.eval σ) (b.eval σ))
      (b := if a.eval σ ≤ b.eval σ then 1 else 0) hid
    have ea := Val.eval_of_fresh hτ fa
    have eb := Val.eval_of_fresh hτ fb
    have ec : setTwo σ name serial (min (a.eval σ) (b.eval σ)) (if a.eval σ ≤ b.eval σ then 1 else 0) v.id
        = min (a.eval σ) (b.eval σ) := by rw [hv]; exact setTwo_cont
    have eb2 : setTwo σ name serial (min (a.eval σ) (b.eval σ)) (if a.eval σ ≤ b.eval σ then 1 else 0)
        (binary (.aux (name ++ "-binary") serial)).id = if a.eval σ ≤ b.eval σ then 1 else 0 := setTwo_bin
    rw [abs_le] at hab
    constructor
    · intro c hc
      simp only [List.mem_cons, List.not_mem_nil, or_false] at hc
      rcases hc with rfl | rfl | rfl | rfl <;>
        simp only [geC_holds, Expr.eval_var, toExpr_eval, Expr.eval_sub, Expr.eval_mul, Expr.eval_num, ea, eb, ec, eb2]
      · exact min_le_left _ _
      · exact min_le_right _ _
      · split_ifs with hle
        · rw [min_eq_left hle]; linarith
        · rw [min_eq_right (le_of_not_ge hle)]; linarith
      · split_ifs with hle
        · rw [min_eq_left hle]; linarith
        · rw [min_eq_right (le_of_not_ge hle)]; linarith
    · intro w hw
      have hcase : w ∈ a.toExpr.vars ∨ w ∈ b.toExpr.vars ∨ w = v ∨ w = binary (.aux (name ++ "-binary") serial) := by
        rw [prob_vars_iff] at hw
        simp only [List.mem_cons, List.not_mem_nil, or_false, exists_eq_or_imp, exists_eq_left, geC_vars,
          List.mem_append, Expr.vars_sub, Expr.vars_num, Expr.vars_var, Expr.mem_vars_mul, List.nil_append] at hw
        tauto
      rcases hcase with hw | hw | rfl | rfl
      · exact Val.bounds_of_fresh hτ fa ha hw
      · exact Val.bounds_of_fresh hτ fb hb hw
      · rw [hv, InBounds_continuous]; simp
      · rw [InBounds_binary]
        have := eb2
        simp only [binary] at this
        rw [this]; split_ifs <;> simp

/-- C34.  An assignment of the operands extends to the new variables exactly when the operands differ by at most `M`. -/
theorem C34_max_extends (h : maxTwoVariables name serial a b M = .ok (v, cons)) {σ : Assign}
    (ha : a.InBounds σ) (hb : b.InBounds σ) (fa : ∀ id ∈ twoIds name serial, ¬ a.Is id)
    (fb : ∀ id ∈ twoIds name serial, ¬ b.Is id) :
    (∃ τ, (∀ id, id ∉ twoIds name serial → τ id = σ id) ∧ (⟨cons, .num 0⟩ : Prob).Feasible τ) ↔
      |a.eval σ - b.eval σ| ≤ M := by
  constructor
  · rintro ⟨τ, hτ, hf⟩
    have hmax := C34_max_exact h (fun c hc => hc) hf
    obtain ⟨hv, rfl⟩ := maxTwo_eq h
    rw [Val.eval_of_fresh hτ fa, Val.eval_of_fresh hτ fb] at hmax
    have h3 := hf.1 _ (.tail _ (.tail _ (.head _)))
    have h4 := hf.1 _ (.tail _ (.tail _ (.tail _ (.head _))))
    simp only [geC_holds, Expr.eval_var, toExpr_eval, Expr.eval_sub, Expr.eval_mul, Expr.eval_num, Expr.eval_add,
      Val.eval_of_fresh hτ fa, Val.eval_of_fresh hτ fb, hmax] at h3 h4
    have hb' : M = 0 ∨ (τ (.aux (name ++ "-binary") serial) = 0 ∨ τ (.aux (name ++ "-binary") serial) = 1) := by
      by_cases hM : M = 0
      · exact .inl hM
      · exact .inr (bounds_binary (hf.bounds (.tail _ (.tail _ (.tail _ (.head _))))
          (v := binary (.aux (name ++ "-binary") serial)) (by simp [Expr.mem_vars_mul, hM])))
    simp only [binary] at h3 h4
    rcases hb' with rfl | hb' | hb'
    · simp only [mul_zero, add_zero, max_le_iff] at h3 h4
      rw [abs_le]; constructor <;> linarith [h3.2, h4.1]
    · rw [hb'] at h3 h4
      have := le_max_left (a.eval σ) (b.eval σ); have := le_max_right (a.eval σ) (b.eval σ)
      rw [abs_le]; constructor <;> linarith
    · rw [hb'] at h3 h4
      have := le_max_left (a.eval σ) (b.eval σ); have := le_max_right (a.eval σ) (b.eval σ)
      rw [abs_le]; constructor <;> linarith
  · intro hab
    obtain ⟨hv, rfl⟩ := maxTwo_eq h
    refine ⟨setTwo σ name serial (max (a.eval σ) (b.eval σ)) (if a.eval σ ≤ b.eval σ then 1 else 0),
      fun id hid => setTwo_other hid, ?_⟩
    have hτ := fun id (hid : id ∉ twoIds name serial) => setTwo_other (σ := σ) (c := max (a.eval σ) (b.eval σ))
      (b := if a.eval σ ≤ b.eval σ then 1 else 0) hid
    have ea := Val.eval_of_fresh hτ fa
    have eb := Val.eval_of_fresh hτ fb
    have ec : setTwo σ name serial (max (a.eval σ) (b.eval σ)) (if a.eval σ ≤ b.eval σ then 1 else 0) v.id
        = max (a.eval σ) (b.eval σ) := by rw [hv]; exact setTwo_cont
    have eb2 : setTwo σ name serial (max (a.eval σ) (b.eval σ)) (if a.eval σ ≤ b.eval σ then 1 else 0)
        (binary (.aux (name ++ "-binary") serial)).id = if a.eval σ ≤ b.eval σ then 1 else 0 := setTwo_bin
    rw [abs_le] at hab
    constructor
    · intro c hc
      simp only [List.mem_cons, List.not_mem_nil, or_false] at hc
      rcases hc with rfl | rfl | rfl | rfl <;>
        simp only [geC_holds, Expr.eval_var, toExpr_eval, Expr.eval_sub, Expr.eval_mul, Expr.eval_num, Expr.eval_add, ea, eb, ec, eb2]
      · exact le_max_left _ _
      · exact le_max_right _ _
      · split_ifs with hle
        · rw [max_eq_right hle]; linarith
        · rw [max_eq_left (le_of_not_ge hle)]; linarith
      · split_ifs with hle
        · rw [max_eq_right hle]; linarith
        · rw [max_eq_left (le_of_not_ge hle)]; linarith
    · intro w hw
      have hcase : w ∈ a.toExpr.vars ∨ w ∈ b.toExpr.vars ∨ w = v ∨ w = binary (.aux (name ++ "-binary") serial) := by
        rw [prob_vars_iff] at hw
        simp only [List.mem_cons, List.not_mem_nil, or_false, exists_eq_or_imp, exists_eq_left, geC_vars,
          List.mem_append, Expr.vars_sub, Expr.vars_add, Expr.vars_num, Expr.vars_var, Expr.mem_vars_mul, List.nil_append] at hw
        tauto
      rcases hcase with hw | hw | rfl | rfl
      · exact Val.bounds_of_fresh hτ fa ha hw
      · exact Val.bounds_of_fresh hτ fb hb hw
      · rw [hv, InBounds_continuous]; simp
      · rw [InBounds_binary]
        have := eb2
        simp only [binary] at this
        rw [this]; split_ifs <;> simp

end two

/-! ### C35 and C36 -/

section many
variable {name : String} {serial : Nat} {xs : List Val} {M : ℚ} {v : LpVar} {cons : List Con}

/-- The new variables of a many variable helper. -/
def manyIds (name : String) (serial : Nat) (n : Nat) : List VarId :=
  .aux (name ++ "-continuous") serial :: (List.range n).map (fun i => .aux (name ++ "-binary-" ++ toString i) serial)

/-- Give the new variables their values. -/
def setMany (σ : Assign) (name : String) (serial : Nat) (n : Nat) (c : ℚ) (b : Nat → ℚ) : Assign := fun id =>
  if id = .aux (name ++ "-continuous") serial then c
  else match (List.range n).find? (fun i => id = .aux (name ++ "-binary-" ++ toString i) serial) with
    | some i => b i
    | none => σ id

theorem manyName_inj {i j : Nat} (h : name ++ "-binary-" ++ toString i = name ++ "-binary-" ++ toString j) : i = j := by
  have := congrArg String.toList h
  simp only [String.toList_append, List.append_cancel_left_eq] at this
  exact Nat.repr_inj.1 (String.toList_injective this)

theorem setMany_other {σ : Assign} {n : Nat} {c : ℚ} {b : Nat → ℚ} {id : VarId} (h : id ∉ manyIds name serial n) :
    setMany σ name serial n c b id = σ id := by
  simp only [manyIds, List.mem_cons, not_or, List.mem_map, not_exists] at h
  have : (List.range n).find? (fun i => decide (id = .aux (name ++ "-binary-" ++ toString i) serial)) = none := by
    rw [List.find?_eq_none]
    intro i hi
    simp only [decide_eq_true_eq]
    exact fun e => h.2 i ⟨hi, e.symm⟩
  simp only [setMany, if_neg h.1]
  rw [this]

theorem setMany_cont {σ : Assign} {n : Nat} {c : ℚ} {b : Nat → ℚ} :
    setMany σ name serial n c b (.aux (name ++ "-continuous") serial) = c := by
  simp [setMany]

theorem setMany_bin {σ : Assign} {n : Nat} {c : ℚ} {b : Nat → ℚ} {i : Nat} (hi : i < n) :
    setMany σ name serial n c b (.aux (name ++ "-binary-" ++ toString i) serial) = b i := by
  have hne : (VarId.aux (name ++ "-binary-" ++ toString i) serial) ≠ .aux (name ++ "-continuous") serial := by
    intro e
    have := congrArg VarId.pyName e
    simp only [VarId.pyName] at this
    have := congrArg String.toList this
    simp only [String.toList_append, List.append_assoc, List.append_cancel_left_eq] at this
    have h2 := congrArg (fun l => l[1]?) this
    simp at h2
  have : (List.range n).find? (fun j => decide ((VarId.aux (name ++ "-binary-" ++ toString i) serial) =
      .aux (name ++ "-binary-" ++ toString j) serial)) = some i := by
    rw [List.find?_eq_some_iff_append]
    refine ⟨by simp, List.range i, (List.range' (i + 1) (n - i - 1)), ?_, ?_⟩
    · rw [List.range_eq_range', List.range_eq_range']
      have : n = i + (1 + (n - i - 1)) := by omega
      conv_lhs => rw [this]
      rw [← List.range'_append_1, ← List.range'_append_1]
      simp
    · intro j hj
      simp only [Bool.not_eq_true', decide_eq_false_iff_not, VarId.aux.injEq, and_true]
      intro e
      rw [manyName_inj e] at hj
      simp at hj
  simp only [setMany, if_neg hne]
  rw [this]

theorem minMany_eq (h : minManyVariables name serial xs M = .ok (v, cons)) :
    v = continuous (.aux (name ++ "-continuous") serial) (low := none) (up := none) ∧
    cons = xs.zipIdx.flatMap (fun p =>
      [ (Expr.var v).leC p.1.toExpr,
        (p.1.toExpr - Expr.var (manyBinary name serial p.2) * M).leC (.var v) ]) ++
    [ (Expr.sum ((List.range xs.length).map (fun i => Expr.var (manyBinary name serial i)))).leC
        (.num ((xs.length : ℚ) - 1)) ] := by
  simp only [minManyVariables, bind_ok, pyAssert_ok] at h
  obtain ⟨_, -, _, -, h⟩ := h
  cases h; exact ⟨rfl, rfl⟩

theorem maxMany_eq (h : maxManyVariables name serial xs M = .ok (v, cons)) :
    v = continuous (.aux (name ++ "-continuous") serial) (low := none) (up := none) ∧
    cons = xs.zipIdx.flatMap (fun p => (Expr.var v).geC p.1.toExpr ::
      (if p.1.isVar then
        [ (p.1.toExpr + (Expr.num 1 - Expr.var (manyBinary name serial p.2)) * M).geC (.var v) ]
       else [])) := by
  simp only [maxManyVariables, bind_ok, pyAssert_ok] at h
  obtain ⟨_, -, _, -, h⟩ := h
  cases h; exact ⟨rfl, rfl⟩

theorem zipIdx_mem_get {α : Type} {l : List α} {i : Nat} (hi : i < l.length) : (l[i], i) ∈ l.zipIdx := by
  rw [List.mem_zipIdx_iff_getElem?]; simp [hi]

theorem ones_sum {l : List ℚ} (h : ∀ x ∈ l, x = 0 ∨ x = 1) (hs : l.sum ≤ (l.length : ℚ) - 1) : ∃ x ∈ l, x = 0 := by
  by_contra hn
  have hall : ∀ x ∈ l, x = 1 := fun x hx => (h x hx).resolve_left (fun h0 => hn ⟨x, hx, h0⟩)
  have : l.sum = l.length := by
    clear hs hn h
    induction l with
    | nil => simp
    | cons a l ih =>
      rw [List.sum_cons, ih (fun x hx => hall x (by simp [hx])), hall a (by simp)]
      push_cast [List.length_cons]; ring
  linarith

/-- C35.  The variable made by `min_many_variables` is the smallest of its operands in every feasible assignment of every program
that holds its constraints. -/
theorem C35_min_exact (h : minManyVariables name serial xs M = .ok (v, cons)) {p : Prob} {σ : Assign}
    (hp : ∀ c ∈ cons, c ∈ p.cons) (hf : p.Feasible σ) : Least (values σ xs) (σ v.id) := by
  obtain ⟨-, rfl⟩ := minMany_eq h
  have hlast := hp _ (List.mem_append.2 (.inr (.head _)))
  have hs := hf.1 _ hlast
  have hle : ∀ i (hi : i < xs.length), σ v.id ≤ (xs[i]).eval σ := by
    intro i hi
    have := hf.1 _ (hp _ (List.mem_append.2 (.inl (List.mem_flatMap.2 ⟨_, zipIdx_mem_get hi, .head _⟩))))
    simpa using this
  have hge : ∀ i (hi : i < xs.length), (xs[i]).eval σ - σ (manyBinary name serial i).id * M ≤ σ v.id := by
    intro i hi
    have := hf.1 _ (hp _ (List.mem_append.2 (.inl (List.mem_flatMap.2 ⟨_, zipIdx_mem_get hi, .tail _ (.head _)⟩))))
    simpa using this
  simp only [leC_holds, Expr.eval_sum, List.map_map, Expr.eval_num] at hs
  obtain ⟨x, hx, h0⟩ := ones_sum (l := (List.range xs.length).map ((fun e => Expr.eval σ e) ∘
      fun i => Expr.var (manyBinary name serial i)))
    (by
      intro x hx
      obtain ⟨i, hi, rfl⟩ := List.mem_map.1 hx
      simp only [Function.comp_apply, Expr.eval_var]
      exact bounds_binary (hf.bounds hlast (v := manyBinary name serial i) (by
        simp only [leC_vars, Expr.vars_sum, List.mem_append, List.mem_flatMap, List.mem_map]
        exact .inl ⟨_, ⟨i, hi, rfl⟩, by simp⟩)))
    (by simpa using hs)
  obtain ⟨i, hi, rfl⟩ := List.mem_map.1 hx
  simp only [Function.comp_apply, Expr.eval_var] at h0
  have hi' : i < xs.length := List.mem_range.1 hi
  have e := hge i hi'
  rw [h0] at e
  constructor
  · rw [values, List.mem_map]
    exact ⟨xs[i], List.getElem_mem hi', le_antisymm (by linarith) (hle i hi')⟩
  · intro y hy
    obtain ⟨x, hx, rfl⟩ := List.mem_map.1 hy
    obtain ⟨j, hj, rfl⟩ := List.mem_iff_getElem.1 hx
    exact hle j hj

/-- C35.  An assignment of the operands extends to the new variables exactly when no operand is more than `M` above the smallest. -/
theorem C35_min_extends (h : minManyVariables name serial xs M = .ok (v, cons)) (hM : 0 ≤ M) {σ : Assign}
    (hb : ∀ x ∈ xs, x.InBounds σ) (hfr : ∀ x ∈ xs, ∀ id ∈ manyIds name serial xs.length, ¬ x.Is id) :
    (∃ τ, (∀ id, id ∉ manyIds name serial xs.length → τ id = σ id) ∧ (⟨cons, .num 0⟩ : Prob).Feasible τ) ↔
      ∃ m, Least (values σ xs) m ∧ ∀ x ∈ values σ xs, x ≤ m + M := by
  constructor
  · rintro ⟨τ, hτ, hf⟩
    have hl := C35_min_exact h (fun c hc => hc) hf
    have ev : values τ xs = values σ xs := List.map_congr_left (fun x hx => Val.eval_of_fresh hτ (hfr x hx))
    rw [ev] at hl
    refine ⟨_, hl, ?_⟩
    obtain ⟨-, rfl⟩ := minMany_eq h
    intro y hy
    obtain ⟨x, hx, rfl⟩ := List.mem_map.1 hy
    obtain ⟨j, hj, rfl⟩ := List.mem_iff_getElem.1 hx
    have := hf.1 _ (List.mem_append.2 (.inl (List.mem_flatMap.2 ⟨_, zipIdx_mem_get hj, .tail _ (.head _)⟩)))
    simp only [leC_holds, Expr.eval_sub, toExpr_eval, Expr.eval_mul, Expr.eval_var,
      Val.eval_of_fresh hτ (hfr _ hx)] at this
    have hbin := bounds_binary (hf.bounds (List.mem_append.2 (.inr (.head _))) (v := manyBinary name serial j) (by
        simp only [leC_vars, Expr.vars_sum, List.mem_append, List.mem_flatMap, List.mem_map]
        exact .inl ⟨_, ⟨j, List.mem_range.2 hj, rfl⟩, by simp⟩))
    simp only [manyBinary, binary] at this
    rcases hbin with hbin | hbin <;> rw [hbin] at this <;> linarith
  · rintro ⟨m, hm, hmM⟩
    obtain ⟨hv, rfl⟩ := minMany_eq h
    let bin : Nat → ℚ := fun i => if ((xs[i]?).map (Val.eval σ)) = some m then 0 else 1
    refine ⟨setMany σ name serial xs.length m bin, fun id hid => setMany_other hid, ?_⟩
    have hτ := fun id (hid : id ∉ manyIds name serial xs.length) =>
      setMany_other (σ := σ) (c := m) (b := bin) hid
    have ec : setMany σ name serial xs.length m bin v.id = m := by rw [hv]; exact setMany_cont
    have eb : ∀ i < xs.length, setMany σ name serial xs.length m bin (manyBinary name serial i).id = bin i :=
      fun i hi => setMany_bin hi
    have hget : ∀ (q : Val × Nat), q ∈ xs.zipIdx → q.2 < xs.length ∧ q.1 ∈ xs ∧ xs[q.2]? = some q.1 := by
      intro q hq
      rw [List.mem_zipIdx_iff_getElem?] at hq
      exact ⟨(List.getElem?_eq_some_iff.1 hq).1, List.mem_of_getElem? hq, hq⟩
    constructor
    · intro c hc
      rcases List.mem_append.1 hc with hc | hc
      · obtain ⟨q, hq, hc⟩ := List.mem_flatMap.1 hc
        obtain ⟨hi, hx, hg⟩ := hget q hq
        have e := Val.eval_of_fresh hτ (hfr _ hx)
        have hmem : q.1.eval σ ∈ values σ xs := List.mem_map.2 ⟨_, hx, rfl⟩
        simp only [List.mem_cons, List.not_mem_nil, or_false] at hc
        rcases hc with rfl | rfl
        · simp only [leC_holds, Expr.eval_var, toExpr_eval, e, ec]
          exact hm.2 _ hmem
        · simp only [leC_holds, Expr.eval_var, toExpr_eval, Expr.eval_sub, Expr.eval_mul, e, ec, eb _ hi, bin, hg,
            Option.map_some, Option.some.injEq]
          have := hmM _ hmem
          split_ifs with h0 <;> linarith
      · simp only [List.mem_cons, List.not_mem_nil, or_false] at hc
        subst hc
        simp only [leC_holds, Expr.eval_sum, List.map_map, Expr.eval_num]
        obtain ⟨x, hx, hxm⟩ := List.mem_map.1 hm.1
        obtain ⟨j, hj, rfl⟩ := List.mem_iff_getElem.1 hx
        have hle : ∀ i ∈ List.range xs.length, ((fun e => Expr.eval (setMany σ name serial xs.length m bin) e) ∘
            fun i => Expr.var (manyBinary name serial i)) i ≤ if i = j then 0 else 1 := by
          intro i hi
          simp only [Function.comp_apply, Expr.eval_var, eb i (List.mem_range.1 hi), bin]
          by_cases hij : i = j
          · subst hij
            simp [hj, hxm]
          · simp only [if_neg hij]
            split_ifs <;> simp
        refine le_trans (List.sum_le_sum hle) ?_
        have hsum : ∀ n, j < n → ((List.range n).map (fun i => if i = j then (0 : ℚ) else 1)).sum = n - 1 := by
          intro n
          induction n with
          | zero => intro h; omega
          | succ n ih =>
            intro hjn
            rw [List.range_succ, List.map_append, List.sum_append]
            by_cases hjn' : j = n
            · subst hjn'
              have : (List.range j).map (fun i => if i = j then (0 : ℚ) else 1) = (List.range j).map (fun _ => 1) := by
                apply List.map_congr_left
                intro i hi
                have := List.mem_range.1 hi
                rw [if_neg (by omega)]
              rw [this]; simp
            · rw [ih (by omega)]
              simp [Ne.symm hjn']
        exact (hsum _ hj).le
    · intro w hw
      have hcase : (∃ x ∈ xs, w ∈ x.toExpr.vars) ∨ w = v ∨ ∃ i < xs.length, w = manyBinary name serial i := by
        rw [prob_vars_iff] at hw
        rcases hw with ⟨c, hc, hw⟩ | hw
        · rcases List.mem_append.1 hc with hc | hc
          · obtain ⟨q, hq, hc⟩ := List.mem_flatMap.1 hc
            obtain ⟨hi, hx, hg⟩ := hget q hq
            simp only [List.mem_cons, List.not_mem_nil, or_false] at hc
            rcases hc with rfl | rfl
            · simp only [leC_vars, Expr.vars_var, List.mem_append, List.mem_cons, List.not_mem_nil, or_false] at hw
              rcases hw with rfl | hw
              · exact .inr (.inl rfl)
              · exact .inl ⟨_, hx, hw⟩
            · simp only [leC_vars, Expr.vars_var, Expr.vars_sub, Expr.mem_vars_mul, List.mem_append, List.mem_cons,
                List.not_mem_nil, or_false] at hw
              rcases hw with (hw | ⟨-, rfl⟩) | rfl
              · exact .inl ⟨_, hx, hw⟩
              · exact .inr (.inr ⟨_, hi, rfl⟩)
              · exact .inr (.inl rfl)
          · simp only [List.mem_cons, List.not_mem_nil, or_false] at hc
            subst hc
            simp only [leC_vars, Expr.vars_sum, Expr.vars_num, List.append_nil, List.mem_flatMap, List.mem_map] at hw
            obtain ⟨_, ⟨i, hi, rfl⟩, hw⟩ := hw
            simp only [Expr.vars_var, List.mem_cons, List.not_mem_nil, or_false] at hw
            exact .inr (.inr ⟨i, List.mem_range.1 hi, hw⟩)
        · simp at hw
      rcases hcase with ⟨x, hx, hw⟩ | rfl | ⟨i, hi, rfl⟩
      · exact Val.bounds_of_fresh hτ (hfr x hx) (hb x hx) hw
      · rw [hv, InBounds_continuous]; simp
      · simp only [manyBinary, InBounds_binary]
        have := eb i hi
        simp only [manyBinary, binary] at this
        rw [this]
        simp only [bin]
        split_ifs <;> simp

/-- C36.  The variable made by `max_many_variables` is at least every operand in every feasible assignment of every program that
holds its constraints. -/
theorem C36_max_bound (h : maxManyVariables name serial xs M = .ok (v, cons)) {p : Prob} {σ : Assign}
    (hp : ∀ c ∈ cons, c ∈ p.cons) (hf : p.Feasible σ) : ∀ x ∈ values σ xs, x ≤ σ v.id := by
  obtain ⟨-, rfl⟩ := maxMany_eq h
  intro y hy
  obtain ⟨x, hx, rfl⟩ := List.mem_map.1 hy
  obtain ⟨i, hi, rfl⟩ := List.mem_iff_getElem.1 hx
  have := hf.1 _ (hp _ (List.mem_flatMap.2 ⟨_, zipIdx_mem_get hi, .head _⟩))
  simpa using this

/-- C36.  Which values the new variable can take for given operands: everything from the maximum up to `M` above the smallest
operand that is a variable; the constraints alone do not force the maximum. -/
theorem C36_max_values (h : maxManyVariables name serial xs M = .ok (v, cons)) (hM : 0 ≤ M) {σ : Assign} (q : ℚ)
    (hb : ∀ x ∈ xs, x.InBounds σ) (hfr : ∀ x ∈ xs, ∀ id ∈ manyIds name serial xs.length, ¬ x.Is id) :
    (∃ τ, (∀ id, id ∉ manyIds name serial xs.length → τ id = σ id) ∧ τ v.id = q ∧ (⟨cons, .num 0⟩ : Prob).Feasible τ) ↔
      (∀ x ∈ values σ xs, x ≤ q) ∧ ∀ w, .var w ∈ xs → q ≤ σ w.id + M := by
  constructor
  · rintro ⟨τ, hτ, hq, hf⟩
    have hl := C36_max_bound h (fun c hc => hc) hf
    have ev : values τ xs = values σ xs := List.map_congr_left (fun x hx => Val.eval_of_fresh hτ (hfr x hx))
    rw [ev, hq] at hl
    refine ⟨hl, ?_⟩
    obtain ⟨-, rfl⟩ := maxMany_eq h
    intro w hw
    have hw' := hw
    obtain ⟨j, hj, hjw⟩ := List.mem_iff_getElem.1 hw
    have hm : (Val.var w, j) ∈ xs.zipIdx := by
      have := zipIdx_mem_get hj; rwa [hjw] at this
    have hmem : ((Val.var w).toExpr + (Expr.num 1 - Expr.var (manyBinary name serial j)) * M).geC (.var v) ∈
        xs.zipIdx.flatMap (fun p => (Expr.var v).geC p.1.toExpr :: (if p.1.isVar then
        [ (p.1.toExpr + (Expr.num 1 - Expr.var (manyBinary name serial p.2)) * M).geC (.var v) ] else [])) :=
      List.mem_flatMap.2 ⟨_, hm, .tail _ (.head _)⟩
    have := hf.1 _ hmem
    have e : (Val.var w).eval τ = σ w.id := Val.eval_of_fresh hτ (hfr _ hw')
    simp only [geC_holds, Expr.eval_add, Expr.eval_sub, toExpr_eval, Expr.eval_mul, Expr.eval_var, Expr.eval_num, e, hq] at this
    by_cases hM0 : M = 0
    · subst hM0; linarith
    · have hbin := bounds_binary (hf.bounds hmem (v := manyBinary name serial j) (by simp [Expr.mem_vars_mul, hM0]))
      simp only [manyBinary, binary] at this
      rcases hbin with hbin | hbin <;> rw [hbin] at this <;> linarith
  · rintro ⟨hq, hqM⟩
    obtain ⟨hv, rfl⟩ := maxMany_eq h
    refine ⟨setMany σ name serial xs.length q (fun _ => 0), fun id hid => setMany_other hid, by rw [hv]; exact setMany_cont, ?_⟩
    have hτ := fun id (hid : id ∉ manyIds name serial xs.length) =>
      setMany_other (σ := σ) (c := q) (b := fun _ => (0 : ℚ)) hid
    have ec : setMany σ name serial xs.length q (fun _ => 0) v.id = q := by rw [hv]; exact setMany_cont
    have eb : ∀ i < xs.length, setMany σ name serial xs.length q (fun _ => 0) (manyBinary name serial i).id = 0 :=
      fun i hi => setMany_bin hi
    have hget : ∀ (q : Val × Nat), q ∈ xs.zipIdx → q.2 < xs.length ∧ q.1 ∈ xs ∧ xs[q.2]? = some q.1 := by
      intro q hq
      rw [List.mem_zipIdx_iff_getElem?] at hq
      exact ⟨(List.getElem?_eq_some_iff.1 hq).1, List.mem_of_getElem? hq, hq⟩
    constructor
    · intro c hc
      obtain ⟨r, hr, hc⟩ := List.mem_flatMap.1 hc
      obtain ⟨hi, hx, hg⟩ := hget r hr
      have e := Val.eval_of_fresh hτ (hfr _ hx)
      rcases List.mem_cons.1 hc with rfl | hc
      · simp only [geC_holds, Expr.eval_var, toExpr_eval, e, ec]
        exact hq _ (List.mem_map.2 ⟨_, hx, rfl⟩)
      · obtain ⟨x, i⟩ := r
        cases x with
        | var w =>
          simp only [Val.isVar, if_true, List.mem_cons, List.not_mem_nil, or_false] at hc
          subst hc
          simp only at e hi hx
          simp only [geC_holds, Expr.eval_var, toExpr_eval, Expr.eval_sub, Expr.eval_mul, Expr.eval_add, Expr.eval_num, e, ec,
            eb _ hi]
          have := hqM w hx
          simp only [Val.eval]
          linarith
        | _ => simp [Val.isVar] at hc
    · intro w hw
      have hcase : (∃ x ∈ xs, w ∈ x.toExpr.vars) ∨ w = v ∨ ∃ i < xs.length, w = manyBinary name serial i := by
        rw [prob_vars_iff] at hw
        rcases hw with ⟨c, hc, hw⟩ | hw
        · obtain ⟨r, hr, hc⟩ := List.mem_flatMap.1 hc
          obtain ⟨hi, hx, hg⟩ := hget r hr
          rcases List.mem_cons.1 hc with rfl | hc
          · simp only [geC_vars, Expr.vars_var, List.mem_append, List.mem_cons, List.not_mem_nil, or_false] at hw
            rcases hw with rfl | hw
            · exact .inr (.inl rfl)
            · exact .inl ⟨_, hx, hw⟩
          · split at hc
            · simp only [List.mem_cons, List.not_mem_nil, or_false] at hc
              subst hc
              simp only [geC_vars, Expr.vars_var, Expr.vars_add, Expr.vars_sub, Expr.vars_num, Expr.mem_vars_mul, List.mem_append,
                List.nil_append, List.mem_cons, List.not_mem_nil, or_false] at hw
              rcases hw with (hw | ⟨-, rfl⟩) | rfl
              · exact .inl ⟨_, hx, hw⟩
              · exact .inr (.inr ⟨_, hi, rfl⟩)
              · exact .inr (.inl rfl)
            · simp at hc
        · simp at hw
      rcases hcase with ⟨x, hx, hw⟩ | rfl | ⟨i, hi, rfl⟩
      · exact Val.bounds_of_fresh hτ (hfr x hx) (hb x hx) hw
      · rw [hv, InBounds_continuous]; simp
      · simp only [manyBinary, InBounds_binary]
        have := eb i hi
        simp only [manyBinary, binary] at this
        exact .inl this

/-- The variable is the maximum at an optimum, with the objective given by its value: `hobj` says that the objective is `k` times the
variable plus something that does not depend on it. -/
theorem max_optimum (h : maxManyVariables name serial xs M = .ok (v, cons)) {p : Prob} {σ : Assign}
    {others : List Con} (hp : ∀ c, c ∈ p.cons ↔ c ∈ cons ∨ c ∈ others)
    (hother : ∀ c ∈ others, ∀ w ∈ c.e.vars, w.id ≠ v.id) (hfr : ∀ x ∈ xs, ¬ x.Is v.id)
    {k : ℚ} (hk : 0 < k) (hvar : ∀ w ∈ p.obj.vars, w.id = v.id → w = v)
    (hobj : ∀ τ : Assign, (∀ id, id ≠ v.id → τ id = σ id) → p.obj.eval τ - p.obj.eval σ = (τ v.id - σ v.id) * k)
    (hopt : p.Optimal σ) : Greatest (values σ xs) (σ v.id) := by
  have hf := hopt.1
  have hbound := C36_max_bound h (fun c hc => (hp c).2 (.inl hc)) hf
  obtain ⟨hv, rfl⟩ := maxMany_eq h
  refine ⟨?_, hbound⟩
  by_contra hnot
  -- a value strictly below that is still at least every operand
  obtain ⟨q, hq, hql⟩ : ∃ q, q < σ v.id ∧ ∀ x ∈ values σ xs, x ≤ q := by
    have hlt : ∀ x ∈ values σ xs, x < σ v.id := fun x hx => lt_of_le_of_ne (hbound x hx) (fun e => hnot (e ▸ hx))
    clear hbound hnot
    generalize values σ xs = l at hlt
    induction l with
    | nil => exact ⟨σ v.id - 1, by linarith, by simp⟩
    | cons a l ih =>
      obtain ⟨q, hq, hl⟩ := ih (fun x hx => hlt x (by simp [hx]))
      refine ⟨max a q, max_lt (hlt a (by simp)) hq, ?_⟩
      intro x hx
      rcases List.mem_cons.1 hx with rfl | hx
      · exact le_max_left _ _
      · exact le_max_of_le_right (hl x hx)
  let τ : Assign := fun id => if id = v.id then q else σ id
  have hτv : τ v.id = q := by simp [τ]
  have hτo : ∀ id, id ≠ v.id → τ id = σ id := fun id hid => by simp [τ, hid]
  have hx : ∀ x ∈ xs, x.eval τ = x.eval σ := by
    intro x hx
    cases x with
    | var w => exact hτo _ (hfr _ hx)
    | _ => rfl
  have hbinv : ∀ i, (manyBinary name serial i).id ≠ v.id := by
    intro i e
    rw [hv] at e
    simp only [manyBinary, binary, continuous] at e
    have := congrArg VarId.pyName e
    simp only [VarId.pyName] at this
    have := congrArg String.toList this
    simp only [String.toList_append, List.append_assoc, List.append_cancel_left_eq] at this
    have h2 := congrArg (fun l => l[1]?) this
    simp at h2
  have hfeas : p.Feasible τ := by
    constructor
    · intro c hc
      rcases (hp c).1 hc with hc' | hc'
      · have hold := hf.1 c hc
        obtain ⟨r, hr, hcr⟩ := List.mem_flatMap.1 hc'
        have hrx : r.1 ∈ xs := by
          rw [List.mem_zipIdx_iff_getElem?] at hr
          exact List.mem_of_getElem? hr
        rcases List.mem_cons.1 hcr with rfl | hcr
        · simp only [geC_holds, Expr.eval_var, toExpr_eval, hx _ hrx, hτv]
          exact hql _ (List.mem_map.2 ⟨_, hrx, rfl⟩)
        · split at hcr
          · simp only [List.mem_cons, List.not_mem_nil, or_false] at hcr
            subst hcr
            simp only [geC_holds, Expr.eval_var, toExpr_eval, Expr.eval_sub, Expr.eval_mul, Expr.eval_add, Expr.eval_num,
              hx _ hrx, hτv, hτo _ (hbinv _)] at hold ⊢
            linarith
          · simp at hcr
      · have e : c.e.eval τ = c.e.eval σ := Expr.eval_congr (fun w hw => hτo _ (hother c hc' w hw))
        have hold := hf.1 c hc
        simp only [Con.Holds, e] at hold ⊢
        exact hold
    · intro w hw
      have hwb := hf.2 w hw
      by_cases hwv : w.id = v.id
      · -- only the unbounded variable carries this identity
        have : w = v := by
          rcases prob_vars_iff.1 hw with ⟨c, hc, hwc⟩ | hwo
          · rcases (hp c).1 hc with hc' | hc'
            · obtain ⟨r, hr, hcr⟩ := List.mem_flatMap.1 hc'
              have hrx : r.1 ∈ xs := by
                rw [List.mem_zipIdx_iff_getElem?] at hr
                exact List.mem_of_getElem? hr
              have hnx : w ∉ r.1.toExpr.vars := by
                intro hwx
                have := hfr _ hrx
                cases hr1 : r.1 with
                | var w' =>
                  rw [hr1] at this hwx
                  simp [Val.toExpr] at hwx
                  subst hwx
                  exact this hwv
                | _ => rw [hr1] at hwx; simp [Val.toExpr] at hwx
              rcases List.mem_cons.1 hcr with rfl | hcr
              · simp only [geC_vars, Expr.vars_var, List.mem_append, List.mem_cons, List.not_mem_nil, or_false] at hwc
                exact hwc.resolve_right hnx
              · split at hcr
                · simp only [List.mem_cons, List.not_mem_nil, or_false] at hcr
                  subst hcr
                  simp only [geC_vars, Expr.vars_var, Expr.vars_add, Expr.vars_sub, Expr.vars_num, Expr.mem_vars_mul,
                    List.mem_append, List.nil_append, List.mem_cons, List.not_mem_nil, or_false] at hwc
                  rcases hwc with (hwc | ⟨-, rfl⟩) | rfl
                  · exact absurd hwc hnx
                  · exact absurd hwv (hbinv _)
                  · rfl
                · simp at hcr
            · exact absurd hwv (hother c hc' w hwc)
          · exact hvar w hwo hwv
        rw [this, hv, InBounds_continuous]; simp
      · simp only [LpVar.InBounds, hτo _ hwv] at hwb ⊢
        exact hwb
  have := hopt.2 τ hfeas
  have e := hobj τ hτo
  rw [hτv] at e
  nlinarith

/-- C36.  At an optimum the variable is the maximum: when it has a positive objective coefficient, when no other constraint and no
other part of the objective mentions it and when it is not one of its own operands. -/
theorem C36_max_optimum (h : maxManyVariables name serial xs M = .ok (v, cons)) {p : Prob} {σ : Assign}
    {others : List Con} (hp : ∀ c, c ∈ p.cons ↔ c ∈ cons ∨ c ∈ others)
    (hother : ∀ c ∈ others, ∀ w ∈ c.e.vars, w.id ≠ v.id) (hfr : ∀ x ∈ xs, ¬ x.Is v.id)
    {k : ℚ} {rest : Expr} (hk : 0 < k) (hobj : p.obj = Expr.var v * k + rest) (hrest : ∀ w ∈ rest.vars, w.id ≠ v.id)
    (hopt : p.Optimal σ) : Greatest (values σ xs) (σ v.id) := by
  refine max_optimum h hp hother hfr hk ?_ ?_ hopt
  · intro w hwo hwv
    rw [hobj] at hwo
    simp only [Expr.vars_add, List.mem_append, Expr.mem_vars_mul, Expr.vars_var, List.mem_cons, List.not_mem_nil, or_false] at hwo
    rcases hwo with ⟨-, rfl⟩ | hwo
    · rfl
    · exact absurd hwv (hrest w hwo)
  · intro τ hτ
    have e : rest.eval τ = rest.eval σ := Expr.eval_congr (fun w hw => hτ _ (hrest w hw))
    rw [hobj]
    simp only [Expr.eval_add, Expr.eval_mul, Expr.eval_var, e]
    ring

end many

/-! ### The hypotheses can be met -/

theorem exists_ok_pair {α β : Type} {x : Res (α × β)} (h : x.isOk = true) : ∃ a b, x = .ok (a, b) := by
  cases x with
  | error e => simp [Except.isOk, Except.toBool] at h
  | ok p => exact ⟨p.1, p.2, rfl⟩

/-- An operand for the examples. -/
def demoOperand : LpVar := continuous (.site "x" 0)

/-- A semi-continuous variable that is on, in a program with both constraints. -/
example : (⟨[constrainMax (.var demoOperand) (.var (binary (.site "b" 0))) 5,
    constrainMin (.var demoOperand) (.var (binary (.site "b" 0))) 2], .num 0⟩ : Prob).Feasible
    (fun id => if id = .site "x" 0 then 3 else 1) := by
  constructor
  · intro c hc
    simp only [List.mem_cons, List.not_mem_nil, or_false] at hc
    rcases hc with rfl | rfl <;> simp [demoOperand, continuous, binary] <;> norm_num
  · intro v hv
    rw [prob_vars_iff] at hv
    simp [Expr.mem_vars_mul] at hv
    rcases hv with hv | hv <;> subst hv
    · simp [demoOperand, InBounds_continuous]
    · simp [InBounds_binary]

/-- `min(x, 3)` at `x = 5`. -/
example : ∃ v cons σ, minTwoVariables "min-demo" 0 (.var demoOperand) (.num 3) 10 = .ok (v, cons) ∧
    (⟨cons, .num 0⟩ : Prob).Feasible σ ∧ σ demoOperand.id = 5 ∧ σ v.id = 3 := by
  have hr : ∃ v cons, minTwoVariables "min-demo" 0 (.var demoOperand) (.num 3) 10 = .ok (v, cons) := by
    exact exists_ok_pair (by decide +kernel)
  obtain ⟨v, cons, h⟩ := hr
  obtain ⟨τ, hτ, hf⟩ := (C34_min_extends h (σ := fun _ => 5)
    (by simp [Val.InBounds, demoOperand, InBounds_continuous]) trivial
    (by intro id hid; simp [twoIds] at hid; rcases hid with rfl | rfl <;> simp [Val.Is, demoOperand, continuous])
    (by intro id _ h; exact h)).2 (by norm_num [Val.eval])
  have hx : τ demoOperand.id = 5 := hτ _ (by simp [twoIds, demoOperand, continuous])
  refine ⟨v, cons, τ, h, hf, hx, ?_⟩
  rw [C34_min_exact h (fun c hc => hc) hf]
  simp [Val.eval, hx]
  norm_num

/-- `max(x, 3)` at `x = 5`. -/
example : ∃ v cons σ, maxTwoVariables "max-demo" 0 (.var demoOperand) (.num 3) 10 = .ok (v, cons) ∧
    (⟨cons, .num 0⟩ : Prob).Feasible σ ∧ σ demoOperand.id = 5 ∧ σ v.id = 5 := by
  have hr : ∃ v cons, maxTwoVariables "max-demo" 0 (.var demoOperand) (.num 3) 10 = .ok (v, cons) := by
    exact exists_ok_pair (by decide +kernel)
  obtain ⟨v, cons, h⟩ := hr
  obtain ⟨τ, hτ, hf⟩ := (C34_max_extends h (σ := fun _ => 5)
    (by simp [Val.InBounds, demoOperand, InBounds_continuous]) trivial
    (by intro id hid; simp [twoIds] at hid; rcases hid with rfl | rfl <;> simp [Val.Is, demoOperand, continuous])
    (by intro id _ h; exact h)).2 (by norm_num [Val.eval])
  have hx : τ demoOperand.id = 5 := hτ _ (by simp [twoIds, demoOperand, continuous])
  refine ⟨v, cons, τ, h, hf, hx, ?_⟩
  rw [C34_max_exact h (fun c hc => hc) hf]
  simp [Val.eval, hx]
  norm_num

/-- The minimum of `x`, 3 and 4 at `x = 5`. -/
example : ∃ v cons σ, minManyVariables "min_many-demo" 0 [.var demoOperand, .num 3, .int 4] 10 = .ok (v, cons) ∧
    (⟨cons, .num 0⟩ : Prob).Feasible σ ∧ σ demoOperand.id = 5 ∧ Least [5, 3, 4] (σ v.id) := by
  have hr : ∃ v cons, minManyVariables "min_many-demo" 0 [.var demoOperand, .num 3, .int 4] 10 = .ok (v, cons) := by
    exact exists_ok_pair (by decide +kernel)
  obtain ⟨v, cons, h⟩ := hr
  obtain ⟨τ, hτ, hf⟩ := (C35_min_extends h (by norm_num) (σ := fun _ => 5)
    (by intro x hx; simp at hx; rcases hx with rfl | rfl | rfl <;> simp [Val.InBounds, demoOperand, InBounds_continuous])
    (by
      intro x hx id hid
      simp at hx
      rcases hx with rfl | rfl | rfl
      · simp only [manyIds, List.mem_cons, List.mem_map] at hid
        rcases hid with rfl | ⟨i, -, rfl⟩ <;> simp [Val.Is, demoOperand, continuous]
      · exact fun h => h
      · exact fun h => h)).2 ⟨3, ⟨by simp [values, Val.eval], by simp [values, Val.eval]; norm_num⟩,
        by simp [values, Val.eval]; norm_num⟩
  have hx : τ demoOperand.id = 5 := hτ _ (by simp [manyIds, demoOperand, continuous])
  refine ⟨v, cons, τ, h, hf, hx, ?_⟩
  have := C35_min_exact h (fun c hc => hc) hf
  simpa [values, Val.eval, hx] using this

/-- The program "minimise the maximum of `x` and 3 where `x` is 5" has an optimum. -/
example : ∃ v cons p σ, maxManyVariables "max_many-demo" 0 [.var demoOperand, .num 3] 10 = .ok (v, cons) ∧
    p = (⟨cons ++ [(Expr.var demoOperand).eqC (.num 5)], Expr.var v * (2 : ℚ) + .num 0⟩ : Prob) ∧ p.Optimal σ ∧ σ v.id = 5 := by
  have hr : ∃ v cons, maxManyVariables "max_many-demo" 0 [.var demoOperand, .num 3] 10 = .ok (v, cons) := by
    exact exists_ok_pair (by decide +kernel)
  obtain ⟨v, cons, h⟩ := hr
  obtain ⟨τ, hτ, hq, hf⟩ := (C36_max_values h (by norm_num) (σ := fun _ => 5) 5
    (by intro x hx; simp at hx; rcases hx with rfl | rfl <;> simp [Val.InBounds, demoOperand, InBounds_continuous])
    (by
      intro x hx id hid
      simp at hx
      rcases hx with rfl | rfl
      · simp only [manyIds, List.mem_cons, List.mem_map] at hid
        rcases hid with rfl | ⟨i, -, rfl⟩ <;> simp [Val.Is, demoOperand, continuous]
      · exact fun h => h)).2 ⟨by simp [values, Val.eval]; norm_num, by intros; norm_num⟩
  have hx : τ demoOperand.id = 5 := hτ _ (by simp [manyIds, demoOperand, continuous])
  have hv := (maxMany_eq h).1
  refine ⟨v, cons, _, τ, h, rfl, ⟨⟨?_, ?_⟩, ?_⟩, hq⟩
  · intro c hc
    rcases List.mem_append.1 hc with hc | hc
    · exact hf.1 c hc
    · simp only [List.mem_cons, List.not_mem_nil, or_false] at hc
      subst hc
      simp [hx]
  · intro w hw
    rcases prob_vars_iff.1 hw with ⟨c, hc, hwc⟩ | hwo
    · rcases List.mem_append.1 hc with hc | hc
      · exact hf.bounds hc hwc
      · simp only [List.mem_cons, List.not_mem_nil, or_false] at hc
        subst hc
        simp at hwc
        subst hwc
        simp [demoOperand, InBounds_continuous]
        rw [show VarId.site "x" 0 = demoOperand.id from rfl, hx]; norm_num
    · simp [Expr.mem_vars_mul] at hwo
      rw [hwo, hv, InBounds_continuous]; simp
  · intro ρ hρ
    have hb := C36_max_bound h (fun c hc => List.mem_append.2 (.inl hc)) hρ
    have h5 := hρ.1 _ (List.mem_append.2 (.inr (.head _)))
    simp only [eqC_holds, Expr.eval_var, Expr.eval_num] at h5
    have := hb (ρ demoOperand.id) (by simp [values, Val.eval])
    simp only [Expr.eval_add, Expr.eval_mul, Expr.eval_var, Expr.eval_num, hq]
    linarith

end EPL
