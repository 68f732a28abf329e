/-
A solver that proves the optimality of its answer, for demonstrations: it comes with multipliers of the constraints and of the
bounds (a dual solution) and says "Optimal" only if they show that no feasible assignment has a smaller objective.
-/
import Verif.Spec.Demo

namespace EPL

/-- The coefficient of a variable in an expression. -/
def Expr.coef (e : Expr) (x : VarId) : ℚ := ((e.terms.filter (fun t => t.1.id = x)).map Prod.snd).sum

/-- No variable has a non-zero coefficient. -/
def Expr.isConst (e : Expr) : Bool := (e.terms.map (fun t => t.1.id)).dedup.all (fun x => e.coef x == 0)

/-- The multiplier has the sign that the sense of the constraint asks for. -/
def Con.signOk (c : Con) (q : ℚ) : Bool :=
  match c.sense with
  | .le => decide (0 ≤ q)
  | .eq => true
  | .ge => decide (q ≤ 0)

/-- A multiplier is for a lower bound if it is not negative and for an upper bound otherwise. -/
def LpVar.bound (v : LpVar) (q : ℚ) : Option ℚ := if 0 ≤ q then v.low else v.up

/-- Objective + multipliers * constraints - multipliers * (variables - bounds): the last part. -/
def LpVar.slack (v : LpVar) (q : ℚ) : Expr := (Expr.var v - Expr.num ((v.bound q).getD 0)) * q

/-- Objective + multipliers * constraints - multipliers * slacks of the bounds. -/
def Prob.lagrangian (p : Prob) (lam : List ℚ) (mu : List (LpVar × ℚ)) : Expr :=
  p.obj + Expr.sum ((p.cons.zip lam).map (fun c => c.1.e * c.2)) -
    Expr.sum (mu.map (fun v => v.1.slack v.2))

/-- The multipliers prove that the objective is at least `b`. -/
def Prob.proves (p : Prob) (lam : List ℚ) (mu : List (LpVar × ℚ)) (b : ℚ) : Bool :=
  (p.cons.zip lam).all (fun c => c.1.signOk c.2) && mu.all (fun v => decide (v.1 ∈ p.vars) && (v.1.bound v.2).isSome) &&
    (p.lagrangian lam mu).isConst && (p.lagrangian lam mu).const == b

theorem Expr.eval_isConst {e : Expr} (h : e.isConst = true) (σ : Assign) : e.eval σ = e.const := by
  have key : ∀ (l : List (LpVar × ℚ)) (ids : List VarId), ids.Nodup → (∀ t ∈ l, t.1.id ∈ ids) →
      (l.map (fun t => t.2 * σ t.1.id)).sum =
        (ids.map (fun x => ((l.filter (fun t => t.1.id = x)).map Prod.snd).sum * σ x)).sum := by
    intro l
    induction l with
    | nil => intro ids _ _; simp
    | cons t l ih =>
      intro ids hn hm
      rw [List.map_cons, List.sum_cons, ih ids hn (fun u hu => hm u (List.mem_cons_of_mem _ hu))]
      have ht := hm t List.mem_cons_self
      have : ∀ (ids : List VarId), ids.Nodup →
          (ids.map (fun x => (((t :: l).filter (fun t => t.1.id = x)).map Prod.snd).sum * σ x)).sum =
          (ids.map (fun x => ((l.filter (fun t => t.1.id = x)).map Prod.snd).sum * σ x)).sum +
            (if t.1.id ∈ ids then t.2 * σ t.1.id else 0) := by
        intro ids hn
        induction ids with
        | nil => simp
        | cons x ids ih2 =>
          rw [List.nodup_cons] at hn
          simp only [List.map_cons, List.sum_cons, ih2 hn.2, List.mem_cons]
          by_cases hx : t.1.id = x
          · subst hx
            simp only [hn.1, or_false, if_true, if_false, List.filter_cons, decide_true, List.map_cons, List.sum_cons]
            ring
          · simp only [hx, false_or, List.filter_cons, decide_false, Bool.false_eq_true, if_false]
            ring
      rw [this ids hn, if_pos ht]
      ring
  unfold Expr.eval
  rw [key e.terms _ (List.nodup_dedup _) (fun t ht => List.mem_dedup.2 (List.mem_map_of_mem (f := fun t => t.1.id) ht))]
  have hz : ∀ y ∈ (e.terms.map (fun t => t.1.id)).dedup.map (fun x => ((e.terms.filter (fun t => t.1.id = x)).map Prod.snd).sum * σ x),
      y = 0 := by
    intro y hy
    obtain ⟨x, hx, rfl⟩ := List.mem_map.1 hy
    have := List.all_eq_true.1 h x hx
    simp only [Expr.coef, beq_iff_eq] at this
    rw [this, zero_mul]
  rw [List.sum_eq_zero hz, zero_add]

theorem Prob.proves_bound {p : Prob} {lam : List ℚ} {mu : List (LpVar × ℚ)} {b : ℚ} (h : p.proves lam mu b = true) {τ : Assign}
    (hf : p.Feasible τ) : b ≤ p.obj.eval τ := by
  unfold Prob.proves at h
  simp only [Bool.and_eq_true, beq_iff_eq] at h
  obtain ⟨⟨⟨h1, h2⟩, h3⟩, h4⟩ := h
  have he := Expr.eval_isConst h3 τ
  rw [h4] at he
  unfold Prob.lagrangian at he
  rw [Expr.eval_sub, Expr.eval_add, Expr.eval_sum, Expr.eval_sum] at he
  have hc : (((p.cons.zip lam).map (fun c => c.1.e * c.2)).map (Expr.eval τ)).sum ≤ 0 := by
    have neg : ∀ l : List ℚ, (∀ y ∈ l, y ≤ 0) → l.sum ≤ 0 := by
      intro l
      induction l with
      | nil => simp
      | cons x l ih =>
        intro h
        rw [List.sum_cons]
        have := ih fun y hy => h y (List.mem_cons_of_mem _ hy)
        have := h x List.mem_cons_self
        linarith
    refine neg _ ?_
    intro y hy
    rw [List.map_map, List.mem_map] at hy
    obtain ⟨c, hcm, rfl⟩ := hy
    have hs := List.all_eq_true.1 h1 c hcm
    have hh := hf.1 c.1 (List.of_mem_zip hcm).1
    simp only [Function.comp, Expr.eval_mul]
    unfold Con.signOk at hs
    unfold Con.Holds at hh
    split at hs <;> rename_i hse <;> rw [hse] at hh <;> simp only at hh
    · have := of_decide_eq_true hs
      exact mul_nonpos_of_nonpos_of_nonneg hh this
    · rw [hh, zero_mul]
    · have := of_decide_eq_true hs
      exact mul_nonpos_of_nonneg_of_nonpos hh this
  have hv : 0 ≤ ((mu.map (fun v => v.1.slack v.2)).map (Expr.eval τ)).sum := by
    apply List.sum_nonneg
    intro y hy
    rw [List.map_map, List.mem_map] at hy
    obtain ⟨v, hvm, rfl⟩ := hy
    have hs := List.all_eq_true.1 h2 v hvm
    simp only [Bool.and_eq_true, decide_eq_true_eq] at hs
    obtain ⟨b, hb⟩ := Option.isSome_iff_exists.1 hs.2
    have hin := hf.2 v.1 hs.1
    simp only [Function.comp, LpVar.slack, hb, Option.getD_some, Expr.eval_mul, Expr.eval_sub, Expr.eval_var, Expr.eval_num]
    unfold LpVar.bound at hb
    split at hb
    · rename_i hq
      exact mul_nonneg (sub_nonneg.2 (hin.1 b hb)) hq
    · rename_i hq
      exact mul_nonneg_of_nonpos_of_nonpos (sub_nonpos.2 (hin.2.1 b hb)) (not_le.1 hq).le
  linarith

/-- A solver that answers "Optimal" only if the multipliers prove it. -/
def certSolver (σ : Assign) (lam : List ℚ) (mu : List (LpVar × ℚ)) : Solver := fun p =>
  if p.Feasible σ ∧ p.proves lam mu (p.obj.eval σ) = true then ⟨"Optimal", fun v => some (σ v)⟩
  else ⟨"Infeasible", fun v => some (σ v)⟩

theorem certSolver_exact (σ : Assign) (lam : List ℚ) (mu : List (LpVar × ℚ)) : (certSolver σ lam mu).Exact := by
  intro p h
  unfold certSolver at h ⊢
  split
  · rename_i hf
    exact ⟨σ, ⟨hf.1, fun τ hτ => Prob.proves_bound hf.2 hτ⟩, fun _ _ => rfl⟩
  · rename_i hf
    rw [if_neg hf] at h
    exact absurd h (by simp)

theorem exact_sound {S : Solver} (h : S.Exact) : S.Sound := by
  intro p hp
  obtain ⟨σ, ho, hv⟩ := h p hp
  exact ⟨σ, ho.1, hv⟩

/-- Runs the model with the multipliers and tests the outcome. -/
def Demo.testOptimal (d : Demo) (lam : List ℚ) (mu : List (LpVar × ℚ)) (P : Site → SimResult → Bool) : Bool :=
  match d.site with
  | .error _ => false
  | .ok s => match s.quick d.objective d.flags (certSolver (tab d.answer) lam mu) with
    | .error _ => false
    | .ok r => r.feasible && P s r

theorem Demo.runOptimal {d : Demo} {lam : List ℚ} {mu : List (LpVar × ℚ)} {P : Site → SimResult → Bool}
    (h : d.testOptimal lam mu P = true) :
    ∃ s r V S, d.site = .ok s ∧ S.Exact ∧ Run s d.objective d.flags S r V ∧ P s r = true := by
  unfold Demo.testOptimal at h
  split at h
  · simp at h
  · rename_i s hs
    split at h
    · simp at h
    · rename_i r hr
      replace hr := Site.quick_ok hr
      simp only [Bool.and_eq_true] at h
      have hcon : s.Constructed := ⟨_, _, _, _, _, _, _, hs⟩
      have hex := certSolver_exact (tab d.answer) lam mu
      obtain ⟨p, σ, _, _, _, _, ho⟩ := optimize_feasible (exact_sound hex) hcon.wf hr h.1
      obtain ⟨V, hV⟩ := exists_reads ho.lengths ho.colsNodup
      exact ⟨s, r, V, _, hs, hex, ⟨exact_sound hex, hcon, hr, h.1, hV⟩, h.2⟩

end EPL
