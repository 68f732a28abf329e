/-
The program of a custom objective whose terms come in another order.
-/
import Verif.Proofs.ReorderRead

namespace EPL

/-- The auxiliary variables of a term follow its position. -/
def reserial (ρ : Nat → Nat) : VarId → VarId
  | .aux n k => .aux n (ρ k)
  | v => v

theorem reserial_plain {ρ : Nat → Nat} {v : VarId} (h : ∀ k, v.owner ≠ .aux k) : reserial ρ v = v := by
  cases v with
  | aux n k => exact absurd rfl (h k)
  | _ => rfl

theorem reserial_comp (f g : Nat → Nat) (h : ∀ k, f (g k) = k) (v : VarId) : reserial f (reserial g v) = v := by
  cases v <;> simp [reserial, h]

/-- The positions of the terms in another order. -/
theorem zipIdx_perm {α : Type} {l l' : List α} (h : l.Perm l') : ∀ n, ∃ ρ ρ' : Nat → Nat, (∀ k, ρ (ρ' k) = k) ∧ (∀ k, ρ' (ρ k) = k) ∧ (∀ k < n, ρ k = k) ∧
    (l'.zipIdx n).Perm ((l.zipIdx n).map (fun p => (p.1, ρ p.2))) := by
  induction h with
  | nil => intro n; exact ⟨id, id, by simp, by simp, by simp, by simp⟩
  | cons x _ ih =>
    intro n
    obtain ⟨ρ, ρ', h1, h2, h3, h4⟩ := ih (n + 1)
    refine ⟨ρ, ρ', h1, h2, fun k hk => h3 k (by omega), ?_⟩
    rw [List.zipIdx_cons, List.zipIdx_cons, List.map_cons, h3 n (by omega)]
    exact h4.cons _
  | swap x y l =>
    intro n
    refine ⟨Equiv.swap n (n + 1), Equiv.swap n (n + 1), fun k => by simp, fun k => by simp, fun k hk => Equiv.swap_apply_of_ne_of_ne (by omega) (by omega), ?_⟩
    simp only [List.zipIdx_cons, List.map_cons, Equiv.swap_apply_left, Equiv.swap_apply_right]
    have : (l.zipIdx (n + 1 + 1)).map (fun p => (p.1, Equiv.swap n (n + 1) p.2)) = l.zipIdx (n + 1 + 1) := by
      conv => rhs; rw [← List.map_id (l.zipIdx (n + 1 + 1))]
      refine List.map_congr_left fun p hp => ?_
      obtain ⟨a, k⟩ := p
      have := List.le_snd_of_mem_zipIdx hp
      simp only [id]
      rw [Equiv.swap_apply_of_ne_of_ne (by simp at this; omega) (by simp at this; omega)]
    rw [this]
    exact List.Perm.swap _ _ _
  | trans _ _ ih1 ih2 =>
    intro n
    obtain ⟨f, f', h1, h2, h3, h4⟩ := ih1 n
    obtain ⟨g, g', k1, k2, k3, k4⟩ := ih2 n
    refine ⟨fun k => g (f k), fun k => f' (g' k), by simp [h1, k1], by simp [h2, k2], fun k hk => by simp [h3 k hk, k3 k hk], ?_⟩
    have := h4.map (fun p => (p.1, g p.2))
    rw [List.map_map] at this
    exact k4.trans this

/-- see `reserial` -/
def viaPair (τ : VarId → VarId) (x : Expr × List Con) : Expr × List Con := (x.1.via τ, x.2.map (Con.via τ))

section
variable {iv : IVars} {d : SiteData} {ρ : Nat → Nat}

theorem leC_via (τ : VarId → VarId) (a b : Expr) : (a.leC b).via τ = (a.via τ).leC (b.via τ) := by
  change Con.mk ((a - b).via τ) _ = Con.mk _ _
  rw [via_sub]
  rfl
theorem geC_via (τ : VarId → VarId) (a b : Expr) : (a.geC b).via τ = (a.via τ).geC (b.via τ) := by
  change Con.mk ((a - b).via τ) _ = Con.mk _ _
  rw [via_sub]
  rfl

theorem toExpr_via {x : Val} (h : x.Over NotAux) : x.toExpr.via (reserial ρ) = x.toExpr :=
  via_over (P := NotAux) (fun _ hv => reserial_plain hv) h.toExpr

theorem maxTwo_via {name : String} {k : Nat} {a b : Val} {M : ℚ} (ha : a.Over NotAux) (hb : b.Over NotAux) {v : LpVar} {cons : List Con}
    (h : maxTwoVariables name k a b M = .ok (v, cons)) :
    maxTwoVariables name (ρ k) a b M = .ok (v.via (reserial ρ), cons.map (Con.via (reserial ρ))) := by
  unfold maxTwoVariables at h ⊢
  simp only [bind_ok] at h ⊢
  obtain ⟨u, hu, w, hw, h⟩ := h
  refine ⟨u, hu, w, hw, ?_⟩
  split at h
  · simp at h
  rename_i hn
  rw [if_neg hn]
  simp only [Except.ok.injEq, Prod.mk.injEq] at h ⊢
  obtain ⟨rfl, rfl⟩ := h
  refine ⟨rfl, ?_⟩
  simp only [List.map_cons, List.map_nil, geC_via, leC_via, via_add, via_sub, via_mul, via_num, via_var, toExpr_via ha, toExpr_via hb]
  rfl

theorem minTwo_via {name : String} {k : Nat} {a b : Val} {M : ℚ} (ha : a.Over NotAux) (hb : b.Over NotAux) {v : LpVar} {cons : List Con}
    (h : minTwoVariables name k a b M = .ok (v, cons)) :
    minTwoVariables name (ρ k) a b M = .ok (v.via (reserial ρ), cons.map (Con.via (reserial ρ))) := by
  unfold minTwoVariables at h ⊢
  simp only [bind_ok] at h ⊢
  obtain ⟨u, hu, w, hw, h⟩ := h
  refine ⟨u, hu, w, hw, ?_⟩
  split at h
  · simp at h
  rename_i hn
  rw [if_neg hn]
  simp only [Except.ok.injEq, Prod.mk.injEq] at h ⊢
  obtain ⟨rfl, rfl⟩ := h
  refine ⟨rfl, ?_⟩
  simp only [List.map_cons, List.map_nil, geC_via, leC_via, via_add, via_sub, via_mul, via_num, via_var, toExpr_via ha, toExpr_via hb]
  rfl

theorem maxMany_via {name : String} {k : Nat} {xs : List Val} {M : ℚ} (hx : ∀ x ∈ xs, x.Over NotAux) {v : LpVar} {cons : List Con}
    (h : maxManyVariables name k xs M = .ok (v, cons)) :
    maxManyVariables name (ρ k) xs M = .ok (v.via (reserial ρ), cons.map (Con.via (reserial ρ))) := by
  unfold maxManyVariables at h ⊢
  simp only [bind_ok, Except.ok.injEq, Prod.mk.injEq] at h ⊢
  obtain ⟨u, hu, w, hw, rfl, rfl⟩ := h
  refine ⟨u, hu, w, hw, rfl, ?_⟩
  rw [List.map_flatMap]
  refine List.flatMap_congr fun p hp => ?_
  have hpo := hx p.1 (List.fst_mem_of_mem_zipIdx hp)
  split
  · simp only [List.map_cons, List.map_nil, geC_via, leC_via, via_add, via_sub, via_mul, via_num, via_var, toExpr_via hpo]
    rfl
  · simp only [List.map_cons, List.map_nil, geC_via, leC_via, via_add, via_sub, via_mul, via_num, via_var, toExpr_via hpo]
    rfl

theorem minMany_via {name : String} {k : Nat} {xs : List Val} {M : ℚ} (hx : ∀ x ∈ xs, x.Over NotAux) {v : LpVar} {cons : List Con}
    (h : minManyVariables name k xs M = .ok (v, cons)) :
    minManyVariables name (ρ k) xs M = .ok (v.via (reserial ρ), cons.map (Con.via (reserial ρ))) := by
  unfold minManyVariables at h ⊢
  simp only [bind_ok, Except.ok.injEq, Prod.mk.injEq] at h ⊢
  obtain ⟨u, hu, w, hw, rfl, rfl⟩ := h
  refine ⟨u, hu, w, hw, rfl, ?_⟩
  rw [List.map_append, List.map_flatMap]
  congr 1
  · refine List.flatMap_congr fun p hp => ?_
    have hpo := hx p.1 (List.fst_mem_of_mem_zipIdx hp)
    simp only [List.map_cons, List.map_nil, geC_via, leC_via, via_add, via_sub, via_mul, via_num, via_var, toExpr_via hpo]
    rfl
  · simp only [List.map_cons, List.map_nil, leC_via, via_sum, via_num, List.map_map]
    rfl

theorem twoExprs_via (hv : iv.Over NotAux) {t : OneTerm} {k : Nat} {es : List (Expr × List Con)} (h : t.twoExprs d iv k = .ok es) :
    t.twoExprs d iv (ρ k) = .ok (es.map (viaPair (reserial ρ))) := by
  cases t with
  | simple t => simp only [OneTerm.twoExprs, Except.ok.injEq] at h ⊢; subst h; rfl
  | many function v M constant coef =>
    simp only [OneTerm.twoExprs] at h ⊢
    split at h
    · simp at h
    · rename_i hf
      rw [if_neg hf]
      cases h
      rfl
  | two function a b M data coef =>
    simp only [OneTerm.twoExprs] at h ⊢
    split at h
    · rename_i hf
      rw [if_pos hf]
      rw [mapE_ok] at h ⊢
      rw [List.forall₂_map_right_iff]
      refine h.imp fun i x hx => ?_
      by_cases hm : function = "max_two_variables"
      · simp only [if_pos hm, bind_ok, Except.ok.injEq] at hx ⊢
        obtain ⟨u1, e1, u2, e2, x1, e3, y1, e4, ⟨c, cons⟩, e5, f, e6, rfl⟩ := hx
        exact ⟨u1, e1, u2, e2, x1, e3, y1, e4, (c.via (reserial ρ), cons.map (Con.via (reserial ρ))),
          maxTwo_via (resolveOperand_over hv e3) (resolveOperand_over hv e4) e5, f, e6, by simp only [viaPair, via_mul, via_var]⟩
      · simp only [if_neg hm, bind_ok, Except.ok.injEq] at hx ⊢
        obtain ⟨u1, e1, u2, e2, x1, e3, y1, e4, ⟨c, cons⟩, e5, f, e6, rfl⟩ := hx
        exact ⟨u1, e1, u2, e2, x1, e3, y1, e4, (c.via (reserial ρ), cons.map (Con.via (reserial ρ))),
          minTwo_via (resolveOperand_over hv e3) (resolveOperand_over hv e4) e5, f, e6, by simp only [viaPair, via_mul, via_var]⟩
    · rename_i hf
      rw [if_neg hf]
      cases h
      rfl

theorem manyExprs_via (hv : iv.Over NotAux) {t : OneTerm} {k : Nat} {es : List (Expr × List Con)} (h : t.manyExprs iv k = .ok es) :
    t.manyExprs iv (ρ k) = .ok (es.map (viaPair (reserial ρ))) := by
  cases t with
  | simple t => simp only [OneTerm.manyExprs, Except.ok.injEq] at h ⊢; subst h; rfl
  | two function a b M data coef =>
    simp only [OneTerm.manyExprs] at h ⊢
    split at h
    · simp at h
    · rename_i hf
      rw [if_neg hf]
      cases h
      rfl
  | many function v M constant coef =>
    simp only [OneTerm.manyExprs] at h ⊢
    split at h
    · rename_i hf
      rw [if_pos hf]
      by_cases hm : function = "max_many_variables"
      · simp only [if_pos hm, bind_ok, Except.ok.injEq] at h ⊢
        obtain ⟨u1, e1, ops, e3, ⟨c, cons⟩, e5, rfl⟩ := h
        exact ⟨u1, e1, ops, e3, (c.via (reserial ρ), cons.map (Con.via (reserial ρ))), maxMany_via (manyOperands_over hv e3) e5,
          by simp only [viaPair, via_mul, via_var, List.map_cons, List.map_nil]⟩
      · simp only [if_neg hm, bind_ok, Except.ok.injEq] at h ⊢
        obtain ⟨u1, e1, ops, e3, ⟨c, cons⟩, e5, rfl⟩ := h
        exact ⟨u1, e1, ops, e3, (c.via (reserial ρ), cons.map (Con.via (reserial ρ))), minMany_via (manyOperands_over hv e3) e5,
          by simp only [viaPair, via_mul, via_var, List.map_cons, List.map_nil]⟩
    · rename_i hf
      rw [if_neg hf]
      cases h
      rfl

theorem flatMapE_reserial {f : OneTerm → Nat → Res (List (Expr × List Con))} {τ : VarId → VarId} {l m : List (OneTerm × Nat)}
    (hf : ∀ p ∈ l, ∀ es, f p.1 p.2 = .ok es → f p.1 (ρ p.2) = .ok (es.map (viaPair τ))) (hm : m.Perm (l.map (fun p => (p.1, ρ p.2))))
    {x : List (Expr × List Con)} (h : flatMapE (fun p : OneTerm × Nat => f p.1 p.2) l = .ok x) :
    ∃ x', flatMapE (fun p : OneTerm × Nat => f p.1 p.2) m = .ok x' ∧ x'.Perm (x.map (viaPair τ)) := by
  obtain ⟨bs, h1, rfl⟩ := flatMapE_ok.1 h
  have h2 : mapE (fun p : OneTerm × Nat => f p.1 p.2) (l.map (fun p => (p.1, ρ p.2))) = .ok (bs.map (List.map (viaPair τ))) := by
    rw [mapE_ok] at h1 ⊢
    rw [List.forall₂_map_left_iff, List.forall₂_map_right_iff]
    clear h hm
    induction h1 with
    | nil => exact .nil
    | @cons a b as bs hab _ ih =>
      exact .cons (hf a (by simp) _ hab) (ih fun p hp => hf p (by simp [hp]))
  obtain ⟨bs', h3, h4⟩ := mapE_perm hm.symm h2
  refine ⟨bs'.flatten, flatMapE_ok.2 ⟨bs', h3, rfl⟩, ?_⟩
  rw [List.map_flatten]
  exact h4.symm.flatten

theorem customObjective_reserial (hv : iv.Over NotAux) {terms terms' : List OneTerm} (hp : terms.Perm terms') {x : Expr × List Con}
    (h : customObjective d iv terms = .ok x) : ∃ (x' : Expr × List Con) (ρ ρ' : Nat → Nat), (∀ k, ρ (ρ' k) = k) ∧ (∀ k, ρ' (ρ k) = k) ∧
      customObjective d iv terms' = .ok x' ∧ (x.1.via (reserial ρ)).Like x'.1 ∧ ∀ c, c ∈ x'.2 ↔ c ∈ x.2.map (Con.via (reserial ρ)) := by
  obtain ⟨ρ, ρ', r1, r2, -, r3⟩ := zipIdx_perm hp 0
  unfold customObjective at h ⊢
  simp only [bind_ok, Except.ok.injEq] at h ⊢
  obtain ⟨simple, h1, two, h2, many, h3, rfl⟩ := h
  obtain ⟨bs, k1, rfl⟩ := flatMapE_ok.1 h1
  obtain ⟨bs', k2, k3⟩ := mapE_perm hp k1
  obtain ⟨two', k4, k5⟩ := flatMapE_reserial (f := fun t k => t.twoExprs d iv k) (fun p _ es he => twoExprs_via hv he) r3 h2
  obtain ⟨many', k6, k7⟩ := flatMapE_reserial (f := fun t k => t.manyExprs iv k) (fun p _ es he => manyExprs_via hv he) r3 h3
  refine ⟨_, ρ, ρ', r1, r2, ⟨bs'.flatten, flatMapE_ok.2 ⟨bs', k2, rfl⟩, two', k4, many', k6, rfl⟩, ?_, fun c => ?_⟩
  · simp only
    rw [via_sum]
    refine Expr.Like.sum_perm ?_
    rw [List.map_append, List.map_append]
    refine ((List.Perm.append ?_ ?_).append ?_)
    · have : bs.flatten.map (Expr.via (reserial ρ)) = bs.flatten := by
        conv => rhs; rw [← List.map_id bs.flatten]
        refine List.map_congr_left fun e he => ?_
        obtain ⟨t, _, es, hes, hm⟩ := (flatMapE_mem h1).1 he
        exact via_over (P := NotAux) (fun _ hv => reserial_plain hv) (simpleExprs_over hv hes e hm)
      rw [this]
      exact k3.flatten
    · have := (k5.map Prod.fst).symm
      rw [List.map_map] at this ⊢
      exact this
    · have := (k7.map Prod.fst).symm
      rw [List.map_map] at this ⊢
      exact this
  · have key : ∀ {a a' : List (Expr × List Con)}, a'.Perm (a.map (viaPair (reserial ρ))) → (c ∈ a'.flatMap Prod.snd ↔ c ∈ (a.flatMap Prod.snd).map (Con.via (reserial ρ))) := by
      intro a a' ha
      rw [(ha.flatMap_right Prod.snd).mem_iff, List.flatMap_map, List.map_flatMap]
      rfl
    simp only [List.mem_append, List.map_append, key k5, key k7]

theorem Objective.Reordered.symm {o o' : Objective} (h : o.Reordered o') : o'.Reordered o := by
  cases h with
  | custom h => exact .custom h.symm
  | dict h => exact .dict h.symm

theorem objective_reserial (hv : iv.Over NotAux) {o o' : Objective} (ho : o.Reordered o') {x : Expr × List Con}
    (h : getObjective d iv o = .ok x) : ∃ (x' : Expr × List Con) (ρ ρ' : Nat → Nat), (∀ k, ρ (ρ' k) = k) ∧ (∀ k, ρ' (ρ k) = k) ∧
      getObjective d iv o' = .ok x' ∧ (x.1.via (reserial ρ)).Like x'.1 ∧ ∀ c, c ∈ x'.2 ↔ c ∈ x.2.map (Con.via (reserial ρ)) := by
  cases ho with
  | custom hp => exact customObjective_reserial hv hp h
  | dict hp =>
    simp only [getObjective, bind_ok] at h ⊢
    obtain ⟨ts, h1, h2⟩ := h
    obtain ⟨ts', h3, h4⟩ := mapE_perm hp h1
    obtain ⟨x', ρ, ρ', k1, k2, k3, k4⟩ := customObjective_reserial hv h4 h2
    exact ⟨x', ρ, ρ', k1, k2, ⟨ts', h3, k3⟩, k4⟩

theorem via_comp {τ τ' : VarId → VarId} (h : ∀ v, τ' (τ v) = v) (e : Expr) : (e.via τ).via τ' = e := by
  obtain ⟨ts, q⟩ := e
  simp only [Expr.via, List.map_map]
  congr 1
  conv => rhs; rw [← List.map_id ts]
  refine List.map_congr_left fun t _ => ?_
  simp [LpVar.via, h]

theorem via_con_comp {τ τ' : VarId → VarId} (h : ∀ v, τ' (τ v) = v) (c : Con) : (c.via τ).via τ' = c := by
  obtain ⟨e, k⟩ := c
  simp only [Con.via, via_comp h]

/-- The program of the reordered objective. -/
structure TermsLike (o : Objective) (p p' : Prob) (g : Assign → Assign) : Prop where
  plain : ∀ σ v, v.OfSite → g σ v = σ v
  value : ∀ σ, p'.obj.eval (g σ) = p.obj.eval σ
  feasible : ∀ σ, p.Feasible σ → p'.Feasible (g σ)
  simple : o.NoExtremes → p.obj.Like p'.obj ∧ ∀ c, c ∈ p'.cons ↔ c ∈ p.cons

theorem reserial_program {s : Site} {flags : Flags} {o o' : Objective} (ho : o.Reordered o') {p : Prob} (hp : s.program o flags = .ok (iv, p)) :
    ∃ p', s.program o' flags = .ok (iv, p') ∧ ∃ g, TermsLike o p p' g := by
  obtain ⟨base, custom, objCons, hbu, hcu, hob, hcons⟩ := (program_spec hp).built
  have hov : iv.Over NotAux := by
    rw [hbu.iv_eq]
    intro l hl x hx
    have := ivars_over hbu.vars hbu.buildable l hl x hx
    exact ⟨this.1.mono fun v hv k => not_aux hv, fun attr v hv => (this.2 attr v hv).mono fun v hv k => not_aux hv⟩
  obtain ⟨⟨obj', objCons'⟩, ρ, ρ', r1, r2, e1, e2, e3⟩ := objective_reserial hov ho hob
  simp only at e2 e3
  have hρ : ∀ v, reserial ρ' (reserial ρ v) = v := reserial_comp _ _ r2
  refine ⟨⟨base ++ custom ++ objCons', obj'⟩, ?_, fun σ v => σ (reserial ρ' v), ⟨fun σ v hv => ?_, fun σ => ?_, fun σ hf => ?_, fun hno => ?_⟩⟩
  · unfold Site.program at hp ⊢
    simp only [bind_ok, Prod.exists, Except.ok.injEq, Prod.mk.injEq] at hp ⊢
    obtain ⟨_, hn, iv', cons, hb, custom2, hcu2, obj, objCons2, hob2, rfl, rfl⟩ := hp
    simp only at hcons hob
    rw [hob2] at hob
    cases hob
    rw [hcu2] at hcu
    cases hcu
    have : cons = base := List.append_cancel_right (List.append_cancel_right hcons)
    subst this
    exact ⟨_, hn, iv', cons, hb, _, hcu2, obj', objCons', e1, rfl, rfl⟩
  · rw [reserial_plain (ofSite_iff.1 hv)]
  · simp only
    rw [← e2.eval, via_eval]
    simp only [hρ]
  · rw [feasible_iff] at hf ⊢
    obtain ⟨hf1, hf2⟩ := hf
    refine ⟨fun c' hcm => ?_, fun v hv => ?_⟩
    · have same : ∀ c : Con, c ∈ p.cons → c.Over NotAux → c.Good (fun v => σ (reserial ρ' v)) := fun c hc hco =>
        good_congr (fun v hv => by rw [reserial_plain (hco v hv)]) (hf1 c hc)
      rw [List.mem_append, List.mem_append] at hcm
      rcases hcm with (hcm | hcm) | hcm
      · refine same c' (by rw [hcons]; exact List.mem_append_left _ (List.mem_append_left _ hcm)) ?_
        exact (base_over hbu.vars hbu.buildable ((hbu.mem_iff c').1 hcm)).mono fun v hv k => not_aux hv
      · exact same c' (by rw [hcons]; exact List.mem_append_left _ (List.mem_append_right _ hcm)) (custom_over hov hcu c' hcm)
      · rw [e3, List.mem_map] at hcm
        obtain ⟨c, hc, rfl⟩ := hcm
        apply via_good
        rw [via_con_comp hρ]
        exact hf1 c (by rw [hcons]; exact List.mem_append_right _ hc)
    · have hv' := e2.vars.2 hv
      obtain ⟨x, hx, rfl⟩ := List.mem_map.1 hv'
      obtain ⟨y, hy, rfl⟩ := List.mem_map.1 hx
      have hb := hf2 y.1 (List.mem_map.2 ⟨y, hy, rfl⟩)
      unfold LpVar.InBounds at hb ⊢
      simp only [LpVar.via, hρ]
      exact hb
  · obtain ⟨h1, h2⟩ := objective_simple hov hno hob
    simp only at h1 h2
    refine ⟨?_, fun c => ?_⟩
    · rw [via_over (P := NotAux) (fun _ hv => reserial_plain hv) h1] at e2
      exact e2
    · rw [hcons]
      have : objCons' = [] := by
        rw [List.eq_nil_iff_forall_not_mem]
        intro c hc
        rw [e3, h2] at hc
        simp at hc
      simp only [this, h2]

/-- Two programs with the same constraints and the same objective up to the order of its terms give the same results. -/
theorem optimize_same {s s' : Site} {o o' : Objective} {flags : Flags} {p p' : Prob} {S : Solver} {r : SimResult}
    (hp : s.program o flags = .ok (iv, p)) (hp' : s'.program o' flags = .ok (iv, p')) (hl : p.obj.Like p'.obj) (hc : ∀ c, c ∈ p'.cons ↔ c ∈ p.cons)
    (he : ∀ status vals, extractResults s' iv status vals flags = extractResults s iv status vals flags) (hr : s.optimize o flags S = .ok r) :
    ∃ S', (S.Sound → S'.Sound) ∧ (S.Exact → S'.Exact) ∧ s'.optimize o' flags S' = .ok r := by
  have hvars : ∀ v, v ∈ p'.vars ↔ v ∈ p.vars := by
    intro v
    rw [prob_vars_iff, prob_vars_iff, hl.vars]
    simp only [hc]
  have hf : ∀ σ, p'.Feasible σ ↔ p.Feasible σ := by
    intro σ
    unfold Prob.Feasible
    simp only [hc, hvars]
  have hopt : ∀ σ, p.Optimal σ → p'.Optimal σ := fun σ h =>
    ⟨(hf σ).2 h.1, fun τ hτ => by rw [← hl.eval, ← hl.eval]; exact h.2 τ ((hf τ).1 hτ)⟩
  simp only [Site.optimize, hp, hp', ok_bind] at hr ⊢
  refine ⟨S.moved p p', fun hS q hq => ?_, fun hS q hq => ?_, ?_⟩
  · cases moved_status hq
    rw [moved_self] at hq ⊢
    obtain ⟨σ, h1, h2⟩ := hS p hq
    exact ⟨σ, (hf σ).2 h1, fun v hv => h2 v ((hvars v).1 hv)⟩
  · cases moved_status hq
    rw [moved_self] at hq ⊢
    obtain ⟨σ, h1, h2⟩ := hS p hq
    exact ⟨σ, hopt σ h1, fun v hv => h2 v ((hvars v).1 hv)⟩
  · have hsolve : p'.solve (S.moved p p') flags.allowInfeasible = p.solve S flags.allowInfeasible := by
      unfold Prob.solve
      simp only [moved_self, valuesOf_same hvars, noDuplicates_same hvars, hl.objValue]
    rw [hsolve]
    simp only [he]
    exact hr

end

end EPL
