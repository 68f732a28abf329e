/-
Feasible points put together from plans of the assets.
-/
import Verif.Props.Feasible

namespace EPL

/-- The assignment in which every asset follows its plan and the grid connection carries `grid i` in interval `i` (exports are negative). -/
def Site.point (s : Site) (grid : Nat → ℚ) (plan : Asset → Assign) : Assign := fun v =>
  match v.owner with
  | .site => match v with
    | .site attr i =>
      if attr = "import_power_mw" then max (grid i) 0
      else if attr = "export_power_mw" then max (-grid i) 0
      else if attr = "import_power_bin" then (if 0 ≤ grid i then 1 else 0)
      else (if 0 ≤ grid i then 0 else 1)
    | _ => 0
  | .asset n => match s.assets.find? (fun a => a.name = n) with
    | some a => plan a v
    | none => 0
  | .aux _ => 0

/-- A quantity of all assets that follow their plans. -/
def Site.planned (s : Site) (flags : Flags) (plan : Asset → Assign) (q : Base → Val) (i : Nat) : ℚ :=
  (s.assets.map (fun a => ((a.ois i s.freq flags).map (fun o => (q o.base).eval (plan a))).sum)).sum

section
variable {s : Site} {grid : Nat → ℚ} {plan : Asset → Assign} {flags : Flags} {name : String}

theorem point_asset (hn : (s.assets.map Asset.name).Nodup) {a : Asset} (ha : a ∈ s.assets) {v : VarId} (h : v.owner = .asset a.name) :
    s.point grid plan v = plan a v := by
  unfold Site.point
  rw [h]
  simp only []
  have : s.assets.find? (fun b => b.name = a.name) = some a := by
    cases hf : s.assets.find? (fun b => b.name = a.name) with
    | none =>
      rw [List.find?_eq_none] at hf
      exact absurd (by simp) (hf a ha)
    | some b =>
      have hb := List.find?_some hf
      rw [eq_of_name hn (List.mem_of_find?_eq_some hf) ha (by simpa using hb)]
  rw [this]

theorem point_sum (hn : (s.assets.map Asset.name).Nodup) {i : Nat} (hbu : ∀ a ∈ s.assets, a.Buildable i) (q : Base → Val)
    (hq : ∀ (b : Base) (P : LpVar → Prop), b.AllOver P → (q b).Over P) :
    (s.assets.map (fun a => ((a.ois i s.freq flags).map (fun o => (q o.base).eval (s.point grid plan))).sum)).sum = s.planned flags plan q i := by
  unfold Site.planned
  refine list_sum_congr fun a ha => list_sum_congr fun o ho => ?_
  exact val_eval_congr ((hq _ _ (ois_over (hbu a ha) ho).1).mono fun v hv => point_asset hn ha hv)

/-- What holds of a point: the constraints of the program that do not come from custom constraints or the objective, and the bounds of the flows. -/
structure Site.Fulfils (s : Site) (flags : Flags) (σ : Assign) : Prop where
  base : ∀ c, s.BaseCon flags c → c.Good σ
  ones : ∀ i < s.data.n, ∀ o ∈ s.ones flags i, o.base.AllOver (fun v => v.InBounds σ)
  imports : ∀ i < s.data.n, (s.oneInterval i).importPower.InBounds σ
  exports : ∀ i < s.data.n, (s.oneInterval i).exportPower.InBounds σ

/-- Plans that respect the assets and balance fulfil the program. -/
theorem point_fulfils (hrow : ∀ i < s.data.n, s.data.HasRow i) (hn : (s.assets.map Asset.name).Nodup) (h0 : 0 < s.data.n)
    (hbu : ∀ i < s.data.n, ∀ a ∈ s.assets, a.Buildable i) (hpl : ∀ a ∈ s.assets, a.Fits s.data.n s.freq flags (plan a))
    (hil : 0 ≤ s.mwh s.importLimit) (hel : 0 ≤ s.mwh s.exportLimit)
    (hgr : ∀ i < s.data.n, -s.mwh s.exportLimit ≤ grid i ∧ grid i ≤ s.mwh s.importLimit)
    (helec : ∀ i < s.data.n, grid i - s.data.electricLoad.getD i 0 + s.planned flags plan Base.electricGeneration i -
      s.planned flags plan Base.electricLoad i - s.planned flags plan Base.electricCharge i + s.planned flags plan Base.electricDischarge i = 0)
    (hhigh : ∀ i < s.data.n, s.planned flags plan Base.htGeneration i - s.planned flags plan Base.htLoad i - s.data.htLoad.getD i 0 = 0)
    (hlow : ∀ i < s.data.n, s.planned flags plan Base.ltGeneration i - s.planned flags plan Base.ltLoad i - s.data.ltLoad.getD i 0 +
      s.data.ltGeneration.getD i 0 = 0) : s.Fulfils flags (s.point grid plan) := by
  obtain ⟨cs, hcs⟩ := build_ok (flags := flags) hn h0 hrow hbu
  have hP := built_of_build hn hcs
  set σ := s.point grid plan with hσ
  have hfit : ∀ a ∈ s.assets, a.Fits s.data.n s.freq flags σ := fun a ha =>
    (hpl a ha).congr (fun i hi => hbu i hi a ha) fun v hv => (point_asset hn ha hv).symm
  have b1 : ∀ i < s.data.n, (s.oneInterval i).importPower.InBounds σ := fun i hi => in_continuous (le_max_right _ _) (max_le (hgr i hi).2 hil)
  have b2 : ∀ i < s.data.n, (s.oneInterval i).exportPower.InBounds σ := fun i hi =>
    in_continuous (le_max_right _ _) (max_le (neg_le.1 (hgr i hi).1) hel)
  have b3 : ∀ i, (s.oneInterval i).importBin.InBounds σ := fun i => in_binary (by
    by_cases h : 0 ≤ grid i
    · exact .inr (if_pos h)
    · exact .inl (if_neg h))
  have b4 : ∀ i, (s.oneInterval i).exportBin.InBounds σ := fun i => in_binary (by
    by_cases h : 0 ≤ grid i
    · exact .inl (if_pos h)
    · exact .inr (if_neg h))
  have hone : ∀ i < s.data.n, ∀ o ∈ s.ones flags i, o.base.AllOver (fun v => v.InBounds σ) := by
    intro i hi o ho
    rw [ones_eq hP.vars hi, List.mem_cons, List.mem_flatMap] at ho
    rcases ho with rfl | ⟨a, ha, ho⟩
    · exact ⟨trivial, trivial, trivial, trivial, trivial, trivial, trivial, trivial, trivial, trivial⟩
    · exact (hfit a ha).base i hi o ho
  refine ⟨?_, hone, b1, b2⟩
  · intro c hcon
    rcases hcon with ⟨i, hi, hcon⟩ | ⟨i, hi, a, ha, hcon⟩ | ⟨a, ha, hcon⟩
    · have sum : ∀ q : Base → Val, (∀ (b : Base) (P : LpVar → Prop), b.AllOver P → (q b).Over P) →
          (q (OneInterval.site (s.oneInterval i)).base).eval σ = 0 → (sumOver q (s.ones flags i)).eval σ = s.planned flags plan q i := by
        intro q hq z0
        rw [ones_eval hP.vars hi, z0, zero_add]
        exact point_sum hn (hbu i hi) q hq
      have q1 := sum Base.electricGeneration (fun b P h => h.1) (by simp [OneInterval.base, Val.eval])
      have q2 := sum Base.htGeneration (fun b P h => h.2) (by simp [OneInterval.base, Val.eval])
      have q3 := sum Base.ltGeneration (fun b P h => h.3) (by simp [OneInterval.base, Val.eval])
      have q4 := sum Base.electricLoad (fun b P h => h.4) (by simp [OneInterval.base, Val.eval])
      have q5 := sum Base.htLoad (fun b P h => h.5) (by simp [OneInterval.base, Val.eval])
      have q6 := sum Base.ltLoad (fun b P h => h.6) (by simp [OneInterval.base, Val.eval])
      have q7 := sum Base.electricCharge (fun b P h => h.7) (by simp [OneInterval.base, Val.eval])
      have q8 := sum Base.electricDischarge (fun b P h => h.8) (by simp [OneInterval.base, Val.eval])
      have w1 : σ (.site "import_power_mw" i) = max (grid i) 0 := rfl
      have w2 : σ (.site "export_power_mw" i) = max (-grid i) 0 := rfl
      have w3 : σ (.site "import_power_bin" i) = if 0 ≤ grid i then 1 else 0 := rfl
      have w4 : σ (.site "export_power_bin" i) = if 0 ≤ grid i then 0 else 1 := rfl
      have m1 : max (grid i) 0 - max (-grid i) 0 = grid i := by
        rcases le_total (grid i) 0 with h | h
        · rw [max_eq_right h, max_eq_left (neg_nonneg.2 h)]; ring
        · rw [max_eq_left h, max_eq_right (neg_nonpos.2 h)]; ring
      have hov := hone i hi
      simp only [Site.siteList, Site.withinList, List.mem_cons, List.not_mem_nil, or_false] at hcon
      rcases hcon with rfl | rfl | rfl | rfl | rfl | rfl
      · refine good ?_ (Expr.Over.eqC (.add (.sub (.sub (.add (.sub (.sub (.var (b1 i hi)) (.var (b2 i hi))) (.num _))
          (sumOver_over fun o ho => (hov o ho).1)) (sumOver_over fun o ho => (hov o ho).4)) (sumOver_over fun o ho => (hov o ho).7))
          (sumOver_over fun o ho => (hov o ho).8)) (.num _))
        simp only [eqC_holds, Expr.eval_add, Expr.eval_sub, Expr.eval_var, Expr.eval_num, q1, q4, q7, q8]
        simp only [continuous, Site.oneInterval, w1, w2]
        have := helec i hi
        linarith
      · refine good ?_ (Expr.Over.leC (.sub (.var (b1 i hi)) (.mul (.var (b3 i)) _)) (.num _))
        simp only [leC_holds, Expr.eval_sub, Expr.eval_mul, Expr.eval_var, Expr.eval_num, Site.oneInterval, continuous, binary, w1, w3]
        split
        · have : max (grid i) 0 ≤ s.mwh s.importLimit := max_le (hgr i hi).2 hil
          rw [one_mul]
          exact sub_nonpos.2 this
        · rename_i h
          rw [max_eq_right (not_le.1 h).le]
          simp
      · refine good ?_ (Expr.Over.leC (.sub (.var (b2 i hi)) (.mul (.var (b4 i)) _)) (.num _))
        simp only [leC_holds, Expr.eval_sub, Expr.eval_mul, Expr.eval_var, Expr.eval_num, Site.oneInterval, continuous, binary, w2, w4]
        split
        · rename_i h
          rw [max_eq_right (neg_nonpos.2 h)]
          simp
        · have : max (-grid i) 0 ≤ s.mwh s.exportLimit := max_le (neg_le.1 (hgr i hi).1) hel
          rw [one_mul]
          exact sub_nonpos.2 this
      · refine good ?_ (Expr.Over.eqC (.add (.var (b3 i)) (.var (b4 i))) (.num _))
        simp only [eqC_holds, Expr.eval_add, Expr.eval_var, Expr.eval_num, Site.oneInterval, binary, w3, w4]
        split <;> simp
      · refine good ?_ (Expr.Over.eqC (.sub (.sub (sumOver_over fun o ho => (hov o ho).2) (sumOver_over fun o ho => (hov o ho).5)) (.num _)) (.num _))
        simp only [eqC_holds, Expr.eval_sub, Expr.eval_num, q2, q5]
        exact hhigh i hi
      · refine good ?_ (Expr.Over.eqC (.add (.sub (.sub (sumOver_over fun o ho => (hov o ho).3) (sumOver_over fun o ho => (hov o ho).6)) (.num _)) (.num _))
          (.num _))
        simp only [eqC_holds, Expr.eval_sub, Expr.eval_add, Expr.eval_num, q3, q6]
        exact hlow i hi
    · exact (hfit a ha).within i hi c hcon
    · exact (hfit a ha).after c hcon

/-- The objective of a fulfilled program is about variables within their bounds. -/
theorem fulfils_objective {iv : IVars} {p : Prob} {σ : Assign} (h : s.Fulfils flags σ) (hP : Prog s (.str name) flags iv p) : ∀ v ∈ p.obj.vars, v.InBounds σ := by
  intro v hv
  obtain ⟨i, hi, o, ho, t, ht, hvt⟩ := (plain_obj hP v).1 hv
  have hob := h.ones i hi o ho
  rw [ones_eq hP.vars hi, List.mem_cons, List.mem_flatMap] at ho
  rcases ho with rfl | ⟨a, ha, ho⟩
  · have : t.Over (fun v => v.InBounds σ) := by
      unfold strTermsOf at ht
      split at ht <;> simp only [priceTermsOf, carbonTermsOf, List.mem_singleton] at ht <;> subst ht <;>
        exact .sub (.mul (.var (h.imports i hi)) _) (.mul (.var (h.exports i hi)) _)
    exact this v hvt
  · exact strTerms_over (kinds_ne_site (ois_name_kind ho).2) hob t ht v hvt

/-- Plans that respect the assets and balance are a feasible point. -/
theorem point_answer (hs : s.Constructed) (hn : (s.assets.map Asset.name).Nodup) (h0 : 0 < s.data.n) (hc : s.constraints = [])
    (hbu : ∀ i < s.data.n, ∀ a ∈ s.assets, a.Buildable i) (hpl : ∀ a ∈ s.assets, a.Fits s.data.n s.freq flags (plan a))
    (hil : 0 ≤ s.mwh s.importLimit) (hel : 0 ≤ s.mwh s.exportLimit)
    (hgr : ∀ i < s.data.n, -s.mwh s.exportLimit ≤ grid i ∧ grid i ≤ s.mwh s.importLimit)
    (helec : ∀ i < s.data.n, grid i - s.data.electricLoad.getD i 0 + s.planned flags plan Base.electricGeneration i -
      s.planned flags plan Base.electricLoad i - s.planned flags plan Base.electricCharge i + s.planned flags plan Base.electricDischarge i = 0)
    (hhigh : ∀ i < s.data.n, s.planned flags plan Base.htGeneration i - s.planned flags plan Base.htLoad i - s.data.htLoad.getD i 0 = 0)
    (hlow : ∀ i < s.data.n, s.planned flags plan Base.ltGeneration i - s.planned flags plan Base.ltLoad i - s.data.ltLoad.getD i 0 +
      s.data.ltGeneration.getD i 0 = 0)
    (hname : name = "price" ∨ name = "carbon") :
    ∃ p, Answer s (.str name) flags p (s.point grid plan) := by
  obtain ⟨hrow, hpr⟩ := constructed_rows hs
  obtain ⟨p, hp⟩ := plain_program (flags := flags) (name := name) hn h0 hrow hbu hc (str_objective_ok hpr (by simp [Site.ivarsTo]) hname)
  have hP := program_spec hp
  have F := point_fulfils (flags := flags) (grid := grid) (plan := plan) hrow hn h0 hbu hpl hil hel hgr helec hhigh hlow
  have hgood : ∀ c ∈ p.cons, c.Good (s.point grid plan) := fun c hcon => F.base c ((plain_cons hP hc c).1 hcon)
  refine ⟨p, ⟨_, hp⟩, fun c hc => (hgood c hc).1, fun v hv => ?_⟩
  rcases prob_vars_iff.1 hv with ⟨c, hc, hv⟩ | hv
  · exact (hgood c hc).2 v hv
  · exact fulfils_objective F hP v hv

end

end EPL
