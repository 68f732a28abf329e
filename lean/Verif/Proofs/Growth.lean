/-
A site with larger capacities has a program that admits every answer to the program of the smaller site.
-/
import Verif.Proofs.Related

namespace EPL

/-- The same variable with a larger upper bound. -/
def Larger (v w : LpVar) : Prop :=
  v.id = w.id ∧ v.low = w.low ∧ v.isBinary = w.isBinary ∧ ∀ u' ∈ w.up, ∃ u ∈ v.up, u ≤ u'

theorem Larger.refl (v : LpVar) : Larger v v := ⟨rfl, rfl, rfl, fun u h => ⟨u, h, le_refl _⟩⟩

theorem larger_transfers : Transfers Larger where
  refl := Larger.refl
  id := fun _ _ h => h.1
  low := fun _ _ h => h.2.1
  bounds := by
    rintro v w ⟨h1, h2, h3, h4⟩ σ ⟨b1, b2, b3⟩
    refine ⟨?_, ?_, ?_⟩
    · rw [← h1, ← h2]; exact b1
    · intro u' hu'
      obtain ⟨u, hu, hle⟩ := h4 u' hu'
      rw [← h1]
      exact le_trans (b2 u hu) hle
    · rw [← h1, ← h3]; exact b3

theorem larger_continuous {id : VarId} {low : Option ℚ} {a b : ℚ} (h : a ≤ b) : Larger (continuous id low (some a)) (continuous id low (some b)) :=
  ⟨rfl, rfl, rfl, fun u' hu' => ⟨a, rfl, by cases hu'; exact h⟩⟩

theorem mwToMwh_le {f : Freq} (hf : 0 < f.mins) {a b : ℚ} (h : a ≤ b) : f.mwToMwh a ≤ f.mwToMwh b := by
  unfold Freq.mwToMwh
  have := mul_le_mul_of_nonneg_right h hf.le
  linarith

theorem mwToMwh_pos {f : Freq} (hf : 0 < f.mins) {a : ℚ} (h : 0 < a) : 0 < f.mwToMwh a := by
  unfold Freq.mwToMwh
  have := mul_pos h hf
  linarith

/-! ### objects -/

section
variable {R : LpVar → LpVar → Prop}

/-- Attribute by attribute. -/
theorem rel_of {o o' : OneInterval} (hk : o.kind = o'.kind) (hn : o.name = o'.name)
    (hb : ∀ attr, Option.Rel (Val.Rel R) (o.base.get? attr) (o'.base.get? attr))
    (he : ∀ attr, attr ∉ limitAttrs → Option.Rel (Val.Rel R) (o.extra? attr) (o'.extra? attr)) : OneInterval.Rel R o o' := by
  refine ⟨hk, hn, fun attr ha v hv => ?_⟩
  have h1 := hb attr
  have h2 := he attr ha
  unfold OneInterval.getattr at hv ⊢
  cases e1 : o.base.get? attr with
  | some x =>
    rw [e1] at hv h1
    cases e2 : o'.base.get? attr with
    | none => rw [e2] at h1; cases h1
    | some y =>
      rw [e2] at h1
      cases h1 with
      | some h =>
        simp only [Except.ok.injEq] at hv
        subst hv
        exact ⟨y, rfl, h⟩
  | none =>
    rw [e1] at hv h1
    cases e2 : o'.base.get? attr with
    | some y => rw [e2] at h1; cases h1
    | none =>
      simp only at hv ⊢
      cases e3 : o.extra? attr with
      | none => rw [e3] at hv; simp at hv
      | some x =>
        rw [e3] at hv h2
        cases e4 : o'.extra? attr with
        | none => rw [e4] at h2; cases h2
        | some y =>
          rw [e4] at h2
          cases h2 with
          | some h =>
            simp only [Except.ok.injEq] at hv
            subst hv
            exact ⟨y, rfl, h⟩

theorem rel_ite {p : Prop} [Decidable p] {x x' y y' : Option Val} (h : Option.Rel (Val.Rel R) x x') (h' : Option.Rel (Val.Rel R) y y') :
    Option.Rel (Val.Rel R) (if p then x else y) (if p then x' else y') := by
  by_cases hp : p
  · rw [if_pos hp, if_pos hp]; exact h
  · rw [if_neg hp, if_neg hp]; exact h'

theorem get?_rel {b b' : Base} (h1 : Val.Rel R b.electricGeneration b'.electricGeneration) (h2 : Val.Rel R b.htGeneration b'.htGeneration)
    (h3 : Val.Rel R b.ltGeneration b'.ltGeneration) (h4 : Val.Rel R b.electricLoad b'.electricLoad) (h5 : Val.Rel R b.htLoad b'.htLoad)
    (h6 : Val.Rel R b.ltLoad b'.ltLoad) (h7 : Val.Rel R b.electricCharge b'.electricCharge)
    (h8 : Val.Rel R b.electricDischarge b'.electricDischarge) (h9 : Val.Rel R b.gasConsumption b'.gasConsumption)
    (h10 : Val.Rel R b.binary b'.binary) (attr : String) : Option.Rel (Val.Rel R) (b.get? attr) (b'.get? attr) := by
  unfold Base.get?
  exact rel_ite (.some h1) <| rel_ite (.some h2) <| rel_ite (.some h3) <| rel_ite (.some h4) <| rel_ite (.some h5) <| rel_ite (.some h6) <|
    rel_ite (.some h7) <| rel_ite (.some h8) <| rel_ite (.some h9) <| rel_ite (.some h10) .none

end

theorem site_larger {s s' : Site} (hg : s.Grown s') (i : Nat) :
    OneInterval.Rel Larger (.site (s.oneInterval i)) (.site (s'.oneInterval i)) := by
  have hf : 0 < s.freq.mins := hg.positive
  have hfe : s'.freq = s.freq := by simp [Site.freq, hg.freqMins]
  have r := Val.Rel.refl larger_transfers
  refine rel_of rfl rfl ?_ ?_
  · intro attr
    refine get?_rel ?_ ?_ ?_ ?_ ?_ ?_ ?_ ?_ ?_ ?_ attr <;> exact r _
  · intro attr ha
    simp only [limitAttrs, List.mem_cons, List.not_mem_nil, or_false, not_or] at ha
    simp only [OneInterval.extra?, Site.oneInterval, hfe, ha.1, ha.2, if_false]
    split_ifs
    · exact .some (.var (larger_continuous (mwToMwh_le hf hg.importLimit)))
    · exact .some (.var (larger_continuous (mwToMwh_le hf hg.exportLimit)))
    · exact .some (r _)
    · exact .some (r _)
    · exact .none

theorem asset_larger {a a' : Asset} (hg : a.Grown a') {f : Freq} (hf : 0 < f.mins) (flags : Flags) (i : Nat) :
    List.Forall₂ (OneInterval.Rel Larger) (a.ois i f flags) (a'.ois i f flags) := by
  have r := Val.Rel.refl larger_transfers
  cases hg with
  | same => exact forall₂_same fun o _ => OneInterval.Rel.refl larger_transfers o
  | battery h1 h2 h3 =>
    rw [ois_battery, ois_battery]
    refine .cons (rel_of rfl rfl ?_ ?_) .nil
    · intro attr
      refine get?_rel ?_ ?_ ?_ ?_ ?_ ?_ ?_ ?_ ?_ ?_ attr
      all_goals first | exact r _ | exact .var (larger_continuous (mwToMwh_le hf h1)) | exact .var (larger_continuous (mwToMwh_le hf h2))
    · intro attr _
      simp only [OneInterval.extra?, BatteryCfg.oneInterval]
      split_ifs
      · exact .some (r _)
      · exact .some (r _)
      · exact .some (r _)
      · exact .some (.var (larger_continuous h3))
      · exact .some (.var (larger_continuous h3))
      · exact .some (r _)
      · exact .none
  | boiler h0 h1 =>
    refine .cons (rel_of rfl rfl ?_ ?_) .nil
    · intro attr
      refine get?_rel ?_ ?_ ?_ ?_ ?_ ?_ ?_ ?_ ?_ ?_ attr
      all_goals first | exact r _ | exact .var (larger_continuous (mwToMwh_le hf h1))
    · intro attr _
      exact .none
  | chp h0 h1 h2 =>
    refine .cons (rel_of rfl rfl ?_ ?_) .nil
    · intro attr
      refine get?_rel ?_ ?_ ?_ ?_ ?_ ?_ ?_ ?_ ?_ ?_ attr
      all_goals first | exact r _ | exact .var (larger_continuous (mwToMwh_le hf h1))
    · intro attr _
      exact .none
  | heatPump h0 h1 =>
    refine .cons (rel_of rfl rfl ?_ ?_) .nil
    · intro attr
      refine get?_rel ?_ ?_ ?_ ?_ ?_ ?_ ?_ ?_ ?_ ?_ attr
      all_goals first | exact r _ | exact .var (larger_continuous (mwToMwh_le hf h1))
    · intro attr _
      simp only [OneInterval.extra?, HeatPumpCfg.oneInterval]
      split_ifs
      · exact .some (r _)
      · exact .none

theorem ones_larger {s s' : Site} (hg : s.Grown s') {flags : Flags} {n i : Nat} (h : VarsOk s flags n) (h' : VarsOk s' flags n) (hi : i < n) :
    List.Forall₂ (OneInterval.Rel Larger) (s.ones flags i) (s'.ones flags i) := by
  have hfe : s'.freq = s.freq := by simp [Site.freq, hg.freqMins]
  rw [ones_eq h hi, ones_eq h' hi, hfe]
  refine .cons (site_larger hg i) ?_
  have := hg.assets
  generalize s.assets = l at this
  generalize s'.assets = l' at this
  induction this with
  | nil => exact .nil
  | cons hx _ ih =>
    simp only [List.flatMap_cons]
    exact forall₂_append (asset_larger hx hg.positive flags i) ih

theorem sumOver_rel {R : LpVar → LpVar → Prop} {q : Base → Val} (hq : ∀ b b', Base.Rel R b b' → Val.Rel R (q b) (q b')) {l l' : List OneInterval}
    (h : List.Forall₂ (OneInterval.Rel R) l l') : (sumOver q l).Rel R (sumOver q l') := by
  unfold sumOver
  refine Expr.Rel.sum ?_
  induction h with
  | nil => exact .nil
  | cons hx _ ih => exact .cons (hq _ _ hx.base).toExpr ih

/-- The constraint holds and its variables are in their bounds. -/
def Con.Good (σ : Assign) (c : Con) : Prop := c.Holds σ ∧ ∀ v ∈ c.e.vars, v.InBounds σ

theorem good_of_mem {p : Prob} {σ : Assign} (h : p.Feasible σ) {c : Con} (hc : c ∈ p.cons) : c.Good σ := ⟨h.1 c hc, fun _ hv => h.bounds hc hv⟩

theorem good_rel {c c' : Con} {σ : Assign} (h : c.Good σ) (hr : c.Rel Larger c') : c'.Good σ :=
  ⟨(hr.holds larger_transfers σ).1 h.1, bounds_rel larger_transfers hr.2 h.2⟩

/-- A larger multiple of the same switch. -/
theorem good_max {x x' b : LpVar} {m m' : ℚ} {σ : Assign} (hx : x.InBounds σ) (hr : Larger x x') (hb : b.InBounds σ) (h0 : 0 ≤ σ b.id) (hm : m ≤ m')
    (h : (constrainMax (.var x) (.var b) m).Holds σ) : (constrainMax (.var x') (.var b) m').Good σ := by
  constructor
  · simp only [constrainMax_holds, Expr.eval_var] at h ⊢
    rw [← hr.1]
    have := mul_le_mul_of_nonneg_left hm h0
    linarith
  · intro v hv
    simp only [constrainMax, Expr.leC, Expr.vars_sub, Expr.vars_var, Expr.vars_num, List.append_nil, List.mem_append, List.mem_singleton,
      Expr.mem_vars_mul] at hv
    rcases hv with rfl | ⟨_, rfl⟩
    · exact larger_transfers.bounds _ _ hr σ hx
    · exact hb

theorem good_min {x x' b : LpVar} {m m' : ℚ} {σ : Assign} (hx : x.InBounds σ) (hr : Larger x x') (hb : b.InBounds σ) (h0 : 0 ≤ σ b.id) (hm : m' ≤ m)
    (h : (constrainMin (.var x) (.var b) m).Holds σ) : (constrainMin (.var x') (.var b) m').Good σ := by
  constructor
  · simp only [constrainMin_holds, Expr.eval_var] at h ⊢
    rw [← hr.1]
    have := mul_le_mul_of_nonneg_left hm h0
    linarith
  · intro v hv
    simp only [constrainMin_vars, Expr.vars_var, List.mem_append, List.mem_singleton, Expr.mem_vars_mul] at hv
    rcases hv with rfl | ⟨_, rfl⟩
    · exact larger_transfers.bounds _ _ hr σ hx
    · exact hb

theorem binary_nonneg {id : VarId} {σ : Assign} (h : (binary id).InBounds σ) : 0 ≤ σ (binary id).id := h.1 0 rfl

theorem battery_good {c : BatteryCfg} {power discharge capacity : ℚ} (h1 : c.chargePower ≤ power) (h2 : c.dischargePower ≤ discharge)
    (h3 : c.capacity ≤ capacity) {i : Nat} {f : Freq} (hf : 0 < f.mins) {σ : Assign} (h : ∀ x ∈ c.withinList i f, x.Good σ) :
    ∀ x ∈ BatteryCfg.withinList { c with chargePower := power, dischargePower := discharge, capacity := capacity } i f, x.Good σ := by
  have l1 := fun id low => larger_continuous (id := id) (low := low) (mwToMwh_le hf h1)
  have l2 := fun id low => larger_continuous (id := id) (low := low) (mwToMwh_le hf h2)
  have l3 := fun id low => larger_continuous (id := id) (low := low) h3
  have r := Larger.refl
  simp only [BatteryCfg.withinList, constrainOnlyChargeOrDischarge, constrainBatteryElectricityBalance, List.cons_append, List.nil_append,
    List.forall_mem_cons, List.forall_mem_append, List.not_mem_nil, false_imp_iff, imp_true_iff] at h ⊢
  obtain ⟨a1, a2, a3, a4, a5, a6⟩ := h
  have hb := a3.2
  simp only [leC_vars, Expr.vars_add, Expr.vars_var, Expr.vars_num, List.append_nil, List.mem_append, List.mem_singleton] at hb
  have hb1 := hb _ (.inl rfl)
  have hb2 := hb _ (.inr rfl)
  have x1 : (c.oneInterval i f).charge.InBounds σ := a1.2 _ (by simp)
  have x2 : (c.oneInterval i f).discharge.InBounds σ := a2.2 _ (by simp)
  refine ⟨good_max x1 (l1 _ _) hb1 (binary_nonneg hb1) h3 a1.1, good_max x2 (l2 _ _) hb2 (binary_nonneg hb2) h3 a2.1, a3, ?_, ?_, ?_⟩
  · exact good_rel a4 ⟨rfl, (((Expr.Rel.var (l3 _ _)).add (.var (l1 _ _))).sub (.var (l2 _ _)) |>.sub (.var (r _))).sub (.var (l3 _ _))⟩
  · exact good_rel a5 ⟨rfl, (Expr.Rel.var (r _)).sub ((Expr.Rel.var (l1 _ _)).mul _)⟩
  · by_cases hi : i = 0
    · rw [if_pos hi]; simp
    · rw [if_neg hi] at a6 ⊢
      simp only [List.forall_mem_cons, List.not_mem_nil, false_imp_iff, imp_true_iff, and_true] at a6 ⊢
      exact good_rel a6 ⟨rfl, (Expr.Rel.var (l3 _ _)).sub (.var (l3 _ _))⟩

theorem good_vars_max {x b : LpVar} {m : ℚ} {σ : Assign} (hm : m ≠ 0) (h : (constrainMax (.var x) (.var b) m).Good σ) : x.InBounds σ ∧ b.InBounds σ := by
  have := h.2
  simp only [constrainMax_vars, Expr.vars_var, List.mem_append, List.mem_singleton, Expr.mem_vars_mul] at this
  exact ⟨this _ (.inl rfl), this _ (.inr ⟨hm, rfl⟩)⟩

theorem boiler_good {c : BoilerCfg} {heat : ℚ} (h0 : 0 < c.heatMax) (h1 : c.heatMax ≤ heat) {i : Nat} {f : Freq} (hf : 0 < f.mins) {σ : Assign}
    (h : ∀ x ∈ c.withinList i f, x.Good σ) : ∀ x ∈ BoilerCfg.withinList { c with heatMax := heat } i f, x.Good σ := by
  have l1 := fun id low => larger_continuous (id := id) (low := low) (mwToMwh_le hf h1)
  have r := Larger.refl
  simp only [BoilerCfg.withinList, List.forall_mem_cons, List.not_mem_nil, false_imp_iff, imp_true_iff, and_true] at h ⊢
  obtain ⟨a1, a2, a3⟩ := h
  obtain ⟨x1, hb⟩ := good_vars_max (mwToMwh_pos hf h0).ne' a2
  refine ⟨?_, good_max x1 (l1 _ _) hb (binary_nonneg hb) (mwToMwh_le hf h1) a2.1, ?_⟩
  · exact good_rel a1 ⟨rfl, (Expr.Rel.var (r _)).sub ((Expr.Rel.var (l1 _ _)).mul _)⟩
  · exact good_min x1 (l1 _ _) hb (binary_nonneg hb) (le_refl _) a3.1

theorem chp_good {c : ChpCfg} {max min : ℚ} (h0 : 0 < c.powerMax) (h1 : c.powerMax ≤ max) (h2 : min ≤ c.powerMin) {i : Nat} {f : Freq}
    (hf : 0 < f.mins) {σ : Assign} (h : ∀ x ∈ c.withinList i f, x.Good σ) :
    ∀ x ∈ ChpCfg.withinList { c with powerMax := max, powerMin := min } i f, x.Good σ := by
  have l1 := fun id low => larger_continuous (id := id) (low := low) (mwToMwh_le hf h1)
  have r := Larger.refl
  simp only [ChpCfg.withinList, List.forall_mem_append, List.forall_mem_cons, List.not_mem_nil, false_imp_iff, imp_true_iff, and_true] at h ⊢
  obtain ⟨a0, a1, a2, a3, a4⟩ := h
  obtain ⟨x1, hb⟩ := good_vars_max (mwToMwh_pos hf h0).ne' a3
  refine ⟨?_, a1, a2, good_max x1 (l1 _ _) hb (binary_nonneg hb) (mwToMwh_le hf h1) a3.1,
    good_min x1 (l1 _ _) hb (binary_nonneg hb) (mwToMwh_le hf h2) a4.1⟩
  by_cases he : 0 < c.electricEfficiency
  · rw [if_pos he] at a0 ⊢
    simp only [List.forall_mem_cons, List.not_mem_nil, false_imp_iff, imp_true_iff, and_true] at a0 ⊢
    exact good_rel a0 ⟨rfl, (Expr.Rel.var (r _)).sub ((Expr.Rel.var (l1 _ _)).mul _)⟩
  · rw [if_neg he]; simp

theorem heatPump_good {c : HeatPumpCfg} {power : ℚ} (h0 : 0 < c.power) (h1 : c.power ≤ power) {i : Nat} {f : Freq} (hf : 0 < f.mins) {σ : Assign}
    (h : ∀ x ∈ c.withinList i f, x.Good σ) : ∀ x ∈ HeatPumpCfg.withinList { c with power := power } i f, x.Good σ := by
  have l1 := fun id low => larger_continuous (id := id) (low := low) (mwToMwh_le hf h1)
  have r := Larger.refl
  simp only [HeatPumpCfg.withinList, List.forall_mem_cons, List.not_mem_nil, false_imp_iff, imp_true_iff, and_true] at h ⊢
  obtain ⟨a1, a2, a3⟩ := h
  obtain ⟨x1, hb⟩ := good_vars_max (mwToMwh_pos hf h0).ne' a1
  refine ⟨good_max x1 (l1 _ _) hb (binary_nonneg hb) (mwToMwh_le hf h1) a1.1, ?_, ?_⟩
  · exact good_rel a2 ⟨rfl, (Expr.Rel.var (r _)).sub ((Expr.Rel.var (l1 _ _)).mul _)⟩
  · exact good_rel a3 ⟨rfl, ((Expr.Rel.var (r _)).add (.var (l1 _ _))).sub (.var (r _))⟩

theorem within_good {a a' : Asset} (hg : a.Grown a') {i : Nat} {f : Freq} (hf : 0 < f.mins) {flags : Flags} {σ : Assign}
    (h : ∀ x ∈ a.withinList i f flags, x.Good σ) : ∀ x ∈ a'.withinList i f flags, x.Good σ := by
  cases hg with
  | same => exact h
  | battery h1 h2 h3 => exact battery_good h1 h2 h3 hf h
  | boiler h0 h1 => exact boiler_good h0 h1 hf h
  | chp h0 h1 h2 => exact chp_good h0 h1 h2 hf h
  | heatPump h0 h1 => exact heatPump_good h0 h1 hf h

theorem after_good {a a' : Asset} (hg : a.Grown a') {n : Nat} {f : Freq} {flags : Flags} {σ : Assign}
    (h : ∀ x ∈ a.afterList n f flags, x.Good σ) : ∀ x ∈ a'.afterList n f flags, x.Good σ := by
  cases hg with
  | battery h1 h2 h3 =>
    have l3 := fun id low => larger_continuous (id := id) (low := low) h3
    simp only [Asset.afterList, BatteryCfg.afterList, List.forall_mem_cons, List.not_mem_nil, false_imp_iff, imp_true_iff, and_true] at h ⊢
    exact ⟨good_rel h.1 ⟨rfl, (Expr.Rel.var (l3 _ _)).sub (.num _)⟩, good_rel h.2 ⟨rfl, (Expr.Rel.var (l3 _ _)).sub (.num _)⟩⟩
  | _ => exact h

theorem grown_name {a a' : Asset} (hg : a.Grown a') : a'.name = a.name := by
  cases hg <;> rfl

theorem grown_buildable {a a' : Asset} (hg : a.Grown a') {i : Nat} (h : a.Buildable i) : a'.Buildable i := by
  cases hg <;> exact h

theorem siteList_good {s s' : Site} (hg : s.Grown s') {flags : Flags} {n i : Nat} (h : VarsOk s flags n) (h' : VarsOk s' flags n) (hi : i < n)
    {σ : Assign} (hs : ∀ x ∈ s.siteList flags i, x.Good σ) : ∀ x ∈ s'.siteList flags i, x.Good σ := by
  have ho := ones_larger hg h h' hi
  have hf : 0 < s.freq.mins := hg.positive
  have hfe : s'.freq = s.freq := by simp [Site.freq, hg.freqMins]
  have li : Larger (s.oneInterval i).importPower (s'.oneInterval i).importPower := by
    simp only [Site.oneInterval, hfe]; exact larger_continuous (mwToMwh_le hf hg.importLimit)
  have le : Larger (s.oneInterval i).exportPower (s'.oneInterval i).exportPower := by
    simp only [Site.oneInterval, hfe]; exact larger_continuous (mwToMwh_le hf hg.exportLimit)
  simp only [Site.siteList, Site.withinList, hg.data, List.forall_mem_cons, List.not_mem_nil, false_imp_iff, imp_true_iff, and_true] at hs ⊢
  obtain ⟨a1, a2, a3, a4, a5, a6⟩ := hs
  have hb := a4.2
  simp only [eqC_vars, Expr.vars_add, Expr.vars_var, Expr.vars_num, List.append_nil, List.mem_append, List.mem_singleton] at hb
  have hb1 := hb _ (.inl rfl)
  have hb2 := hb _ (.inr rfl)
  have x1 : (s.oneInterval i).importPower.InBounds σ := a2.2 _ (by simp)
  have x2 : (s.oneInterval i).exportPower.InBounds σ := a3.2 _ (by simp)
  have m1 : (s.oneInterval i).importLimit ≤ (s'.oneInterval i).importLimit := by
    simp only [Site.oneInterval, hfe]; exact mwToMwh_le hf hg.importLimit
  have m2 : (s.oneInterval i).exportLimit ≤ (s'.oneInterval i).exportLimit := by
    simp only [Site.oneInterval, hfe]; exact mwToMwh_le hf hg.exportLimit
  refine ⟨?_, good_max x1 li hb1 (binary_nonneg hb1) m1 a2.1, good_max x2 le hb2 (binary_nonneg hb2) m2 a3.1, a4, ?_, ?_⟩
  · refine good_rel a1 ⟨rfl, ?_⟩
    exact ((((((Expr.Rel.var li).sub (.var le)).sub (.num _)).add (sumOver_rel (fun _ _ h => h.electricGeneration) ho)).sub
      (sumOver_rel (fun _ _ h => h.electricLoad) ho)).sub (sumOver_rel (fun _ _ h => h.electricCharge) ho)).add
      (sumOver_rel (fun _ _ h => h.electricDischarge) ho) |>.sub (.num _)
  · refine good_rel a5 ⟨rfl, ?_⟩
    exact (((sumOver_rel (fun _ _ h => h.htGeneration) ho).sub (sumOver_rel (fun _ _ h => h.htLoad) ho)).sub (.num _)).sub (.num _)
  · refine good_rel a6 ⟨rfl, ?_⟩
    exact ((((sumOver_rel (fun _ _ h => h.ltGeneration) ho).sub (sumOver_rel (fun _ _ h => h.ltLoad) ho)).sub (.num _)).add (.num _)).sub (.num _)

theorem forall₂_names {l l' : List Asset} (h : List.Forall₂ Asset.Grown l l') : l'.map Asset.name = l.map Asset.name := by
  induction h with
  | nil => rfl
  | cons hx _ ih => simp [grown_name hx, ih]

/-- Every answer to the program of a site is an answer to the program of a larger site, with the same objective value. -/
theorem grown_program {s s' : Site} (hg : s.Grown s') {objective : Objective} {flags : Flags} {iv : IVars} {p : Prob}
    (hpc : ∀ c ∈ s.constraints, c.Plain) (hpo : objective.Plain) (h : s.program objective flags = .ok (iv, p)) :
    ∃ iv' p', s'.program objective flags = .ok (iv', p') ∧ (∀ σ, p'.obj.eval σ = p.obj.eval σ) ∧ ∀ σ, p.Feasible σ → p'.Feasible σ := by
  have hp := program_spec h
  obtain ⟨base, custom, objCons, hbu, hcu, hob, hcons⟩ := hp.built
  have hn : (s'.assets.map Asset.name).Nodup := by rw [forall₂_names hg.assets]; exact hbu.vars.nodup
  have hfe : s'.freq = s.freq := by simp [Site.freq, hg.freqMins]
  have hbuild : ∀ i < s'.data.n, ∀ a ∈ s'.assets, a.Buildable i := by
    intro i hi a ha
    obtain ⟨b, hb, hr⟩ := forall₂_mem hg.assets ha
    exact grown_buildable hr (hbu.buildable i (by rw [hg.data] at hi; exact hi) b hb)
  have hb : ∃ cs, s'.build flags = .ok (s'.ivarsTo flags s'.data.n, cs) := by
    by_cases h0 : 0 < s'.data.n
    · refine build_ok hn h0 (fun i hi => ?_) hbuild
      rw [hg.data] at hi ⊢
      exact hbu.rows i hi
    · -- no intervals: only assets without constraints after the intervals
      have h0' : s'.data.n = 0 := by omega
      have h0s : s.data.n = 0 := by rw [← hg.data]; exact h0'
      have hsb : ∃ x, s.build flags = .ok x := by
        simp only [Site.program, bind_ok, Prod.exists] at h
        obtain ⟨_, _, iv', cons, hb, _⟩ := h
        exact ⟨_, hb⟩
      obtain ⟨x, hx⟩ := hsb
      unfold Site.build at hx ⊢
      rw [h0s] at hx
      rw [h0']
      simp only [List.range_zero, Site.buildLoop, ok_bind, bind_ok, Except.ok.injEq, List.nil_append] at hx ⊢
      obtain ⟨after, ha, _⟩ := hx
      obtain ⟨after', ha', _⟩ := flatMapE_rel (P := Asset.Grown) (Q := fun _ _ => True) (f' := fun a => a.constrainAfter []) hg.assets
        (fun a a' hr l hl => by
          cases hr with
          | same => exact ⟨l, hl, forall₂_same fun _ _ => trivial⟩
          | battery h1 h2 h3 => simp [Asset.constrainAfter, BatteryCfg.constrainAfter, IVars.filter, pyIndex] at hl
          | _ => exact ⟨l, hl, forall₂_same fun _ _ => trivial⟩) ha
      exact ⟨after', after', ha', rfl⟩
  obtain ⟨cs, hcs⟩ := hb
  have hbu' := built_of_build hn hcs
  have hv' : VarsOk s' flags s.data.n := by rw [← hg.data]; exact hbu'.vars
  have hiv : IVars.Rel Larger iv (s'.ivarsTo flags s'.data.n) := by
    rw [hbu.iv_eq, hg.data]
    unfold Site.ivarsTo IVars.Rel
    rw [List.forall₂_map_left_iff, List.forall₂_map_right_iff]
    exact forall₂_same fun i hi => ones_larger hg hbu.vars hv' (List.mem_range.1 hi)
  obtain ⟨p', h1, h2, h3⟩ := program_transfer larger_transfers hg.data hg.constraints hpc hpo hn ⟨cs, hcs⟩ hiv h
  refine ⟨_, p', h1, h2, fun σ hσ => h3 σ hσ ?_⟩
  rintro c (⟨i, hi, hc⟩ | ⟨i, hi, a, ha, hc⟩ | ⟨a, ha, hc⟩)
  · rw [hg.data] at hi
    exact siteList_good hg hbu.vars hv' hi (fun x hx => good_of_mem hσ (hp.site hi hx)) c hc
  · rw [hg.data] at hi
    rw [hfe] at hc
    obtain ⟨b, hb, hr⟩ := forall₂_mem hg.assets ha
    exact within_good hr hg.positive (fun x hx => good_of_mem hσ (hp.asset hi hb hx)) c hc
  · rw [hg.data, hfe] at hc
    obtain ⟨b, hb, hr⟩ := forall₂_mem hg.assets ha
    exact after_good hr (fun x hx => good_of_mem hσ (hp.after hb hx)) c hc

end EPL
