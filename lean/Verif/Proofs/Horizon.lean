/-
Programs over some of the intervals: what belongs to one interval, and how intervals are tied together.
-/
import Verif.Spec.Horizon
import Verif.Proofs.Point

namespace EPL

/-! ### Variables of a later interval -/

/-- The variable of the same kind, `k` intervals later. -/
def VarId.later (k : Nat) : VarId → VarId
  | .site attr i => .site attr (i + k)
  | .asset name attr i => .asset name attr (i + k)
  | .tagged attr i name => .tagged attr (i + k) name
  | .evSoc attr i name event => .evSoc attr (i + k) name event
  | .evFlow attr i name event charger b => .evFlow attr (i + k) name event charger b
  | .aux name serial => .aux name serial

/-- The variable of the same kind, `k` intervals earlier. -/
def VarId.earlier (k : Nat) : VarId → VarId
  | .site attr i => .site attr (i - k)
  | .asset name attr i => .asset name attr (i - k)
  | .tagged attr i name => .tagged attr (i - k) name
  | .evSoc attr i name event => .evSoc attr (i - k) name event
  | .evFlow attr i name event charger b => .evFlow attr (i - k) name event charger b
  | .aux name serial => .aux name serial

theorem earlier_later (k : Nat) (v : VarId) : (v.later k).earlier k = v := by
  cases v <;> simp [VarId.later, VarId.earlier]

/-- A variable of interval `i` and the same variable `k` intervals later. -/
def Later (k i : Nat) (v w : LpVar) : Prop :=
  w.id = v.id.later k ∧ w.low = v.low ∧ w.up = v.up ∧ w.isBinary = v.isBinary ∧ v.id.interval = i ∧ w.id.interval = i + k

section
variable {k i : Nat} {σ τ : Assign}

theorem Later.bounds {v w : LpVar} (h : Later k i v w) (e : τ v.id = σ w.id) : v.InBounds τ ↔ w.InBounds σ := by
  obtain ⟨_, h2, h3, h4, _, _⟩ := h
  unfold LpVar.InBounds
  rw [h2, h3, h4, e]

theorem later_eval {a a' : Expr} (h : a.Rel (Later k i) a') (e : ∀ v : VarId, v.interval = i → (v.later k).interval = i + k → τ v = σ (v.later k)) :
    a.eval τ = a'.eval σ := by
  obtain ⟨h1, h2⟩ := h
  unfold Expr.eval
  rw [h1]
  congr 1
  generalize a.terms = l at h2
  generalize a'.terms = l' at h2
  induction h2 with
  | nil => rfl
  | cons hx _ ih =>
    simp only [List.map_cons, List.sum_cons]
    rw [ih, hx.2, hx.1.1, e _ hx.1.2.2.2.2.1 (by rw [← hx.1.1]; exact hx.1.2.2.2.2.2)]

/-- The values of one interval are those of a later one. -/
def Carries (k i : Nat) (τ σ : Assign) : Prop := ∀ v : VarId, v.interval = i → (v.later k).interval = i + k → τ v = σ (v.later k)

theorem later_vars {a a' : Expr} (h : a.Rel (Later k i) a') (e : Carries k i τ σ) : (∀ v ∈ a.vars, v.InBounds τ) ↔ ∀ v ∈ a'.vars, v.InBounds σ := by
  obtain ⟨_, h2⟩ := h
  unfold Expr.vars
  generalize a.terms = l at h2
  generalize a'.terms = l' at h2
  induction h2 with
  | nil => simp
  | cons hx _ ih =>
    simp only [List.map_cons, List.forall_mem_cons]
    rw [ih, hx.1.bounds (σ := σ) (τ := τ) (by rw [hx.1.1]; exact e _ hx.1.2.2.2.2.1 (by rw [← hx.1.1]; exact hx.1.2.2.2.2.2))]

theorem later_good {c c' : Con} (h : c.Rel (Later k i) c') (e : Carries k i τ σ) : c.Good τ ↔ c'.Good σ := by
  unfold Con.Good
  rw [later_vars h.2 e]
  refine and_congr ?_ Iff.rfl
  unfold Con.Holds
  rw [h.1, later_eval h.2 e]

theorem later_goods {l l' : List Con} (h : List.Forall₂ (Con.Rel (Later k i)) l l') (e : Carries k i τ σ) :
    (∀ c ∈ l, c.Good τ) ↔ ∀ c ∈ l', c.Good σ := by
  induction h with
  | nil => simp
  | cons hx _ ih => simp only [List.forall_mem_cons]; rw [ih, later_good hx e]

end

/-! ### Parts of a site -/

/-- What the second asset has in common with the first one, over `m` intervals from `k` on. -/
inductive Asset.PartOf (k m : Nat) : Asset → Asset → Prop
  | battery {c : BatteryCfg} {start stop : ℚ} : Asset.PartOf k m (.battery { c with initialCharge := start, finalCharge := stop }) (.battery c)
  | renewable {c c' : RenewableCfg} : c'.name = c.name → c'.lowerBoundPct = c.lowerBoundPct →
      (∀ i < m, c'.generation.getD i 0 = c.generation.getD (i + k) 0) → Asset.PartOf k m (.renewable c') (.renewable c)
  | boiler {c : BoilerCfg} : Asset.PartOf k m (.boiler c) (.boiler c)
  | chp {c : ChpCfg} : Asset.PartOf k m (.chp c) (.chp c)
  | heatPump {c : HeatPumpCfg} : Asset.PartOf k m (.heatPump c) (.heatPump c)
  | spill {c : SpillCfg} : Asset.PartOf k m (.spill c) (.spill c)
  | valve {c : ValveCfg} : Asset.PartOf k m (.valve c) (.valve c)

/-- What the first site has in common with the second one, from `k` on. -/
structure Site.PartOf (k : Nat) (t s : Site) : Prop where
  freqMins : t.freqMins = s.freqMins
  importLimit : t.importLimit = s.importLimit
  exportLimit : t.exportLimit = s.exportLimit
  constraints : t.constraints = s.constraints
  fits : t.data.n + k ≤ s.data.n
  electricityPrices : ∀ i < t.data.n, t.data.electricityPrices.getD i 0 = s.data.electricityPrices.getD (i + k) 0
  exportElectricityPrices : ∀ i < t.data.n, t.data.exportElectricityPrices.getD i 0 = s.data.exportElectricityPrices.getD (i + k) 0
  electricityCarbonIntensities : ∀ i < t.data.n, t.data.electricityCarbonIntensities.getD i 0 = s.data.electricityCarbonIntensities.getD (i + k) 0
  gasPrices : ∀ i < t.data.n, t.data.gasPrices.getD i 0 = s.data.gasPrices.getD (i + k) 0
  electricLoad : ∀ i < t.data.n, t.data.electricLoad.getD i 0 = s.data.electricLoad.getD (i + k) 0
  htLoad : ∀ i < t.data.n, t.data.htLoad.getD i 0 = s.data.htLoad.getD (i + k) 0
  ltLoad : ∀ i < t.data.n, t.data.ltLoad.getD i 0 = s.data.ltLoad.getD (i + k) 0
  ltGeneration : ∀ i < t.data.n, t.data.ltGeneration.getD i 0 = s.data.ltGeneration.getD (i + k) 0
  named : ∀ i < t.data.n, ∀ name, name ≠ "idx" → t.data.at name i = s.data.at name (i + k)
  assets : List.Forall₂ (Asset.PartOf k t.data.n) t.assets s.assets

theorem Site.PartOf.freq {k : Nat} {s t : Site} (h : t.PartOf k s) : t.freq = s.freq := by
  simp [Site.freq, h.freqMins]

section
variable {k i : Nat}

theorem later_continuous {id id' : VarId} {low up : Option ℚ} (h : id' = id.later k) (hi : id.interval = i) (hi' : id'.interval = i + k) :
    Later k i (continuous id low up) (continuous id' low up) := ⟨h, rfl, rfl, rfl, hi, hi'⟩

theorem later_binary {id id' : VarId} (h : id' = id.later k) (hi : id.interval = i) (hi' : id'.interval = i + k) :
    Later k i (binary id) (binary id') := ⟨h, rfl, rfl, rfl, hi, hi'⟩

/-- Settles that the variables of one object are those of another one `k` intervals earlier. -/
macro "later" : tactic => `(tactic| first | exact later_continuous rfl rfl rfl | exact later_binary rfl rfl rfl)

theorem site_later {s t : Site} (h : t.PartOf k s) (i : Nat) :
    OneInterval.Rel (Later k i) (.site (t.oneInterval i)) (.site (s.oneInterval (i + k))) ∧
    Later k i (t.oneInterval i).importPower (s.oneInterval (i + k)).importPower ∧
    Later k i (t.oneInterval i).exportPower (s.oneInterval (i + k)).exportPower ∧
    Later k i (t.oneInterval i).importBin (s.oneInterval (i + k)).importBin ∧
    Later k i (t.oneInterval i).exportBin (s.oneInterval (i + k)).exportBin := by
  have e1 : Later k i (t.oneInterval i).importPower (s.oneInterval (i + k)).importPower := by
    simp only [Site.oneInterval, h.freq, h.importLimit]; later
  have e2 : Later k i (t.oneInterval i).exportPower (s.oneInterval (i + k)).exportPower := by
    simp only [Site.oneInterval, h.freq, h.exportLimit]; later
  have e3 : Later k i (t.oneInterval i).importBin (s.oneInterval (i + k)).importBin := by simp only [Site.oneInterval]; later
  have e4 : Later k i (t.oneInterval i).exportBin (s.oneInterval (i + k)).exportBin := by simp only [Site.oneInterval]; later
  refine ⟨rel_of rfl rfl ?_ ?_, e1, e2, e3, e4⟩
  · intro attr
    refine get?_rel ?_ ?_ ?_ ?_ ?_ ?_ ?_ ?_ ?_ ?_ attr <;> exact .same rfl
  · intro attr ha
    simp only [limitAttrs, List.mem_cons, List.not_mem_nil, or_false, not_or] at ha
    simp only [OneInterval.extra?, ha.1, ha.2, if_false]
    split_ifs
    · exact .some (.var e1)
    · exact .some (.var e2)
    · exact .some (.var e3)
    · exact .some (.var e4)
    · exact .none

theorem asset_later {m : Nat} {a a' : Asset} (h : Asset.PartOf k m a a') {f : Freq} {flags : Flags} {i : Nat} (hi : i < m)
    (hb : a.Buildable i) (hb' : a'.Buildable (i + k)) :
    List.Forall₂ (OneInterval.Rel (Later k i)) (a.ois i f flags) (a'.ois (i + k) f flags) := by
  cases h with
  | battery =>
    refine .cons (rel_of rfl rfl ?_ ?_) .nil
    · intro attr
      refine get?_rel ?_ ?_ ?_ ?_ ?_ ?_ ?_ ?_ ?_ ?_ attr
      all_goals first | exact .same rfl | exact .var (by simp only [BatteryCfg.oneInterval]; later)
    · intro attr _
      simp only [OneInterval.extra?, BatteryCfg.oneInterval]
      split_ifs
      all_goals first | exact .none | exact .some (.same rfl) | exact .some (.var (by later))
  | boiler =>
    refine .cons (rel_of rfl rfl ?_ fun _ _ => .none) .nil
    intro attr
    refine get?_rel ?_ ?_ ?_ ?_ ?_ ?_ ?_ ?_ ?_ ?_ attr
    all_goals first | exact .same rfl | exact .var (by simp only [BoilerCfg.oneInterval]; later)
  | chp =>
    refine .cons (rel_of rfl rfl ?_ fun _ _ => .none) .nil
    intro attr
    refine get?_rel ?_ ?_ ?_ ?_ ?_ ?_ ?_ ?_ ?_ ?_ attr
    all_goals first | exact .same rfl | exact .var (by simp only [ChpCfg.oneInterval]; later)
  | heatPump =>
    refine .cons (rel_of rfl rfl ?_ ?_) .nil
    · intro attr
      refine get?_rel ?_ ?_ ?_ ?_ ?_ ?_ ?_ ?_ ?_ ?_ attr
      all_goals first | exact .same rfl | exact .var (by simp only [HeatPumpCfg.oneInterval]; later)
    · intro attr _
      simp only [OneInterval.extra?, HeatPumpCfg.oneInterval]
      split_ifs
      all_goals first | exact .none | exact .some (.var (by later))
  | renewable h1 h2 h3 =>
    rename_i c c'
    have e : (Asset.renewable c').ois i f flags = [.renewable (c'.oi i)] := by
      simp only [Asset.ois, Asset.oneInterval, renewable_oi hb.1 hb.2, ok_bind]
    have e' : (Asset.renewable c).ois (i + k) f flags = [.renewable (c.oi (i + k))] := by
      simp only [Asset.ois, Asset.oneInterval, renewable_oi hb'.1 hb'.2, ok_bind]
    rw [e, e']
    refine .cons (rel_of rfl h1 ?_ fun _ _ => .none) .nil
    intro attr
    refine get?_rel ?_ ?_ ?_ ?_ ?_ ?_ ?_ ?_ ?_ ?_ attr
    all_goals first | exact .same rfl | exact .var (by simp only [RenewableCfg.oi, h1, h2, h3 i hi]; later)
  | spill =>
    refine .cons (rel_of rfl rfl ?_ fun _ _ => .none) .nil
    intro attr
    refine get?_rel ?_ ?_ ?_ ?_ ?_ ?_ ?_ ?_ ?_ ?_ attr
    all_goals first | exact .same rfl | exact .var (by simp only [SpillCfg.oneInterval]; later)
  | valve =>
    refine .cons (rel_of rfl rfl ?_ fun _ _ => .none) .nil
    intro attr
    refine get?_rel ?_ ?_ ?_ ?_ ?_ ?_ ?_ ?_ ?_ ?_ attr
    all_goals first | exact .same rfl | exact .var (by simp only [ValveCfg.oneInterval]; later)

end

/-! ### What belongs to one interval -/

/-- The constraints of an asset in one interval that do not look back to the interval before. -/
def Asset.innerList (a : Asset) (i : Nat) (f : Freq) (flags : Flags) : List Con :=
  match a with
  | .battery c => constrainOnlyChargeOrDischarge (c.oneInterval i f) ++ constrainBatteryElectricityBalance (c.oneInterval i f)
  | a => a.withinList i f flags

/-- The constraint that a custom constraint adds in one interval. -/
def Site.CustomCon (s : Site) (flags : Flags) (i : Nat) (con : Con) : Prop :=
  ∃ c ∈ s.constraints, ∃ ls rs, addTerms s.data (s.ivarsTo flags s.data.n) i false c.lhs = .ok ls ∧
    addTerms s.data (s.ivarsTo flags s.data.n) i false c.rhs = .ok rs ∧ con = ⟨Expr.sum ls - Expr.sum rs, c.sense⟩

/-- What an assignment must satisfy in one interval. -/
structure Site.LocalOk (s : Site) (flags : Flags) (name : String) (i : Nat) (σ : Assign) : Prop where
  site : ∀ c ∈ s.siteList flags i, c.Good σ
  asset : ∀ a ∈ s.assets, ∀ c ∈ a.innerList i s.freq flags, c.Good σ
  custom : ∀ c, s.CustomCon flags i c → c.Good σ
  objective : ∀ o ∈ s.ones flags i, ∀ t ∈ strTermsOf s.data name i o, ∀ v ∈ t.vars, v.InBounds σ

/-- How the batteries tie the intervals together, and where they start and end. -/
structure Site.Tied (s : Site) (σ : Assign) : Prop where
  link : ∀ c, Asset.battery c ∈ s.assets → ∀ i, i + 1 < s.data.n →
    σ (.asset c.name "electric_final_charge_mwh" i) = σ (.asset c.name "electric_initial_charge_mwh" (i + 1))
  start : ∀ c, Asset.battery c ∈ s.assets → σ (.asset c.name "electric_initial_charge_mwh" 0) = c.initialCharge
  stop : ∀ c, Asset.battery c ∈ s.assets → σ (.asset c.name "electric_final_charge_mwh" (s.data.n - 1)) = c.finalCharge

/-- Without aggregation, the constraints are those of the intervals. -/
theorem customLoop_list {d : SiteData} {iv : IVars} {c : Constraint} (hc : c.sumAgg = false) {is : List Nat} {cs : List Con} {l r : List Expr}
    (h : customLoop d iv c is [] [] = .ok (cs, l, r)) (con : Con) :
    con ∈ cs ↔ ∃ i ∈ is, ∃ ls rs, addTerms d iv i false c.lhs = .ok ls ∧ addTerms d iv i false c.rhs = .ok rs ∧
      con = ⟨Expr.sum ls - Expr.sum rs, c.sense⟩ := by
  induction is generalizing cs l r with
  | nil =>
    simp only [customLoop, Except.ok.injEq, Prod.mk.injEq] at h
    obtain ⟨rfl, -, -⟩ := h
    simp
  | cons i is ih =>
    simp only [customLoop, hc, Bool.false_eq_true, if_false, List.nil_append, bind_ok, Prod.exists, Except.ok.injEq,
      Prod.mk.injEq] at h
    obtain ⟨ls, hl, rs, hr, _, _, _, _, cs', l', r', hrec, rfl, rfl, rfl⟩ := h
    rw [List.mem_cons, ih hrec]
    simp only [List.exists_mem_cons_iff, hl, hr, Except.ok.injEq]
    constructor
    · rintro (rfl | h)
      · exact .inl ⟨_, _, rfl, rfl, rfl⟩
      · exact .inr h
    · rintro (⟨_, _, rfl, rfl, rfl⟩ | h)
      · exact .inl rfl
      · exact .inr h

section
variable {s : Site} {name : String} {flags : Flags} {iv : IVars} {p : Prob} {σ τ : Assign}

theorem custom_mem (h : Prog s (.str name) flags iv p) (hs : s.Steady) {custom : List Con}
    (hcu : flatMapE (addCustomConstraint s.data iv) s.constraints = .ok custom) (con : Con) :
    con ∈ custom ↔ ∃ i < s.data.n, s.CustomCon flags i con := by
  rw [flatMapE_mem hcu]
  unfold Site.CustomCon
  rw [← h.iv_eq]
  constructor
  · rintro ⟨c, hc, cs, hcs, hm⟩
    have hagg := (hs.constraints c hc).1
    simp only [addCustomConstraint, bind_ok, Prod.exists, hagg, Bool.false_eq_true, if_false, Except.ok.injEq] at hcs
    obtain ⟨cs', l, r, hl, rfl⟩ := hcs
    obtain ⟨i, hi, ls, rs, e⟩ := (customLoop_list hagg hl con).1 hm
    exact ⟨i, List.mem_range.1 hi, c, hc, ls, rs, e⟩
  · rintro ⟨i, hi, c, hc, ls, rs, e⟩
    obtain ⟨cs, hcs⟩ := flatMapE_all_ok hcu hc
    refine ⟨c, hc, cs, hcs, ?_⟩
    have hagg := (hs.constraints c hc).1
    simp only [addCustomConstraint, bind_ok, Prod.exists, hagg, Bool.false_eq_true, if_false, Except.ok.injEq] at hcs
    obtain ⟨cs', l, r, hl, rfl⟩ := hcs
    exact (customLoop_list hagg hl con).2 ⟨i, List.mem_range.2 hi, ls, rs, e⟩

/-- The variables of the charges of a battery are bounded by its balance. -/
theorem charges_bounded {c : BatteryCfg} {i : Nat} {f : Freq} {flags : Flags} (h : ∀ x ∈ (Asset.battery c).innerList i f flags, x.Good σ) :
    (c.oneInterval i f).initial.InBounds σ ∧ (c.oneInterval i f).final.InBounds σ := by
  have := h ((Expr.var (c.oneInterval i f).initial + .var (c.oneInterval i f).charge - .var (c.oneInterval i f).discharge -
    .var (c.oneInterval i f).loss).eqC (.var (c.oneInterval i f).final))
    (by simp [Asset.innerList, constrainBatteryElectricityBalance])
  refine ⟨this.2 _ ?_, this.2 _ ?_⟩ <;> simp [Expr.eqC]

/-- The feasible assignments are those that fit every interval and are tied together by the batteries. -/
theorem steady_feasible (h : Prog s (.str name) flags iv p) (hs : s.Steady) (h0 : 0 < s.data.n) :
    p.Feasible σ ↔ (∀ i < s.data.n, s.LocalOk flags name i σ) ∧ s.Tied σ := by
  have hcons : ∀ c, c ∈ p.cons ↔ s.BaseCon flags c ∨ ∃ i < s.data.n, s.CustomCon flags i c := by
    obtain ⟨base, custom, objCons, hb, hcu, ho, he⟩ := h.built
    intro c
    rw [he, (str_objective ho).1, List.append_nil, List.mem_append, hb.mem_iff, custom_mem h hs hcu]
  have hobj := plain_obj h
  rw [feasible_iff]
  constructor
  · rintro ⟨h1, h2⟩
    have hg : ∀ c, s.BaseCon flags c → c.Good σ := fun c hc => h1 c ((hcons c).2 (.inl hc))
    have hin : ∀ i < s.data.n, ∀ a ∈ s.assets, ∀ c ∈ a.innerList i s.freq flags, c.Good σ := by
      intro i hi a ha c hc
      refine hg c (.inr (.inl ⟨i, hi, a, ha, ?_⟩))
      cases a with
      | battery c' => exact List.mem_append_left _ hc
      | _ => exact hc
    refine ⟨fun i hi => ⟨fun c hc => hg c (.inl ⟨i, hi, hc⟩), hin i hi, fun c hc => h1 c ((hcons c).2 (.inr ⟨i, hi, hc⟩)), ?_⟩, ?_, ?_, ?_⟩
    · intro o ho t ht v hv
      exact h2 v ((hobj v).2 ⟨i, hi, o, ho, t, ht, hv⟩)
    · intro c hc i hi
      have := hg ((Expr.var (c.oneInterval i s.freq).final).eqC (.var (c.oneInterval (i + 1) s.freq).initial))
        (.inr (.inl ⟨i + 1, hi, _, hc, by simp [Asset.withinList, BatteryCfg.withinList]⟩))
      have := (eqC_holds _ _ _).1 this.1
      rw [Expr.eval_var, Expr.eval_var] at this
      exact this
    · intro c hc
      have := hg ((Expr.var (c.oneInterval 0 s.freq).initial).eqC (.num c.initialCharge))
        (.inr (.inr ⟨_, hc, by simp [Asset.afterList, BatteryCfg.afterList]⟩))
      have := (eqC_holds _ _ _).1 this.1
      rw [Expr.eval_var, Expr.eval_num] at this
      exact this
    · intro c hc
      have := hg ((Expr.var (c.oneInterval (s.data.n - 1) s.freq).final).eqC (.num c.finalCharge))
        (.inr (.inr ⟨_, hc, by simp [Asset.afterList, BatteryCfg.afterList]⟩))
      have := (eqC_holds _ _ _).1 this.1
      rw [Expr.eval_var, Expr.eval_num] at this
      exact this
  · rintro ⟨h1, h2⟩
    refine ⟨fun c hc => ?_, fun v hv => ?_⟩
    · rcases (hcons c).1 hc with (⟨i, hi, hc⟩ | ⟨i, hi, a, ha, hc⟩ | ⟨a, ha, hc⟩) | ⟨i, hi, hc⟩
      · exact (h1 i hi).site c hc
      · have hin := (h1 i hi).asset a ha
        cases a with
        | battery c' =>
          rcases List.mem_append.1 hc with hc | hc
          · exact hin c hc
          · by_cases hi0 : i = 0
            · rw [if_pos hi0] at hc; simp at hc
            · rw [if_neg hi0, List.mem_singleton] at hc
              obtain ⟨j, rfl⟩ : ∃ j, i = j + 1 := ⟨i - 1, by omega⟩
              subst hc
              refine good ?_ (Expr.Over.eqC (.var (charges_bounded ((h1 j (by omega)).asset _ ha)).2) (.var (charges_bounded hin).1))
              rw [eqC_holds, Expr.eval_var, Expr.eval_var]
              exact h2.link c' ha j hi
        | _ => exact hin c hc
      · cases a with
        | battery c' =>
          simp only [Asset.afterList, BatteryCfg.afterList, List.mem_cons, List.not_mem_nil, or_false] at hc
          rcases hc with rfl | rfl
          · refine good ?_ (Expr.Over.eqC (.var (charges_bounded ((h1 0 h0).asset _ ha)).1) (.num _))
            rw [eqC_holds, Expr.eval_var, Expr.eval_num]
            exact h2.start c' ha
          · refine good ?_ (Expr.Over.eqC (.var (charges_bounded ((h1 (s.data.n - 1) (by omega)).asset _ ha)).2) (.num _))
            rw [eqC_holds, Expr.eval_var, Expr.eval_num]
            exact h2.stop c' ha
        | evs c' => exact absurd ha (hs.noEvs c')
        | _ => simp [Asset.afterList] at hc
      · exact (h1 i hi).custom c hc
    · obtain ⟨i, hi, o, ho, t, ht, hv⟩ := (hobj v).1 hv
      exact (h1 i hi).objective o ho t ht v hv

end

/-! ### One interval of a part -/

section
variable {k i : Nat} {s t : Site} {name : String} {flags : Flags} {iv iv' : IVars} {p p' : Prob} {σ τ : Assign}

theorem forall₂_flatMap_assets {m : Nat} {l l' : List Asset} (h : List.Forall₂ (Asset.PartOf k m) l l') {f : Freq} (hi : i < m)
    (hb : ∀ a ∈ l, a.Buildable i) (hb' : ∀ a ∈ l', a.Buildable (i + k)) :
    List.Forall₂ (OneInterval.Rel (Later k i)) (l.flatMap (fun a => a.ois i f flags)) (l'.flatMap (fun a => a.ois (i + k) f flags)) := by
  induction h with
  | nil => exact .nil
  | cons hx _ ih =>
    simp only [List.flatMap_cons]
    rw [List.forall_mem_cons] at hb hb'
    exact forall₂_append (asset_later hx hi hb.1 hb'.1) (ih hb.2 hb'.2)

theorem ones_later (h : t.PartOf k s) (ht : Prog t (.str name) flags iv' p') (hs : Prog s (.str name) flags iv p) (hi : i < t.data.n) :
    List.Forall₂ (OneInterval.Rel (Later k i)) (t.ones flags i) (s.ones flags (i + k)) := by
  have hik : i + k < s.data.n := by have := h.fits; omega
  rw [ones_eq ht.vars hi, ones_eq hs.vars hik, h.freq]
  exact .cons (site_later h i).1 (forall₂_flatMap_assets h.assets hi (fun a ha => ht.buildable hi ha) fun a ha => hs.buildable hik ha)

theorem siteList_later (h : t.PartOf k s) (ht : Prog t (.str name) flags iv' p') (hs : Prog s (.str name) flags iv p) (hi : i < t.data.n) :
    List.Forall₂ (Con.Rel (Later k i)) (t.siteList flags i) (s.siteList flags (i + k)) := by
  have ho := ones_later h ht hs hi
  obtain ⟨_, e1, e2, e3, e4⟩ := site_later h i
  have l1 : (t.oneInterval i).importLimit = (s.oneInterval (i + k)).importLimit := by simp only [Site.oneInterval, h.freq, h.importLimit]
  have l2 : (t.oneInterval i).exportLimit = (s.oneInterval (i + k)).exportLimit := by simp only [Site.oneInterval, h.freq, h.exportLimit]
  simp only [Site.siteList, Site.withinList, h.electricLoad i hi, h.htLoad i hi, h.ltLoad i hi, h.ltGeneration i hi, l1, l2]
  have n := fun q => Expr.Rel.num (R := Later k i) q
  have q1 := sumOver_rel (q := Base.electricGeneration) (fun b b' hb => hb.electricGeneration) ho
  have q2 := sumOver_rel (q := Base.htGeneration) (fun b b' hb => hb.htGeneration) ho
  have q3 := sumOver_rel (q := Base.ltGeneration) (fun b b' hb => hb.ltGeneration) ho
  have q4 := sumOver_rel (q := Base.electricLoad) (fun b b' hb => hb.electricLoad) ho
  have q5 := sumOver_rel (q := Base.htLoad) (fun b b' hb => hb.htLoad) ho
  have q6 := sumOver_rel (q := Base.ltLoad) (fun b b' hb => hb.ltLoad) ho
  have q7 := sumOver_rel (q := Base.electricCharge) (fun b b' hb => hb.electricCharge) ho
  have q8 := sumOver_rel (q := Base.electricDischarge) (fun b b' hb => hb.electricDischarge) ho
  exact .cons (Expr.Rel.eqC (.add (.sub (.sub (.add (.sub (.sub (.var e1) (.var e2)) (n _)) q1) q4) q7) q8) (n _))
    (.cons (Expr.Rel.leC (.sub (.var e1) (.mul (.var e3) _)) (n _)) (.cons (Expr.Rel.leC (.sub (.var e2) (.mul (.var e4) _)) (n _))
    (.cons (Expr.Rel.eqC (.add (.var e3) (.var e4)) (n _)) (.cons (Expr.Rel.eqC (.sub (.sub q2 q5) (n _)) (n _))
    (.cons (Expr.Rel.eqC (.add (.sub (.sub q3 q6) (n _)) (n _)) (n _)) .nil)))))

theorem max_later {x b x' b' : LpVar} {m : ℚ} (hx : Later k i x x') (hb : Later k i b b') :
    Con.Rel (Later k i) (constrainMax (.var x) (.var b) m) (constrainMax (.var x') (.var b') m) :=
  Expr.Rel.leC (.sub (.var hx) (.mul (.var hb) _)) (.num _)

theorem min_later {x b x' b' : LpVar} {m : ℚ} (hx : Later k i x x') (hb : Later k i b b') :
    Con.Rel (Later k i) (constrainMin (.var x) (.var b) m) (constrainMin (.var x') (.var b') m) :=
  Expr.Rel.leC (.add (.neg (.var hx)) (.mul (.var hb) _)) (.num _)

theorem inner_later {m : Nat} {a a' : Asset} (h : Asset.PartOf k m a a') (f : Freq) (flags : Flags) (i : Nat) :
    List.Forall₂ (Con.Rel (Later k i)) (a.innerList i f flags) (a'.innerList (i + k) f flags) := by
  cases h with
  | battery =>
    rename_i c start stop
    simp only [Asset.innerList, constrainOnlyChargeOrDischarge, constrainBatteryElectricityBalance, List.cons_append, List.nil_append]
    exact .cons (max_later (by later) (by later)) (.cons (max_later (by later) (by later))
      (.cons (Expr.Rel.leC (.add (.var (by later)) (.var (by later))) (.num _))
      (.cons (Expr.Rel.eqC (.sub (.sub (.add (.var (by later)) (.var (by later))) (.var (by later))) (.var (by later))) (.var (by later)))
      (.cons (Expr.Rel.eqC (.var (by later)) (.mul (.var (by later)) _)) .nil))))
  | boiler =>
    exact .cons (Expr.Rel.eqC (.var (by later)) (.mul (.var (by later)) _)) (.cons (max_later (by later) (by later))
      (.cons (min_later (by later) (by later)) .nil))
  | chp =>
    rename_i c
    simp only [Asset.innerList, Asset.withinList, ChpCfg.withinList]
    refine forall₂_append ?_ ?_
    · split_ifs
      · exact .cons (Expr.Rel.eqC (.var (by later)) (.mul (.var (by later)) _)) .nil
      · exact .nil
    · exact .cons (Expr.Rel.eqC (.var (by later)) (.mul (.var (by later)) _)) (.cons (Expr.Rel.eqC (.var (by later)) (.mul (.var (by later)) _))
        (.cons (max_later (by later) (by later)) (.cons (min_later (by later) (by later)) .nil)))
  | heatPump =>
    exact .cons (max_later (by later) (by later)) (.cons (Expr.Rel.eqC (.var (by later)) (.mul (.var (by later)) _))
      (.cons (Expr.Rel.eqC (.add (.var (by later)) (.var (by later))) (.var (by later))) .nil))
  | renewable => exact .nil
  | spill => exact .nil
  | valve => exact .cons (Expr.Rel.eqC (.var (by later)) (.var (by later))) .nil

/-! custom constraints -/

theorem getD_ivarsTo (s : Site) (flags : Flags) {n i : Nat} (hi : i < n) : (s.ivarsTo flags n).getD i [] = s.ones flags i := by
  have := pyIndex_nat.1 (ivarsTo_index s flags hi)
  simp [List.getD_eq_getElem?_getD, this]

theorem filterStr_later (h : t.PartOf k s) (ht : Prog t (.str name) flags iv' p') (hs : Prog s (.str name) flags iv p) (hi : i < t.data.n)
    {kind aname : Option String} {l : List OneInterval} (hl : (t.ivarsTo flags t.data.n).filterStr i kind aname = .ok l) :
    ∃ l', (s.ivarsTo flags s.data.n).filterStr ((i + k : Nat) : Int) kind aname = .ok l' ∧ List.Forall₂ (OneInterval.Rel (Later k i)) l l' := by
  have hik : i + k < s.data.n := by have := h.fits; omega
  have ho := ones_later h ht hs hi
  have base : ∀ (kd : Option Kind) {l : List OneInterval}, (t.ivarsTo flags t.data.n).filter i kd aname = .ok l →
      ∃ l', (s.ivarsTo flags s.data.n).filter ((i + k : Nat) : Int) kd aname = .ok l' ∧ List.Forall₂ (OneInterval.Rel (Later k i)) l l' := by
    intro kd l hl
    unfold IVars.filter at hl ⊢
    rw [ivarsTo_index t flags hi, ok_bind, Except.ok.injEq] at hl
    subst hl
    rw [ivarsTo_index s flags hik, ok_bind]
    exact ⟨_, rfl, forall₂_filter (fun a b hab => by simp only [matchesFilter, hab.kind, hab.name]) ho⟩
  unfold IVars.filterStr at hl ⊢
  cases kind with
  | none => exact base none hl
  | some ty =>
    simp only at hl ⊢
    rw [bind_ok] at hl
    obtain ⟨kd, hk, hl⟩ := hl
    rw [hk]
    exact base _ hl

theorem addTerms_later (h : t.PartOf k s) (ht : Prog t (.str name) flags iv' p') (hs : Prog s (.str name) flags iv p) (hi : i < t.data.n)
    {side : CSide} (hside : ∀ e, CEntry.term e ∈ side.entries → e.intervalData ≠ some "idx" ∧ e.attr ≠ "import_limit_mwh" ∧ e.attr ≠ "export_limit_mwh")
    {es : List Expr} (he : addTerms t.data (t.ivarsTo flags t.data.n) i false side = .ok es) :
    ∃ es', addTerms s.data (s.ivarsTo flags s.data.n) (i + k) false side = .ok es' ∧ List.Forall₂ (Expr.Rel (Later k i)) es es' := by
  unfold addTerms at he ⊢
  have hsame : List.Forall₂ (fun (a b : CEntry) => a = b ∧ a ∈ side.entries) side.entries side.entries := forall₂_same fun a ha => ⟨rfl, ha⟩
  refine flatMapE_rel hsame (fun a b hab l hl => ?_) he
  obtain ⟨rfl, hm⟩ := hab
  cases a with
  | num q =>
    simp only [resolveConstraintTerm, Except.ok.injEq, Bool.false_eq_true, if_false] at hl ⊢
    subst hl
    exact ⟨_, rfl, .cons (.num _) .nil⟩
  | term e =>
    obtain ⟨h1, h2, h3⟩ := hside e hm
    have hat : e.attr ∉ limitAttrs := by simp [limitAttrs, h2, h3]
    simp only [resolveConstraintTerm] at hl ⊢
    rw [bind_ok] at hl
    obtain ⟨x, hx, hl⟩ := hl
    obtain ⟨x', h4, h5⟩ := filterStr_later h ht hs hi hx
    rw [h4]
    simp only [ok_bind]
    cases hd : e.intervalData with
    | none =>
      simp only [hd] at hl
      exact getattr_rel (d := .ok 1) hat h5 hl
    | some dn =>
      simp only [hd] at hl
      rw [h.named i hi dn (fun e' => h1 (by rw [hd, e']))] at hl
      exact getattr_rel (d := s.data.at dn (i + k)) hat h5 hl

/-- The constraints of both sites are the same, so they can be built for both. -/
theorem addTerms_exists (hs : Prog s (.str name) flags iv p) (hst : s.Steady) {c : Constraint} (hc : c ∈ s.constraints) (hi : i < s.data.n) :
    ∃ ls rs, addTerms s.data (s.ivarsTo flags s.data.n) i false c.lhs = .ok ls ∧
      addTerms s.data (s.ivarsTo flags s.data.n) i false c.rhs = .ok rs := by
  obtain ⟨base, custom, objCons, hb, hcu, ho, he⟩ := hs.built
  obtain ⟨cs, hcs⟩ := flatMapE_all_ok hcu hc
  have hagg := (hst.constraints c hc).1
  simp only [addCustomConstraint, bind_ok, Prod.exists, hagg, Bool.false_eq_true, if_false, Except.ok.injEq] at hcs
  obtain ⟨cs', l, r, hl, rfl⟩ := hcs
  rw [← hs.iv_eq]
  have key : ∀ (is : List Nat) (cs' : List Con) (l r : List Expr), customLoop s.data iv c is [] [] = .ok (cs', l, r) → i ∈ is →
      ∃ ls rs, addTerms s.data iv i false c.lhs = .ok ls ∧ addTerms s.data iv i false c.rhs = .ok rs := by
    intro is
    induction is with
    | nil => intro _ _ _ _ hi; simp at hi
    | cons j is ih =>
      intro cs' l r h hm
      simp only [customLoop, hagg, Bool.false_eq_true, if_false, List.nil_append, bind_ok, Prod.exists] at h
      obtain ⟨ls, hl, rs, hr, _, _, _, _, cs2, l', r', hrec, _⟩ := h
      rcases List.mem_cons.1 hm with rfl | hm
      · exact ⟨ls, rs, hl, hr⟩
      · exact ih _ _ _ hrec hm
  exact key _ _ _ _ hl (List.mem_range.2 hi)

theorem custom_later (h : t.PartOf k s) (ht : Prog t (.str name) flags iv' p') (hs : Prog s (.str name) flags iv p) (hst : s.Steady) (htt : t.Steady)
    (hi : i < t.data.n) (e : Carries k i τ σ) : (∀ c, t.CustomCon flags i c → c.Good τ) ↔ ∀ c, s.CustomCon flags (i + k) c → c.Good σ := by
  have side : ∀ c ∈ s.constraints, ∀ {ls rs : List Expr}, addTerms t.data (t.ivarsTo flags t.data.n) i false c.lhs = .ok ls →
      addTerms t.data (t.ivarsTo flags t.data.n) i false c.rhs = .ok rs →
      ∃ ls' rs', addTerms s.data (s.ivarsTo flags s.data.n) (i + k) false c.lhs = .ok ls' ∧
        addTerms s.data (s.ivarsTo flags s.data.n) (i + k) false c.rhs = .ok rs' ∧
        ((⟨Expr.sum ls - Expr.sum rs, c.sense⟩ : Con).Good τ ↔ (⟨Expr.sum ls' - Expr.sum rs', c.sense⟩ : Con).Good σ) := by
    intro c hc ls rs hl hr
    have hsd := (hst.constraints c hc).2
    obtain ⟨ls', e1, r1⟩ := addTerms_later h ht hs hi (hsd c.lhs (by simp)) hl
    obtain ⟨rs', e2, r2⟩ := addTerms_later h ht hs hi (hsd c.rhs (by simp)) hr
    exact ⟨ls', rs', e1, e2, later_good ⟨rfl, .sub (.sum r1) (.sum r2)⟩ e⟩
  constructor
  · rintro hg _ ⟨c, hc, ls, rs, hl, hr, rfl⟩
    have hct : c ∈ t.constraints := by rw [h.constraints]; exact hc
    obtain ⟨ls0, rs0, h1, h2⟩ := addTerms_exists ht htt hct hi
    obtain ⟨ls', rs', e1, e2, hiff⟩ := side c hc h1 h2
    rw [hl] at e1
    rw [hr] at e2
    cases e1
    cases e2
    exact hiff.1 (hg _ ⟨c, hct, ls0, rs0, h1, h2, rfl⟩)
  · rintro hg _ ⟨c, hc, ls, rs, hl, hr, rfl⟩
    rw [h.constraints] at hc
    obtain ⟨ls', rs', e1, e2, hiff⟩ := side c hc hl hr
    exact hiff.2 (hg _ ⟨c, hc, ls', rs', e1, e2, rfl⟩)

/-! the objective -/

theorem terms_later (h : t.PartOf k s) (hi : i < t.data.n) {o o' : OneInterval} (ho : OneInterval.Rel (Later k i) o o') :
    List.Forall₂ (Expr.Rel (Later k i)) (strTermsOf t.data name i o) (strTermsOf s.data name (i + k) o') := by
  have hb := ho.base
  have hk := ho.kind
  have z : ∀ {v w : Val} (q : ℚ), Val.Rel (Later k i) v w → (v.toExpr * q).Rel (Later k i) (w.toExpr * q) := fun q hv => .mul hv.toExpr q
  have sp : (carbonSpillTerm o.base).Rel (Later k i) (carbonSpillTerm o'.base) := carbonSpill_rel hb
  unfold strTermsOf
  split
  · cases o <;> cases o' <;> simp only [OneInterval.kind, reduceCtorEq] at hk <;>
      simp only [priceTermsOf, h.electricityPrices i hi, h.exportElectricityPrices i hi, h.gasPrices i hi]
    all_goals first
      | exact .nil
      | exact .cons (.sub (.mul (.var (site_rel ho).1) _) (.mul (.var (site_rel ho).2) _)) .nil
      | exact .cons (z _ hb.gasConsumption) .nil
      | exact .cons (.add (z _ hb.electricCharge) (z _ hb.electricDischarge)) .nil
      | exact .cons (.add (.add (.add (z _ hb.electricGeneration) (z _ hb.htGeneration)) (z _ hb.electricLoad)) (z _ hb.htLoad)) .nil
  · cases o <;> cases o' <;> simp only [OneInterval.kind, reduceCtorEq] at hk <;>
      simp only [carbonTermsOf, h.electricityCarbonIntensities i hi]
    all_goals first
      | exact .nil
      | exact .cons (.sub (.mul (.var (site_rel ho).1) _) (.mul (.var (site_rel ho).2) _)) .nil
      | exact .cons (z _ hb.gasConsumption) .nil
      | exact .cons sp .nil

theorem objective_later (h : t.PartOf k s) (hi : i < t.data.n) {l l' : List OneInterval} (ho : List.Forall₂ (OneInterval.Rel (Later k i)) l l')
    (e : Carries k i τ σ) :
    (∀ o ∈ l, ∀ x ∈ strTermsOf t.data name i o, ∀ v ∈ x.vars, v.InBounds τ) ↔
    ∀ o ∈ l', ∀ x ∈ strTermsOf s.data name (i + k) o, ∀ v ∈ x.vars, v.InBounds σ := by
  induction ho with
  | nil => simp
  | cons hx _ ih =>
    simp only [List.forall_mem_cons]
    rw [ih]
    refine and_congr_left fun _ => ?_
    have := terms_later (name := name) h hi hx
    generalize strTermsOf t.data name i _ = a at this
    generalize strTermsOf s.data name (i + k) _ = b at this
    induction this with
    | nil => simp
    | cons hy _ ih2 => simp only [List.forall_mem_cons]; exact and_congr (later_vars hy e) ih2

theorem forall₂_inner {m : Nat} {l l' : List Asset} (h : List.Forall₂ (Asset.PartOf k m) l l') {f : Freq} (e : Carries k i τ σ) :
    (∀ a ∈ l, ∀ c ∈ a.innerList i f flags, c.Good τ) ↔ ∀ a ∈ l', ∀ c ∈ a.innerList (i + k) f flags, c.Good σ := by
  induction h with
  | nil => simp
  | cons hx _ ih =>
    simp only [List.forall_mem_cons]
    rw [ih, later_goods (inner_later hx f flags i) e]

/-- What an interval of a part requires is what the interval of the whole requires. -/
theorem localOk_later (h : t.PartOf k s) (ht : Prog t (.str name) flags iv' p') (hs : Prog s (.str name) flags iv p) (hst : s.Steady) (htt : t.Steady)
    (hi : i < t.data.n) (e : Carries k i τ σ) : t.LocalOk flags name i τ ↔ s.LocalOk flags name (i + k) σ := by
  have g1 := later_goods (siteList_later h ht hs hi) e
  have g2 := forall₂_inner (flags := flags) (f := s.freq) h.assets e
  have g3 := custom_later h ht hs hst htt hi e
  have g4 := objective_later (name := name) h hi (ones_later h ht hs hi) e
  rw [← h.freq] at g2
  have g2' := g2
  rw [h.freq] at g2'
  constructor
  · rintro ⟨a, b, c, d⟩
    exact ⟨g1.1 a, by rw [h.freq] at b; exact g2'.1 b, g3.1 c, g4.1 d⟩
  · rintro ⟨a, b, c, d⟩
    exact ⟨g1.2 a, by rw [h.freq]; exact g2'.2 b, g3.2 c, g4.2 d⟩

end

end EPL
