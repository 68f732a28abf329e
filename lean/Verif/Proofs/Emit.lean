/-
Extraction succeeds on the answer of a sound solver.
-/
import Verif.Proofs.Flows

namespace EPL

theorem mapE_exists {α β : Type} {f : α → Res β} {l : List α} (h : ∀ a ∈ l, ∃ b, f a = .ok b) : ∃ bs, mapE f l = .ok bs := by
  induction l with
  | nil => exact ⟨[], rfl⟩
  | cons a l ih =>
    obtain ⟨b, hb⟩ := h a (by simp)
    obtain ⟨bs, hbs⟩ := ih (fun x hx => h x (by simp [hx]))
    exact ⟨b :: bs, by simp [mapE, hb, hbs]⟩

theorem flatMapE_exists {α β : Type} {f : α → Res (List β)} {l : List α} (h : ∀ a ∈ l, ∃ b, f a = .ok b) :
    ∃ bs, flatMapE f l = .ok bs := by
  obtain ⟨bs, hbs⟩ := mapE_exists h
  exact ⟨bs.flatten, by simp [flatMapE, hbs]⟩

/-- A value the program knows: a number or one of its variables. -/
def Val.Known (p : Prob) : Val → Prop
  | .none => False
  | .num _ => True
  | .int _ => True
  | .var v => v ∈ p.vars

/-- A CHP whose gas variable occurs in a constraint. -/
def Asset.GasLinked : Asset → Prop
  | .chp c => 0 < c.electricEfficiency ∨ c.htEfficiency ≠ 0 ∨ c.ltEfficiency ≠ 0
  | _ => True

section
variable {s : Site} {objective : Objective} {flags : Flags} {p : Prob} {out : SolverOut} {σ : Assign}

theorem con_known {c : Con} (hc : c ∈ p.cons) (v : LpVar) (hv : v ∈ c.e.vars) : v ∈ p.vars := mem_prob_vars hc hv

theorem valuesOf_known (hS : ∀ v ∈ p.vars, out.value v.id = some (σ v.id)) {v : LpVar} (hv : v ∈ p.vars) :
    p.valuesOf out v.id = some (σ v.id) := by
  unfold Prob.valuesOf
  rw [if_pos (List.mem_map_of_mem hv), hS v hv]

theorem optimizerValue_known (hS : ∀ v ∈ p.vars, out.value v.id = some (σ v.id)) {x : Val} (hx : x.Known p) (clip : Bool) :
    ∃ q, optimizerValue (p.valuesOf out) clip x = .ok q := by
  cases x with
  | none => exact absurd hx id
  | num q => exact ⟨_, rfl⟩
  | int k => exact ⟨_, rfl⟩
  | var v =>
    have := valuesOf_known hS (v := v) hx
    exact ⟨_, by simp only [optimizerValue, this]; rfl⟩

theorem directValue_known (hS : ∀ v ∈ p.vars, out.value v.id = some (σ v.id)) {v : LpVar} (hv : v ∈ p.vars) :
    ∃ q, directValue (p.valuesOf out) (.var v) = .ok q :=
  ⟨_, by simp only [directValue, valuesOf_known hS hv]; rfl⟩

theorem sumValues_known (hS : ∀ v ∈ p.vars, out.value v.id = some (σ v.id)) {xs : List Val} (h : ∀ x ∈ xs, x.Known p) :
    ∃ q, sumValues (p.valuesOf out) xs = .ok q := by
  obtain ⟨qs, hqs⟩ := mapE_exists (fun x hx => optimizerValue_known hS (h x hx) false)
  exact ⟨qs.sum, by simp [sumValues, hqs]⟩

/-- Variables that occur as quantities of an object are variables of the program. -/
theorem base_known (hp : Prog s objective flags (s.ivarsTo flags s.data.n) p) {i : Nat} (hi : i < s.data.n)
    {o : OneInterval} (ho : o ∈ s.ones flags i) {v : LpVar}
    (hv : o.base.electricGeneration = .var v ∨ o.base.electricLoad = .var v ∨ o.base.electricCharge = .var v ∨
      o.base.electricDischarge = .var v ∨ o.base.htGeneration = .var v ∨ o.base.htLoad = .var v ∨ o.base.ltGeneration = .var v ∨
      o.base.ltLoad = .var v) : v ∈ p.vars := by
  have hcon : ∀ k ∈ s.siteList flags i, k ∈ p.cons := fun k hk => hp.site hi hk
  simp only [Site.siteList, Site.withinList, List.mem_cons, List.not_mem_nil, or_false, forall_eq_or_imp, forall_eq] at hcon
  obtain ⟨e1, _, _, _, e2, e3⟩ := hcon
  rcases hv with hv | hv | hv | hv | hv | hv | hv | hv
  · exact mem_prob_vars e1 (by simp [sumOver_vars (q := Base.electricGeneration) ho hv])
  · exact mem_prob_vars e1 (by simp [sumOver_vars (q := Base.electricLoad) ho hv])
  · exact mem_prob_vars e1 (by simp [sumOver_vars (q := Base.electricCharge) ho hv])
  · exact mem_prob_vars e1 (by simp [sumOver_vars (q := Base.electricDischarge) ho hv])
  · exact mem_prob_vars e2 (by simp [sumOver_vars (q := Base.htGeneration) ho hv])
  · exact mem_prob_vars e2 (by simp [sumOver_vars (q := Base.htLoad) ho hv])
  · exact mem_prob_vars e3 (by simp [sumOver_vars (q := Base.ltGeneration) ho hv])
  · exact mem_prob_vars e3 (by simp [sumOver_vars (q := Base.ltLoad) ho hv])

/-- The import and export variables are variables of the program. -/
theorem site_known (hp : Prog s objective flags (s.ivarsTo flags s.data.n) p) {i : Nat} (hi : i < s.data.n) :
    (s.oneInterval i).importPower ∈ p.vars ∧ (s.oneInterval i).exportPower ∈ p.vars := by
  have hcon : ∀ k ∈ s.siteList flags i, k ∈ p.cons := fun k hk => hp.site hi hk
  simp only [Site.siteList, Site.withinList, List.mem_cons, List.not_mem_nil, or_false, forall_eq_or_imp, forall_eq] at hcon
  exact ⟨mem_prob_vars hcon.1 (by simp), mem_prob_vars hcon.1 (by simp)⟩

/-- What an extracted attribute holds. -/
def AttrKnown (p : Prob) (x : OneInterval) (attr : String) : Prop :=
  ∃ v, x.getattr attr = .ok v ∧ v.Known p ∧ (x.kind = .chp ∨ x.kind = .boiler → v.isVar = true)

theorem attr_known (hp : Prog s objective flags (s.ivarsTo flags s.data.n) p) {i : Nat} (hi : i < s.data.n) {a : Asset}
    (ha : a ∈ s.assets) (hg : a.GasLinked) {x : OneInterval} (hx : x ∈ a.ois i s.freq flags) {attr : String} (hat : attr ∈ x.kind.cols) :
    AttrKnown p x attr := by
  have hone := ois_mem_ones hp ha hi hx
  have hcon : ∀ k ∈ a.withinList i s.freq flags, k ∈ p.cons := fun k hk => hp.asset hi ha hk
  cases a with
  | battery c =>
    simp only [ois_battery, List.mem_singleton] at hx
    subst hx
    have m3 := con_known (hcon ((Expr.var (c.oneInterval i s.freq).chargeBin + .var (c.oneInterval i s.freq).dischargeBin).leC (.num 1))
      (by simp [Asset.withinList, BatteryCfg.withinList, constrainOnlyChargeOrDischarge]))
    have m4 := con_known (hcon ((Expr.var (c.oneInterval i s.freq).initial + .var (c.oneInterval i s.freq).charge
      - .var (c.oneInterval i s.freq).discharge - .var (c.oneInterval i s.freq).loss).eqC (.var (c.oneInterval i s.freq).final))
      (by simp [Asset.withinList, BatteryCfg.withinList, constrainBatteryElectricityBalance]))
    simp only [OneInterval.kind, Kind.cols, batteryCols, List.mem_cons, List.not_mem_nil, or_false] at hat
    rcases hat with rfl | rfl | rfl | rfl | rfl | rfl | rfl
    · exact ⟨_, rfl, m4 ((c.oneInterval i s.freq).charge) (by simp), fun h => by simp [OneInterval.kind] at h⟩
    · exact ⟨_, rfl, m3 ((c.oneInterval i s.freq).chargeBin) (by simp), fun h => by simp [OneInterval.kind] at h⟩
    · exact ⟨_, rfl, m4 ((c.oneInterval i s.freq).discharge) (by simp), fun h => by simp [OneInterval.kind] at h⟩
    · exact ⟨_, rfl, m3 ((c.oneInterval i s.freq).dischargeBin) (by simp), fun h => by simp [OneInterval.kind] at h⟩
    · exact ⟨_, rfl, m4 ((c.oneInterval i s.freq).loss) (by simp), fun h => by simp [OneInterval.kind] at h⟩
    · exact ⟨_, rfl, m4 ((c.oneInterval i s.freq).initial) (by simp), fun h => by simp [OneInterval.kind] at h⟩
    · exact ⟨_, rfl, m4 ((c.oneInterval i s.freq).final) (by simp), fun h => by simp [OneInterval.kind] at h⟩
  | boiler c =>
    simp only [Asset.ois, Asset.oneInterval, List.mem_singleton] at hx
    subst hx
    have m1 := con_known (hcon ((Expr.var (c.oneInterval i s.freq).gas).eqC (Expr.var (c.oneInterval i s.freq).heat * (1 / c.efficiency)))
      (by simp [Asset.withinList, BoilerCfg.withinList]))
    simp only [OneInterval.kind, Kind.cols, boilerCols, List.mem_cons, List.not_mem_nil, or_false] at hat
    rcases hat with rfl | rfl
    · exact ⟨_, rfl, base_known hp hi hone (v := (c.oneInterval i s.freq).heat) (by simp [OneInterval.base]), fun _ => rfl⟩
    · exact ⟨_, rfl, m1 ((c.oneInterval i s.freq).gas) (by simp), fun _ => rfl⟩
  | chp c =>
    simp only [Asset.ois, Asset.oneInterval, List.mem_singleton] at hx
    subst hx
    simp only [OneInterval.kind, Kind.cols, chpCols, List.mem_cons, List.not_mem_nil, or_false] at hat
    rcases hat with rfl | rfl | rfl | rfl
    · exact ⟨_, rfl, base_known hp hi hone (v := (c.oneInterval i s.freq).electric) (by simp [OneInterval.base]), fun _ => rfl⟩
    · refine ⟨_, rfl, ?_, fun _ => rfl⟩
      show (c.oneInterval i s.freq).gas ∈ p.vars
      rcases hg with hg | hg | hg
      · exact mem_prob_vars (hcon ((Expr.var (c.oneInterval i s.freq).gas).eqC (Expr.var (c.oneInterval i s.freq).electric * (1 / c.electricEfficiency)))
          (by simp only [Asset.withinList, ChpCfg.withinList, if_pos hg]; simp)) (by simp)
      · exact mem_prob_vars (hcon ((Expr.var (c.oneInterval i s.freq).ht).eqC (Expr.var (c.oneInterval i s.freq).gas * c.htEfficiency))
          (by simp only [Asset.withinList, ChpCfg.withinList]; simp)) (by simp [Expr.vars_mul, hg])
      · exact mem_prob_vars (hcon ((Expr.var (c.oneInterval i s.freq).lt).eqC (Expr.var (c.oneInterval i s.freq).gas * c.ltEfficiency))
          (by simp only [Asset.withinList, ChpCfg.withinList]; simp)) (by simp [Expr.vars_mul, hg])
    · exact ⟨_, rfl, base_known hp hi hone (v := (c.oneInterval i s.freq).ht) (by simp [OneInterval.base]), fun _ => rfl⟩
    · exact ⟨_, rfl, base_known hp hi hone (v := (c.oneInterval i s.freq).lt) (by simp [OneInterval.base]), fun _ => rfl⟩
  | evs c =>
    have := (ois_name_kind hx).2
    simp only [Asset.kinds, List.mem_cons, List.not_mem_nil, or_false] at this
    rcases this with h | h <;> simp [h, Kind.cols] at hat
  | heatPump c =>
    simp only [Asset.ois, Asset.oneInterval, List.mem_singleton] at hx
    subst hx
    simp only [OneInterval.kind, Kind.cols, heatPumpCols, List.mem_cons, List.not_mem_nil, or_false] at hat
    rcases hat with rfl | rfl | rfl
    · exact ⟨_, rfl, base_known hp hi hone (v := (c.oneInterval i s.freq).load) (by simp [OneInterval.base]), fun h => by simp [OneInterval.kind] at h⟩
    · exact ⟨_, rfl, base_known hp hi hone (v := (c.oneInterval i s.freq).ltLoad) (by simp [OneInterval.base]), fun h => by simp [OneInterval.kind] at h⟩
    · exact ⟨_, rfl, base_known hp hi hone (v := (c.oneInterval i s.freq).ht) (by simp [OneInterval.base]), fun h => by simp [OneInterval.kind] at h⟩
  | renewable c =>
    rw [ois_renewable (hp.buildable hi ha), List.mem_singleton] at hx
    subst hx
    simp only [OneInterval.kind, Kind.cols, renewableCols, List.mem_cons, List.not_mem_nil, or_false] at hat
    subst hat
    exact ⟨_, rfl, base_known hp hi hone (v := (c.oi i).generation) (by simp [OneInterval.base]), fun h => by simp [OneInterval.kind] at h⟩
  | spill c =>
    simp only [Asset.ois, Asset.oneInterval, List.mem_singleton] at hx
    subst hx
    simp only [OneInterval.kind, Kind.cols, spillCols, List.mem_cons, List.not_mem_nil, or_false] at hat
    rcases hat with rfl | rfl | rfl | rfl | rfl | rfl | rfl
    · exact ⟨_, rfl, base_known hp hi hone (v := (c.oneInterval i).generation) (by simp [OneInterval.base]), fun h => by simp [OneInterval.kind] at h⟩
    · exact ⟨_, rfl, base_known hp hi hone (v := (c.oneInterval i).load) (by simp [OneInterval.base]), fun h => by simp [OneInterval.kind] at h⟩
    · exact ⟨_, rfl, base_known hp hi hone (v := (c.oneInterval i).ht) (by simp [OneInterval.base]), fun h => by simp [OneInterval.kind] at h⟩
    · exact ⟨_, rfl, trivial, fun h => by simp [OneInterval.kind] at h⟩
    · exact ⟨_, rfl, trivial, fun h => by simp [OneInterval.kind] at h⟩
    · exact ⟨_, rfl, base_known hp hi hone (v := (c.oneInterval i).ltLoad) (by simp [OneInterval.base]), fun h => by simp [OneInterval.kind] at h⟩
    · exact ⟨_, rfl, trivial, fun h => by simp [OneInterval.kind] at h⟩
  | valve c =>
    simp only [Asset.ois, Asset.oneInterval, List.mem_singleton] at hx
    subst hx
    simp only [OneInterval.kind, Kind.cols, valveCols, List.mem_cons, List.not_mem_nil, or_false] at hat
    rcases hat with rfl | rfl
    · exact ⟨_, rfl, base_known hp hi hone (v := (c.oneInterval i).htLoad) (by simp [OneInterval.base]), fun h => by simp [OneInterval.kind] at h⟩
    · exact ⟨_, rfl, base_known hp hi hone (v := (c.oneInterval i).lt) (by simp [OneInterval.base]), fun h => by simp [OneInterval.kind] at h⟩

/-- The loop over the objects of one class succeeds. -/
theorem emitKind_exists (hp : Prog s objective flags (s.ivarsTo flags s.data.n) p) {i : Nat} (hi : i < s.data.n)
    (hg : ∀ a ∈ s.assets, a.GasLinked) {k : Kind} (hk : k ≠ .site) {read : Val → Res ℚ}
    (hread : ∀ v : Val, v.Known p → (k = .chp ∨ k = .boiler → v.isVar = true) → ∃ q, read v = .ok q) :
    ∃ E, emitKind (s.ivarsTo flags s.data.n) i k read k.cols = .ok E := by
  simp only [emitKind, IVars.filter, ivarsTo_index s flags hi, ok_bind, ones_eq hp.vars hi]
  apply flatMapE_exists
  intro x hx
  obtain ⟨hx, hxk⟩ := List.mem_filter.1 hx
  have hxk : x.kind = k := by simpa [matchesFilter] using hxk
  rcases List.mem_cons.1 hx with rfl | hx
  · exact absurd hxk.symm hk
  · obtain ⟨a, ha, hx⟩ := List.mem_flatMap.1 hx
    apply mapE_exists
    intro attr hat
    obtain ⟨v, h1, h2, h3⟩ := attr_known hp hi ha (hg a ha) hx (hxk ▸ hat)
    obtain ⟨q, hq⟩ := hread v h2 (fun h => h3 (hxk ▸ h))
    exact ⟨(x.name ++ "-" ++ attr, q), by simp only [h1, ok_bind, hq]⟩

theorem emitSite_exists (hS : ∀ v ∈ p.vars, out.value v.id = some (σ v.id)) (wf : s.data.WF)
    (hp : Prog s objective flags (s.ivarsTo flags s.data.n) p) {i : Nat} (hi : i < s.data.n) :
    ∃ E, emitSite s.data (s.ivarsTo flags s.data.n) (p.valuesOf out) i = .ok E := by
  obtain ⟨h1, h2⟩ := site_known hp hi
  obtain ⟨q1, hq1⟩ := directValue_known hS h1
  obtain ⟨q2, hq2⟩ := directValue_known hS h2
  obtain ⟨data, hd⟩ := mapE_exists (f := fun (f : String × List ℚ) => do
      let q ← pyIndex f.2 i
      Except.ok ("site-" ++ f.1, q)) (l := s.data.dump) (by
    intro f hf
    have hl : i < f.2.length := by rw [wf.lens f hf]; exact hi
    exact ⟨("site-" ++ f.1, f.2[i]), by rw [pyIndex_nat_eq (a := f.2[i]) (by simp [hl])]; rfl⟩)
  simp only [emitSite, firstSite_at hp.vars hi, ok_bind, List.length_singleton, decide_true, pyAssert_true, hq1, hq2, hd]
  exact ⟨_, rfl⟩

/-! ### EVs -/

/-- All entries of the arrays are known. -/
structure ArrayKnown (p : Prob) (a : EvsArray) : Prop where
  charge : ∀ e k, (a.charge e k).Known p
  chargeBin : ∀ e k, (a.chargeBin e k).Known p
  discharge : ∀ e k, (a.discharge e k).Known p
  dischargeBin : ∀ e k, (a.dischargeBin e k).Known p
  loss : ∀ e k, (a.loss e k).Known p

theorem ArrayKnown.get2 {p : Prob} {a : EvsArray} (h : ArrayKnown p a) (attr : String) (e k : Nat) : (a.get2 attr e k).Known p := by
  unfold EvsArray.get2
  split
  · exact h.charge e k
  · split
    · exact h.chargeBin e k
    · split
      · exact h.discharge e k
      · split
        · exact h.dischargeBin e k
        · exact h.loss e k

theorem arr2_known {evs : List ChargeEventCfg} {chs : List ChargerCfg} {g : ChargeEventCfg → Nat → ChargerCfg → Nat → Val}
    (h : ∀ e ev k ch, evs[e]? = some ev → chs[k]? = some ch → (g ev e ch k).Known p) (e k : Nat) : (arr2 evs chs g e k).Known p := by
  unfold arr2
  split
  · rename_i h1 h2; exact h e _ k _ h1 h2
  · trivial

theorem evFlowList_known {x b : LpVar} {ce : ℚ} {f : Freq} {ch : ChargerCfg}
    (h : ∀ con ∈ evFlowList (.var x) (.var b) ce f ch, con ∈ p.cons) : x ∈ p.vars ∧ b ∈ p.vars := by
  simp only [evFlowList, Val.isVar, if_true, List.mem_cons, List.not_mem_nil, or_false, forall_eq_or_imp, forall_eq, Val.toExpr] at h
  exact ⟨mem_prob_vars h.1 (by simp), mem_prob_vars h.2.2 (by simp)⟩

theorem arrays_known (hp : Prog s objective flags (s.ivarsTo flags s.data.n) p) {c : EvsCfg}
    (hc : Asset.evs c ∈ s.assets) {i : Nat} (hi : i < s.data.n) :
    ArrayKnown p (c.array i s.freq flags) ∧ ArrayKnown p (c.spillArray i s.freq flags) ∧
    ∀ e < c.events.length, (∃ v ∈ p.vars, (c.array i s.freq flags).initialSoc e = .var v) ∧
      ∃ v ∈ p.vars, (c.array i s.freq flags).finalSoc e = .var v := by
  obtain ⟨hsh, hrow⟩ := (hp.buildable hi hc : c.Shape ∧ c.HasRow i)
  have hcon : ∀ k ∈ c.withinList i s.freq flags, k ∈ p.cons := fun k hk => hp.asset hi hc hk
  simp only [EvsCfg.withinList, List.mem_append] at hcon
  have hmm : ∀ k ∈ evMinMaxList c (c.array i s.freq flags) s.freq c.chargers i flags.allowEvsDischarge, k ∈ p.cons :=
    fun k hk => hcon k (.inl (.inl (.inl (.inl hk))))
  have hms : ∀ k ∈ evMinMaxList c (c.spillArray i s.freq flags) s.freq c.spillChargers i false, k ∈ p.cons :=
    fun k hk => hcon k (.inl (.inl (.inl (.inr hk))))
  have hbal : ∀ k ∈ constrainChargeEventElectricityBalance (c.array i s.freq flags) (c.spillArray i s.freq flags), k ∈ p.cons :=
    fun k hk => hcon k (.inl (.inr hk))
  -- the flows
  have flow : ∀ {chs : List ChargerCfg} {cs cd isp allow : Bool} {a : EvsArray},
      (∀ k ∈ evMinMaxList c a s.freq chs i allow, k ∈ p.cons) →
      (∀ e ev k ch, c.events[e]? = some ev → chs[k]? = some ch →
        a.charge e k = (c.obj i s.freq flags cs cd isp ev e ch k).charge ∧
        a.chargeBin e k = (c.obj i s.freq flags cs cd isp ev e ch k).chargeBin ∧
        a.discharge e k = (c.obj i s.freq flags cs cd isp ev e ch k).discharge ∧
        a.dischargeBin e k = (c.obj i s.freq flags cs cd isp ev e ch k).dischargeBin) →
      ((cd && flags.allowEvsDischarge) = true → allow = true) →
      ∀ e ev k ch, c.events[e]? = some ev → chs[k]? = some ch →
        ((c.obj i s.freq flags cs cd isp ev e ch k).charge).Known p ∧
        ((c.obj i s.freq flags cs cd isp ev e ch k).chargeBin).Known p ∧
        ((c.obj i s.freq flags cs cd isp ev e ch k).discharge).Known p ∧
        ((c.obj i s.freq flags cs cd isp ev e ch k).dischargeBin).Known p := by
    intro chs cs cd isp allow a hall heq hallow e ev k ch he hk
    obtain ⟨e1, e2, e3, e4⟩ := heq e ev k ch he hk
    have hsub : ∀ con ∈ evFlowList (a.charge e k) (a.chargeBin e k) (c.entry i e) s.freq ch, con ∈ p.cons := by
      intro con hcn
      refine hall con ?_
      simp only [evMinMaxList, List.mem_flatMap, List.mem_append]
      exact ⟨(ev, e), mem_zipIdx_iff.2 he, (ch, k), mem_zipIdx_iff.2 hk, .inl hcn⟩
    have hsub2 : allow = true → ∀ con ∈ evFlowList (a.discharge e k) (a.dischargeBin e k) (c.entry i e) s.freq ch, con ∈ p.cons := by
      intro hal con hcn
      refine hall con ?_
      simp only [evMinMaxList, List.mem_flatMap, List.mem_append]
      exact ⟨(ev, e), mem_zipIdx_iff.2 he, (ch, k), mem_zipIdx_iff.2 hk, .inr (by rw [if_pos hal]; exact hcn)⟩
    rw [e1, e2] at hsub
    rw [e3, e4] at hsub2
    simp only [EvsCfg.obj] at hsub hsub2 ⊢
    refine and_assoc.1 ⟨?_, ?_⟩
    · split
      · rename_i hact
        simp only [hact, if_true] at hsub
        exact evFlowList_known hsub
      · exact ⟨trivial, trivial⟩
    · split
      · rename_i hact
        simp only [hact, if_true] at hsub2
        exact evFlowList_known (hsub2 (hallow hact))
      · exact ⟨trivial, trivial⟩
  have f1 := flow (chs := c.chargers) (cs := true) (cd := true) (isp := false) hmm
    (fun e ev k ch he hk => by
      refine ⟨?_, ?_, ?_, ?_⟩ <;> simp only [EvsCfg.array, EvsCfg.spillArray, arr2_eq he hk]) (by simp)
  have f2 := flow (chs := c.spillChargers) (cs := false) (cd := false) (isp := true) hms
    (fun e ev k ch he hk => by
      refine ⟨?_, ?_, ?_, ?_⟩ <;> simp only [EvsCfg.array, EvsCfg.spillArray, arr2_eq he hk]) (by simp)
  -- the losses
  have hpos : 0 < c.chargers.length := List.length_pos_iff.2 hsh.chargers
  have l1 : ∀ e ev k ch, c.events[e]? = some ev → c.chargers[k]? = some ch →
      ((c.obj i s.freq flags true true false ev e ch k).loss).Known p := by
    intro e ev k ch he hk
    refine mem_prob_vars (hbal ((Expr.sum [((c.array i s.freq flags).charge e k).toExpr] * (1 - ev.efficiency)).eqC
      (Expr.sum [((c.array i s.freq flags).loss e k).toExpr])) ?_) ?_
    · simp only [constrainChargeEventElectricityBalance, List.mem_flatMap]
      refine ⟨(ev, e), mem_zipIdx_iff.2 he, ?_⟩
      refine List.mem_cons_of_mem _ (List.mem_append_left _ ?_)
      simp only [constrainEvLosses, List.mem_map, List.mem_range]
      exact ⟨k, (List.getElem?_eq_some_iff.1 hk).1, rfl⟩
    · simp only [EvsCfg.array, arr2_eq he hk]
      simp [EvsCfg.obj, Val.toExpr]
  have l2 : ∀ e ev k ch, c.events[e]? = some ev → c.spillChargers[k]? = some ch →
      ((c.obj i s.freq flags false false true ev e ch k).loss).Known p := by
    intro e ev k ch he hk
    refine mem_prob_vars (hbal ((Expr.sum [((c.spillArray i s.freq flags).charge e k).toExpr] * (1 - ev.efficiency)).eqC
      (Expr.sum [((c.spillArray i s.freq flags).loss e k).toExpr])) ?_) ?_
    · simp only [constrainChargeEventElectricityBalance, List.mem_flatMap]
      refine ⟨(ev, e), mem_zipIdx_iff.2 he, ?_⟩
      refine List.mem_cons_of_mem _ (List.mem_append_right _ ?_)
      simp only [constrainEvLosses, List.mem_map, List.mem_range]
      have hkl := (List.getElem?_eq_some_iff.1 hk).1
      rw [hsh.spill] at hkl
      exact ⟨k, by show k < c.chargers.length; omega, rfl⟩
    · simp only [EvsCfg.spillArray, arr2_eq he hk]
      simp [EvsCfg.obj, Val.toExpr]
  refine ⟨⟨?_, ?_, ?_, ?_, ?_⟩, ⟨?_, ?_, ?_, ?_, ?_⟩, ?_⟩
  · exact arr2_known (fun e ev k ch he hk => (f1 e ev k ch he hk).1)
  · exact arr2_known (fun e ev k ch he hk => (f1 e ev k ch he hk).2.1)
  · exact arr2_known (fun e ev k ch he hk => (f1 e ev k ch he hk).2.2.1)
  · exact arr2_known (fun e ev k ch he hk => (f1 e ev k ch he hk).2.2.2)
  · exact arr2_known l1
  · exact arr2_known (fun e ev k ch he hk => (f2 e ev k ch he hk).1)
  · exact arr2_known (fun e ev k ch he hk => (f2 e ev k ch he hk).2.1)
  · exact arr2_known (fun e ev k ch he hk => (f2 e ev k ch he hk).2.2.1)
  · exact arr2_known (fun e ev k ch he hk => (f2 e ev k ch he hk).2.2.2)
  · exact arr2_known l2
  · intro e he
    have hev : c.events[e]? = some c.events[e] := by simp [he]
    have m := con_known (hbal (((((c.array i s.freq flags).initialSoc e).toExpr
      + Expr.sum (rowOf (c.array i s.freq flags).charge e c.chargers.length)
      + Expr.sum (rowOf (c.spillArray i s.freq flags).charge e c.chargers.length)
      - Expr.sum (rowOf (c.array i s.freq flags).discharge e c.chargers.length)
      - Expr.sum (rowOf (c.spillArray i s.freq flags).discharge e c.chargers.length)
      - Expr.sum (rowOf (c.array i s.freq flags).loss e c.chargers.length)).eqC ((c.array i s.freq flags).finalSoc e).toExpr)) (by
        simp only [constrainChargeEventElectricityBalance, List.mem_flatMap]
        exact ⟨(c.events[e], e), mem_zipIdx_iff.2 hev, List.mem_cons_self ..⟩))
    have i1 : (c.array i s.freq flags).initialSoc e = .var (c.socVar "initial_soc_mwh" i c.events[e]) := by
      simp only [EvsCfg.array, arr1, hev]
    have i2 : (c.array i s.freq flags).finalSoc e = .var (c.socVar "final_soc_mwh" i c.events[e]) := by
      simp only [EvsCfg.array, arr1, hev]
    rw [i1, i2] at m
    exact ⟨⟨_, m _ (by simp [Val.toExpr]), i1⟩, ⟨_, m _ (by simp [Val.toExpr]), i2⟩⟩

theorem emitChargers_exists (hS : ∀ v ∈ p.vars, out.value v.id = some (σ v.id)) {a : EvsArray} (h : ArrayKnown p a)
    (chs : List ChargerCfg) : ∃ E, emitChargers (p.valuesOf out) a chs = .ok E := by
  apply flatMapE_exists
  intro ch _
  apply mapE_exists
  intro attr _
  obtain ⟨q, hq⟩ := sumValues_known hS (xs := (List.range a.cfg.events.length).map (fun e => a.get2 attr e ch.2)) (by
    intro x hx
    obtain ⟨e, _, rfl⟩ := List.mem_map.1 hx
    exact h.get2 attr e ch.2)
  exact ⟨_, by rw [hq, ok_bind]⟩

theorem emitEvents_exists (hS : ∀ v ∈ p.vars, out.value v.id = some (σ v.id)) {a : EvsArray} (h : ArrayKnown p a) :
    ∃ E, emitEvents (p.valuesOf out) a = .ok E := by
  apply flatMapE_exists
  intro ev _
  apply mapE_exists
  intro attr _
  obtain ⟨q, hq⟩ := sumValues_known hS (xs := (List.range a.cfg.chargers.length).map (fun k => a.get2 attr ev.2 k)) (by
    intro x hx
    obtain ⟨e, _, rfl⟩ := List.mem_map.1 hx
    exact h.get2 attr ev.2 e)
  exact ⟨_, by rw [hq, ok_bind]⟩

theorem emitSocs_exists (hS : ∀ v ∈ p.vars, out.value v.id = some (σ v.id)) {a : EvsArray}
    (h : ∀ e < a.cfg.events.length, (∃ v ∈ p.vars, a.initialSoc e = .var v) ∧ ∃ v ∈ p.vars, a.finalSoc e = .var v) :
    ∃ E, emitSocs (p.valuesOf out) a = .ok E := by
  unfold emitSocs
  obtain ⟨x, hx⟩ := mapE_exists (f := fun e => do
    let q ← directValue (p.valuesOf out) (a.initialSoc e)
    Except.ok (a.cfg.name ++ "-charge-event-" ++ toString e ++ "-" ++ "initial_soc_mwh", q)) (l := List.range a.cfg.events.length) (by
      intro e he
      obtain ⟨⟨v, hv, h1⟩, _⟩ := h e (List.mem_range.1 he)
      obtain ⟨q, hq⟩ := directValue_known hS hv
      exact ⟨_, by rw [h1, hq, ok_bind]⟩)
  obtain ⟨y, hy⟩ := mapE_exists (f := fun e => do
    let q ← directValue (p.valuesOf out) (a.finalSoc e)
    Except.ok (a.cfg.name ++ "-charge-event-" ++ toString e ++ "-" ++ "final_soc_mwh", q)) (l := List.range a.cfg.events.length) (by
      intro e he
      obtain ⟨_, ⟨v, hv, h1⟩⟩ := h e (List.mem_range.1 he)
      obtain ⟨q, hq⟩ := directValue_known hS hv
      exact ⟨_, by rw [h1, hq, ok_bind]⟩)
  exact ⟨x ++ y, by rw [hx, ok_bind, hy, ok_bind]⟩

/-- An asset whose name contains "evs" is an EVs asset. -/
def Asset.EvsNamed (a : Asset) : Prop := pyIn "evs" a.name = true → ∃ c, a = .evs c

theorem emitEvs_exists (hS : ∀ v ∈ p.vars, out.value v.id = some (σ v.id))
    (hp : Prog s objective flags (s.ivarsTo flags s.data.n) p) {i : Nat} (hi : i < s.data.n)
    (hn : (∃ c, Asset.evs c ∈ s.assets) → ∀ a ∈ s.assets, a.EvsNamed) :
    ∃ E, emitEvs (s.ivarsTo flags s.data.n) (p.valuesOf out) i (s.assets.map Asset.name) = .ok E := by
  simp only [emitEvs, IVars.filter, ivarsTo_index s flags hi, ok_bind]
  split
  · exact ⟨_, rfl⟩
  · rename_i hne
    have hev : ∃ c, Asset.evs c ∈ s.assets := by
      by_contra hno
      apply hne
      rw [List.isEmpty_iff, List.filter_eq_nil_iff]
      intro o ho
      rw [ones_eq hp.vars hi] at ho
      rcases List.mem_cons.1 ho with rfl | ho
      · simp [matchesFilter, OneInterval.kind]
      · obtain ⟨a, ha, ho⟩ := List.mem_flatMap.1 ho
        have hk := (ois_name_kind ho).2
        intro hm
        have hm : o.kind = .ev := by simpa [matchesFilter] using hm
        rw [hm] at hk
        cases a with
        | evs c => exact hno ⟨c, ha⟩
        | _ => simp [Asset.kinds] at hk
    have hn := hn hev
    have harr : ∀ sp, ∀ n ∈ (s.assets.map Asset.name).filter (pyIn "evs"), ∃ c, Asset.evs c ∈ s.assets ∧
        createEvsArray (s.ivarsTo flags s.data.n) i n sp = .ok (if sp then c.spillArray i s.freq flags else c.array i s.freq flags) := by
      intro sp n hn'
      obtain ⟨hm, he⟩ := List.mem_filter.1 hn'
      obtain ⟨a, ha, rfl⟩ := List.mem_map.1 hm
      obtain ⟨c, rfl⟩ := hn a ha he
      obtain ⟨hsh, hrow⟩ := (hp.buildable hi ha : c.Shape ∧ c.HasRow i)
      refine ⟨c, ha, ?_⟩
      cases sp with
      | false => exact createEvsArray_eq hp.vars (atIndex_nat hi) ha (hrow.matOk _) hsh
      | true => exact createEvsArray_spill_eq hp.vars (atIndex_nat hi) ha (hrow.matOk _) hsh
    obtain ⟨pkg, hpkg⟩ := mapE_exists (fun n hn' => ⟨_, (harr false n hn').choose_spec.2⟩)
    obtain ⟨spkg, hspkg⟩ := mapE_exists (fun n hn' => ⟨_, (harr true n hn').choose_spec.2⟩)
    obtain ⟨rows, hrows⟩ := flatMapE_exists (f := fun a => do
      let c ← emitChargers (p.valuesOf out) a a.cfg.chargers
      let e ← emitEvents (p.valuesOf out) a
      let s ← emitSocs (p.valuesOf out) a
      Except.ok (c ++ e ++ s)) (l := pkg) (by
        intro a ha
        obtain ⟨n, hn', he⟩ := (mapE_mem hpkg).1 ha
        obtain ⟨c, hc, he2⟩ := harr false n hn'
        rw [he2] at he
        cases he
        obtain ⟨k1, _, k3⟩ := arrays_known hp hc hi
        obtain ⟨x, hx⟩ := emitChargers_exists hS k1 (c.array i s.freq flags).cfg.chargers
        obtain ⟨y, hy⟩ := emitEvents_exists hS k1
        obtain ⟨z, hz⟩ := emitSocs_exists hS (a := c.array i s.freq flags) k3
        exact ⟨x ++ y ++ z, by
          simp only [Bool.false_eq_true, if_false]
          rw [hx, ok_bind, hy, ok_bind, hz, ok_bind]⟩)
    obtain ⟨srows, hsrows⟩ := flatMapE_exists (f := fun (a : EvsArray) => emitChargers (p.valuesOf out) a a.cfg.spillChargers) (l := spkg) (by
        intro a ha
        obtain ⟨n, hn', he⟩ := (mapE_mem hspkg).1 ha
        obtain ⟨c, hc, he2⟩ := harr true n hn'
        rw [he2] at he
        cases he
        exact emitChargers_exists hS (arrays_known hp hc hi).2.1 _)
    exact ⟨rows ++ srows, by simp only [hpkg, ok_bind, hrows, hspkg, hsrows]⟩

/-- The body of the extraction loop succeeds. -/
theorem emitInterval_exists (hS : ∀ v ∈ p.vars, out.value v.id = some (σ v.id)) (wf : s.data.WF)
    (hp : Prog s objective flags (s.ivarsTo flags s.data.n) p) {i : Nat} (hi : i < s.data.n)
    (hg : ∀ a ∈ s.assets, a.GasLinked) (hn : (∃ c, Asset.evs c ∈ s.assets) → ∀ a ∈ s.assets, a.EvsNamed) :
    ∃ E, emitInterval s (s.ivarsTo flags s.data.n) (p.valuesOf out) i = .ok E := by
  have opt : ∀ clip, ∀ v : Val, v.Known p → ∃ q, optimizerValue (p.valuesOf out) clip v = .ok q :=
    fun clip v hv => optimizerValue_known hS hv clip
  have dir : ∀ v : Val, v.Known p → v.isVar = true → ∃ q, directValue (p.valuesOf out) v = .ok q := by
    intro v hv hvar
    cases v with
    | var x => exact directValue_known hS hv
    | _ => simp [Val.isVar] at hvar
  obtain ⟨e1, h1⟩ := emitSite_exists hS wf hp hi
  obtain ⟨e2, h2⟩ := emitKind_exists hp hi hg (k := .spill) (by simp) (fun v hv _ => opt false v hv)
  obtain ⟨e3, h3⟩ := emitKind_exists hp hi hg (k := .battery) (by simp) (fun v hv _ => opt true v hv)
  obtain ⟨e4, h4⟩ := emitKind_exists hp hi hg (k := .chp) (by simp) (fun v hv h => dir v hv (h (.inl rfl)))
  obtain ⟨e5, h5⟩ := emitKind_exists hp hi hg (k := .boiler) (by simp) (fun v hv h => dir v hv (h (.inr rfl)))
  obtain ⟨e6, h6⟩ := emitKind_exists hp hi hg (k := .valve) (by simp) (fun v hv _ => opt false v hv)
  obtain ⟨e7, h7⟩ := emitEvs_exists hS hp hi hn
  obtain ⟨e8, h8⟩ := emitKind_exists hp hi hg (k := .heatPump) (by simp) (fun v hv _ => opt false v hv)
  obtain ⟨e9, h9⟩ := emitKind_exists hp hi hg (k := .renewable) (by simp) (fun v hv _ => opt false v hv)
  simp only [Kind.cols] at h2 h3 h4 h5 h6 h8 h9
  exact ⟨_, by
    unfold emitInterval
    rw [h1, ok_bind, h2, ok_bind, h3, ok_bind, h4, ok_bind, h5, ok_bind, h6, ok_bind, h7, ok_bind, h8, ok_bind, h9, ok_bind]⟩

end

end EPL
