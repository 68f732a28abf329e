/-
What `Site.program` returns.
-/
import Verif.Proofs.EvsCons
import Verif.Model.Results

namespace EPL

/-- The constraints an asset adds in interval `i`. -/
def Asset.withinList (a : Asset) (i : Nat) (f : Freq) (flags : Flags) : List Con :=
  match a with
  | .battery c => c.withinList i f
  | .boiler c => c.withinList i f
  | .chp c => c.withinList i f
  | .evs c => c.withinList i f flags
  | .heatPump c => c.withinList i f
  | .renewable _ => []
  | .spill _ => []
  | .valve c => c.withinList i

/-- The constraints an asset adds after the intervals. -/
def Asset.afterList (a : Asset) (n : Nat) (f : Freq) (flags : Flags) : List Con :=
  match a with
  | .battery c => c.afterList n f
  | .evs c => c.afterList n f flags
  | _ => []

/-- The constraints of the site in interval `i`. -/
def Site.siteList (s : Site) (flags : Flags) (i : Nat) : List Con :=
  s.withinList flags i (s.data.electricLoad.getD i 0) (s.data.htLoad.getD i 0) (s.data.ltLoad.getD i 0)
    (s.data.ltGeneration.getD i 0)

/-- What an asset's configuration needs for interval `i` to be built. -/
def Asset.Buildable (a : Asset) (i : Nat) : Prop :=
  match a with
  | .boiler c => c.efficiency ≠ 0
  | .evs c => c.Shape ∧ c.HasRow i
  | .renewable c => c.isArray = true ∧ i < c.generation.length
  | _ => True

/-- The site data has an entry for interval `i`. -/
def SiteData.HasRow (d : SiteData) (i : Nat) : Prop :=
  i < d.electricLoad.length ∧ i < d.htLoad.length ∧ i < d.ltLoad.length ∧ i < d.ltGeneration.length

/-- The object of a renewable generator. -/
def RenewableCfg.oi (c : RenewableCfg) (i : Nat) : RenewableOI where
  cfg := c
  generation := continuous (.tagged "electric_generation_mwh" i c.name)
    (low := some (c.generation.getD i 0 * c.lowerBoundPct)) (up := some (c.generation.getD i 0))

theorem renewable_oi {c : RenewableCfg} {i : Nat} (h1 : c.isArray = true) (h2 : i < c.generation.length) :
    c.oneInterval i = .ok (c.oi i) := by
  simp only [RenewableCfg.oneInterval, h1, pyAssert_true, ok_bind]
  rw [pyIndex_nat_eq (a := c.generation.getD i 0) (by simp [List.getD_eq_getElem?_getD, h2])]
  rfl

theorem oneInterval_ok {a : Asset} {i : Nat} {f : Freq} {flags : Flags} (h : a.Buildable i) :
    a.oneInterval i f flags = .ok (a.ois i f flags) := by
  suffices ∃ l, a.oneInterval i f flags = .ok l by
    obtain ⟨l, hl⟩ := this
    simp [Asset.ois, hl]
  cases a with
  | evs c => exact ⟨_, ois_evs (h.2.matOk _)⟩
  | renewable c =>
    obtain ⟨h1, h2⟩ := h
    exact ⟨[.renewable (c.oi i)], by simp only [Asset.oneInterval, renewable_oi h1 h2, ok_bind]⟩
  | _ => exact ⟨_, rfl⟩

theorem within_ok {s : Site} {flags : Flags} {a : Asset} {i : Nat} (hv : VarsOk s flags (i + 1)) (ha : a ∈ s.assets)
    (h : ∀ j ≤ i, a.Buildable j) :
    a.constrainWithin (s.ivarsTo flags (i + 1)) i s.freq flags = .ok (a.withinList i s.freq flags) := by
  cases a with
  | battery c => exact battery_within hv ha
  | boiler c =>
    have := boiler_within hv ha
    rw [if_neg (h i (le_refl _))] at this
    exact this
  | chp c => exact chp_within hv ha
  | evs c => exact evs_within hv ha (h i (le_refl _)).1 (fun j hj => (h j hj).2)
  | heatPump c => exact heatPump_within hv ha
  | renewable c => rfl
  | spill c => rfl
  | valve c => exact valve_within hv ha

theorem within_buildable {s : Site} {flags : Flags} {a : Asset} {i : Nat} (hv : VarsOk s flags (i + 1)) (ha : a ∈ s.assets)
    {l : List Con} (h : a.constrainWithin (s.ivarsTo flags (i + 1)) i s.freq flags = .ok l) : a.Buildable i := by
  cases a with
  | boiler c =>
    have := boiler_within hv ha
    simp only [Asset.constrainWithin] at h
    rw [h] at this
    by_cases he : c.efficiency = 0
    · simp [he] at this
    · exact he
  | evs c => exact evs_within_shape hv ha h
  | renewable c =>
    have := (intervalVars_ok (hv.ok i (by omega))).1 _ ha
    simp only [Asset.oneInterval, RenewableCfg.oneInterval, bind_ok, pyAssert_ok, pyIndex_nat] at this
    obtain ⟨r, ⟨_, h1, g, h2, _⟩, _⟩ := this
    exact ⟨h1, (List.getElem?_eq_some_iff.1 h2).1⟩
  | _ => trivial

theorem after_eq {s : Site} {flags : Flags} {a : Asset} {n : Nat} (hv : VarsOk s flags (n + 1)) (ha : a ∈ s.assets)
    (h : ∀ j < n + 1, a.Buildable j) :
    a.constrainAfter (s.ivarsTo flags (n + 1)) = .ok (a.afterList (n + 1) s.freq flags) := by
  cases a with
  | battery c => exact battery_after hv ha
  | evs c => exact evs_after hv ha (h 0 (by omega)).1 (fun j hj => (h j hj).2)
  | _ => rfl

theorem after_zero {s : Site} {flags : Flags} {a : Asset} {l : List Con}
    (h : a.constrainAfter (s.ivarsTo flags 0) = .ok l) : l = a.afterList 0 s.freq flags := by
  cases a with
  | battery c => simp [Asset.constrainAfter, BatteryCfg.constrainAfter, IVars.filter, Site.ivarsTo, pyIndex] at h
  | evs c => simp [Asset.constrainAfter, EvsCfg.constrainAfter, createEvsArray, IVars.filter, Site.ivarsTo, pyIndex] at h
  | _ => simp [Asset.constrainAfter] at h; exact h

theorem site_within {s : Site} {flags : Flags} {i : Nat} (hv : VarsOk s flags (i + 1)) (h : s.data.HasRow i) :
    s.constrainWithin (s.ivarsTo flags (i + 1)) i = .ok (s.siteList flags i) := by
  obtain ⟨h1, h2, h3, h4⟩ := h
  rw [site_within_iff hv]
  exact ⟨s.data.electricLoad[i], s.data.htLoad[i], s.data.ltLoad[i], s.data.ltGeneration[i], by simp [h1], by simp [h2],
    by simp [h3], by simp [h4], by simp [Site.siteList, List.getD_eq_getElem?_getD, h1, h2, h3, h4]⟩

theorem site_hasRow {s : Site} {flags : Flags} {i : Nat} (hv : VarsOk s flags (i + 1)) {l : List Con}
    (h : s.constrainWithin (s.ivarsTo flags (i + 1)) i = .ok l) : s.data.HasRow i := by
  obtain ⟨_, _, _, _, h1, h2, h3, h4, _⟩ := (site_within_iff hv).1 h
  exact ⟨(List.getElem?_eq_some_iff.1 h1).1, (List.getElem?_eq_some_iff.1 h2).1, (List.getElem?_eq_some_iff.1 h3).1,
    (List.getElem?_eq_some_iff.1 h4).1⟩

/-- The constraints of the site and its assets, without custom constraints. -/
def Site.BaseCon (s : Site) (flags : Flags) (c : Con) : Prop :=
  (∃ i < s.data.n, c ∈ s.siteList flags i) ∨
  (∃ i < s.data.n, ∃ a ∈ s.assets, c ∈ a.withinList i s.freq flags) ∨
  (∃ a ∈ s.assets, c ∈ a.afterList s.data.n s.freq flags)

/-- What holds once the variables and base constraints are built. -/
structure Built (s : Site) (flags : Flags) (iv : IVars) (cs : List Con) : Prop where
  vars : VarsOk s flags s.data.n
  iv_eq : iv = s.ivarsTo flags s.data.n
  rows : ∀ i < s.data.n, s.data.HasRow i
  buildable : ∀ i < s.data.n, ∀ a ∈ s.assets, a.Buildable i
  mem_iff : ∀ c, c ∈ cs ↔ s.BaseCon flags c

theorem built_of_build {s : Site} {flags : Flags} {iv : IVars} {cs : List Con}
    (hn : (s.assets.map Asset.name).Nodup) (h : s.build flags = .ok (iv, cs)) : Built s flags iv cs := by
  have hb := build_spec h
  have hv : VarsOk s flags s.data.n := ⟨hn, hb.ones_ok⟩
  have hrow : ∀ i < s.data.n, s.data.HasRow i := by
    intro i hi
    obtain ⟨l, hl⟩ := hb.site_ok i hi
    exact site_hasRow (hv.mono hi) hl
  have hbu : ∀ i < s.data.n, ∀ a ∈ s.assets, a.Buildable i := by
    intro i hi a ha
    obtain ⟨l, hl⟩ := hb.asset_ok i hi a ha
    exact within_buildable (hv.mono hi) ha hl
  refine ⟨hv, hb.iv_eq, hrow, hbu, ?_⟩
  intro c
  rw [hb.mem_iff]
  refine or_congr ?_ (or_congr ?_ ?_)
  · refine exists_congr fun i => and_congr_right fun hi => ?_
    rw [site_within (hv.mono hi) (hrow i hi)]
    simp
  · refine exists_congr fun i => and_congr_right fun hi => exists_congr fun a => and_congr_right fun ha => ?_
    rw [within_ok (hv.mono hi) ha (fun j hj => hbu j (by omega) a ha)]
    simp
  · refine exists_congr fun a => and_congr_right fun ha => ?_
    rw [hb.iv_eq]
    have key : a.constrainAfter (s.ivarsTo flags s.data.n) = .ok (a.afterList s.data.n s.freq flags) := by
      obtain ⟨l, hl⟩ := hb.after_ok a ha
      rw [hb.iv_eq] at hl
      cases hnn : s.data.n with
      | zero =>
        rw [hnn] at hl
        rw [hl, after_zero hl]
      | succ m =>
        rw [hnn] at hv hbu
        exact after_eq hv ha (fun j hj => hbu j hj a ha)
    rw [key]
    simp

/-- Conversely: if every interval can be built (and there is one), building succeeds. -/
theorem build_ok {s : Site} {flags : Flags} (hn : (s.assets.map Asset.name).Nodup) (h0 : 0 < s.data.n)
    (hrow : ∀ i < s.data.n, s.data.HasRow i) (hbu : ∀ i < s.data.n, ∀ a ∈ s.assets, a.Buildable i) :
    ∃ cs, s.build flags = .ok (s.ivarsTo flags s.data.n, cs) := by
  have hok : ∀ i < s.data.n, s.intervalVars flags i = .ok (s.ones flags i) := fun i hi =>
    (intervalVars_of_ok (fun a ha => oneInterval_ok (hbu i hi a ha))).1
  have hv : VarsOk s flags s.data.n := ⟨hn, hok⟩
  refine build_complete s flags hok (fun i hi => ⟨_, site_within (hv.mono hi) (hrow i hi)⟩)
    (fun i hi a ha => ⟨_, within_ok (hv.mono hi) ha (fun j hj => hbu j (by omega) a ha)⟩) ?_
  intro a ha
  obtain ⟨m, hm⟩ : ∃ m, s.data.n = m + 1 := ⟨s.data.n - 1, by omega⟩
  rw [hm] at hv hbu ⊢
  exact ⟨_, after_eq hv ha (fun j hj => hbu j hj a ha)⟩

/-- What holds of a program. -/
structure Prog (s : Site) (objective : Objective) (flags : Flags) (iv : IVars) (p : Prob) : Prop where
  built : ∃ base custom objCons, Built s flags iv base ∧
    flatMapE (addCustomConstraint s.data iv) s.constraints = .ok custom ∧
    getObjective s.data iv objective = .ok (p.obj, objCons) ∧ p.cons = base ++ custom ++ objCons

theorem program_spec {s : Site} {objective : Objective} {flags : Flags} {iv : IVars} {p : Prob}
    (h : s.program objective flags = .ok (iv, p)) : Prog s objective flags iv p := by
  simp only [Site.program, bind_ok, Prod.exists, pyAssert_ok, noDup, decide_eq_true_eq] at h
  obtain ⟨_, hn, iv', cons, hb, custom, hc, obj, objCons, ho, h⟩ := h
  simp only [Except.ok.injEq, Prod.mk.injEq] at h
  obtain ⟨rfl, rfl⟩ := h
  exact ⟨cons, custom, objCons, built_of_build hn hb, hc, ho, rfl⟩

theorem Prog.vars {s : Site} {objective : Objective} {flags : Flags} {iv : IVars} {p : Prob} (h : Prog s objective flags iv p) :
    VarsOk s flags s.data.n := by
  obtain ⟨_, _, _, hb, _⟩ := h.built
  exact hb.vars

theorem Prog.iv_eq {s : Site} {objective : Objective} {flags : Flags} {iv : IVars} {p : Prob} (h : Prog s objective flags iv p) :
    iv = s.ivarsTo flags s.data.n := by
  obtain ⟨_, _, _, hb, _⟩ := h.built
  exact hb.iv_eq

theorem Prog.buildable {s : Site} {objective : Objective} {flags : Flags} {iv : IVars} {p : Prob}
    (h : Prog s objective flags iv p) {i : Nat} (hi : i < s.data.n) {a : Asset} (ha : a ∈ s.assets) : a.Buildable i := by
  obtain ⟨_, _, _, hb, _⟩ := h.built
  exact hb.buildable i hi a ha

theorem Prog.rows {s : Site} {objective : Objective} {flags : Flags} {iv : IVars} {p : Prob}
    (h : Prog s objective flags iv p) {i : Nat} (hi : i < s.data.n) : s.data.HasRow i := by
  obtain ⟨_, _, _, hb, _⟩ := h.built
  exact hb.rows i hi

theorem Prog.base {s : Site} {objective : Objective} {flags : Flags} {iv : IVars} {p : Prob}
    (h : Prog s objective flags iv p) {c : Con} (hc : s.BaseCon flags c) : c ∈ p.cons := by
  obtain ⟨base, custom, objCons, hb, _, _, he⟩ := h.built
  rw [he, List.mem_append, List.mem_append]
  exact .inl (.inl ((hb.mem_iff c).2 hc))

theorem Prog.site {s : Site} {objective : Objective} {flags : Flags} {iv : IVars} {p : Prob}
    (h : Prog s objective flags iv p) {i : Nat} (hi : i < s.data.n) {c : Con} (hc : c ∈ s.siteList flags i) : c ∈ p.cons :=
  h.base (.inl ⟨i, hi, hc⟩)

theorem Prog.asset {s : Site} {objective : Objective} {flags : Flags} {iv : IVars} {p : Prob}
    (h : Prog s objective flags iv p) {i : Nat} (hi : i < s.data.n) {a : Asset} (ha : a ∈ s.assets) {c : Con}
    (hc : c ∈ a.withinList i s.freq flags) : c ∈ p.cons :=
  h.base (.inr (.inl ⟨i, hi, a, ha, hc⟩))

theorem Prog.after {s : Site} {objective : Objective} {flags : Flags} {iv : IVars} {p : Prob}
    (h : Prog s objective flags iv p) {a : Asset} (ha : a ∈ s.assets) {c : Con}
    (hc : c ∈ a.afterList s.data.n s.freq flags) : c ∈ p.cons :=
  h.base (.inr (.inr ⟨a, ha, hc⟩))

theorem ones_eq {s : Site} {flags : Flags} {n i : Nat} (h : VarsOk s flags n) (hi : i < n) :
    s.ones flags i = .site (s.oneInterval i) :: s.assets.flatMap (fun a => a.ois i s.freq flags) :=
  (intervalVars_ok (h.ok i hi)).2

end EPL
