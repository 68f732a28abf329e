/-
Filtering the variables of an interval by class and asset name finds exactly the asset's own objects.
-/
import Verif.Proofs.Build

namespace EPL

/-- The objects an asset creates for interval `i` (empty if creating them raises). -/
def Asset.ois (a : Asset) (i : Nat) (freq : Freq) (flags : Flags) : List OneInterval :=
  match a.oneInterval i freq flags with
  | .ok l => l
  | .error _ => []

theorem intervalVars_ok {s : Site} {flags : Flags} {i : Nat} {l : List OneInterval}
    (h : s.intervalVars flags i = .ok l) :
    (∀ a ∈ s.assets, a.oneInterval i s.freq flags = .ok (a.ois i s.freq flags)) ∧
    l = .site (s.oneInterval i) :: s.assets.flatMap (fun a => a.ois i s.freq flags) := by
  simp only [Site.intervalVars, bind_ok, Except.ok.injEq] at h
  obtain ⟨rest, h, rfl⟩ := h
  have h1 : ∀ a ∈ s.assets, a.oneInterval i s.freq flags = .ok (a.ois i s.freq flags) := by
    intro a ha
    obtain ⟨bs, hbs⟩ := flatMapE_all_ok h ha
    simp [Asset.ois, hbs]
  refine ⟨h1, ?_⟩
  rw [flatMapE_eq h1] at h
  cases h
  rfl

theorem intervalVars_of_ok {s : Site} {flags : Flags} {i : Nat}
    (h : ∀ a ∈ s.assets, a.oneInterval i s.freq flags = .ok (a.ois i s.freq flags)) :
    s.intervalVars flags i = .ok (s.ones flags i) ∧
    s.ones flags i = .site (s.oneInterval i) :: s.assets.flatMap (fun a => a.ois i s.freq flags) := by
  have h1 : s.intervalVars flags i =
      .ok (.site (s.oneInterval i) :: s.assets.flatMap (fun a => a.ois i s.freq flags)) := by
    simp [Site.intervalVars, flatMapE_eq h]
  constructor
  · simp [Site.ones, h1]
  · simp [Site.ones, h1]

theorem evOneCharger_cfg {cfg : EvsCfg} {i : Nat} {freq : Freq} {flags : Flags} {cd isp : Bool} {e : Nat}
    {ev : ChargeEventCfg} {s1 s2 : Val} {c : Nat} {ch : ChargerCfg} {o : EvOI}
    (h : evOneCharger cfg i freq flags cd isp e ev s1 s2 c ch = .ok o) : o.cfg = cfg := by
  unfold evOneCharger at h
  cases hf : flags.limitChargeVariables with
  | false => simp [hf] at h; rw [← h]
  | true =>
    cases hm : matIndex cfg.chargeEvents i e with
    | error er => simp [hf, hm] at h
    | ok ce =>
      by_cases hce : ce = 1
      · simp [hf, hm, hce] at h; rw [← h]
      · simp [hf, hm, hce] at h; rw [← h]

theorem evsOneInterval_cfg {cfg : EvsCfg} {chs : List ChargerCfg} {i : Nat} {freq : Freq} {flags : Flags}
    {b1 b2 b3 : Bool} {l : List EvOI} (h : evsOneInterval cfg chs i freq flags b1 b2 b3 = .ok l) {o : EvOI}
    (ho : o ∈ l) : o.cfg = cfg := by
  unfold evsOneInterval at h
  rw [flatMapE_mem h] at ho
  obtain ⟨ev, _, bs, hbs, ho⟩ := ho
  rw [mapE_mem hbs] at ho
  obtain ⟨ch, _, hch⟩ := ho
  exact evOneCharger_cfg hch

/-- The classes an asset's objects can have. -/
def Asset.kinds : Asset → List Kind
  | .battery _ => [.battery]
  | .boiler _ => [.boiler]
  | .chp _ => [.chp]
  | .evs _ => [.ev, .evSpill]
  | .heatPump _ => [.heatPump]
  | .renewable _ => [.renewable]
  | .spill _ => [.spill]
  | .valve _ => [.valve]

theorem ois_name_kind {a : Asset} {i : Nat} {freq : Freq} {flags : Flags} {o : OneInterval}
    (h : o ∈ a.ois i freq flags) : o.name = a.name ∧ o.kind ∈ a.kinds := by
  unfold Asset.ois at h
  cases a with
  | battery c => simp [Asset.oneInterval] at h; subst h; simp [OneInterval.name, OneInterval.kind, Asset.name, Asset.kinds, BatteryCfg.oneInterval]
  | boiler c => simp [Asset.oneInterval] at h; subst h; simp [OneInterval.name, OneInterval.kind, Asset.name, Asset.kinds, BoilerCfg.oneInterval]
  | chp c => simp [Asset.oneInterval] at h; subst h; simp [OneInterval.name, OneInterval.kind, Asset.name, Asset.kinds, ChpCfg.oneInterval]
  | heatPump c => simp [Asset.oneInterval] at h; subst h; simp [OneInterval.name, OneInterval.kind, Asset.name, Asset.kinds, HeatPumpCfg.oneInterval]
  | spill c => simp [Asset.oneInterval] at h; subst h; simp [OneInterval.name, OneInterval.kind, Asset.name, Asset.kinds, SpillCfg.oneInterval]
  | valve c => simp [Asset.oneInterval] at h; subst h; simp [OneInterval.name, OneInterval.kind, Asset.name, Asset.kinds, ValveCfg.oneInterval]
  | renewable c =>
    simp only [Asset.oneInterval] at h
    cases hr : c.oneInterval i with
    | error e => simp [hr] at h
    | ok r =>
      simp [hr] at h
      subst h
      simp only [RenewableCfg.oneInterval, bind_ok, Except.ok.injEq] at hr
      obtain ⟨_, _, g, _, rfl⟩ := hr
      simp [OneInterval.name, OneInterval.kind, Asset.name, Asset.kinds]
  | evs c =>
    simp only [Asset.oneInterval] at h
    cases hr : c.oneInterval i freq flags with
    | error e => simp [hr] at h
    | ok l =>
      simp only [hr] at h
      simp only [EvsCfg.oneInterval, bind_ok, Except.ok.injEq] at hr
      obtain ⟨e1, h1, e2, h2, rfl⟩ := hr
      rw [List.mem_append, List.mem_map, List.mem_map] at h
      rcases h with ⟨o', ho, rfl⟩ | ⟨o', ho, rfl⟩
      · simp [OneInterval.name, OneInterval.kind, Asset.name, Asset.kinds, evsOneInterval_cfg h1 ho]
      · simp [OneInterval.name, OneInterval.kind, Asset.name, Asset.kinds, evsOneInterval_cfg h2 ho]

theorem filter_assets {as : List Asset} {i : Nat} {freq : Freq} {flags : Flags} {k : Kind}
    (hn : (as.map Asset.name).Nodup) {a : Asset} (ha : a ∈ as) :
    (as.flatMap (fun a => a.ois i freq flags)).filter (matchesFilter (some k) (some a.name)) =
      (a.ois i freq flags).filter (fun o => o.kind == k) := by
  induction as with
  | nil => simp at ha
  | cons b as ih =>
    rw [List.flatMap_cons, List.filter_append]
    simp only [List.map_cons, List.nodup_cons] at hn
    rcases List.mem_cons.1 ha with rfl | ha'
    · have h1 : (as.flatMap (fun a => a.ois i freq flags)).filter (matchesFilter (some k) (some a.name)) = [] := by
        rw [List.filter_eq_nil_iff]
        intro o ho
        rw [List.mem_flatMap] at ho
        obtain ⟨b, hb, ho⟩ := ho
        have := (ois_name_kind ho).1
        have hne : b.name ≠ a.name := fun h => hn.1 (by rw [← h]; exact List.mem_map.2 ⟨b, hb, rfl⟩)
        simp [matchesFilter, this, hne]
      rw [h1, List.append_nil]
      apply List.filter_congr
      intro o ho
      simp [matchesFilter, (ois_name_kind ho).1]
    · have h1 : (b.ois i freq flags).filter (matchesFilter (some k) (some a.name)) = [] := by
        rw [List.filter_eq_nil_iff]
        intro o ho
        have := (ois_name_kind ho).1
        have hne : b.name ≠ a.name := fun h => hn.1 (by rw [h]; exact List.mem_map.2 ⟨a, ha', rfl⟩)
        simp [matchesFilter, this, hne]
      rw [h1, List.nil_append, ih hn.2 ha']

theorem filter_ones {s : Site} {flags : Flags} {i : Nat} (hok : s.intervalVars flags i = .ok (s.ones flags i))
    (hn : (s.assets.map Asset.name).Nodup) {a : Asset} (ha : a ∈ s.assets) {k : Kind} (hk : k ≠ .site) :
    (s.ones flags i).filter (matchesFilter (some k) (some a.name)) =
      (a.ois i s.freq flags).filter (fun o => o.kind == k) := by
  rw [(intervalVars_ok hok).2]
  have : matchesFilter (some k) (some a.name) (OneInterval.site (s.oneInterval i)) = false := by
    simp only [matchesFilter, OneInterval.kind, Bool.and_eq_false_iff]
    left
    simp only [beq_eq_false_iff_ne, ne_eq]
    exact fun h => hk h.symm
  rw [List.filter_cons_of_neg (by simp [this])]
  exact filter_assets hn ha

theorem kinds_ne_site {a : Asset} {k : Kind} (h : k ∈ a.kinds) : k ≠ .site := by
  cases a <;> simp [Asset.kinds] at h <;> (try rcases h with h | h) <;> subst_vars <;> simp

theorem filter_ones_site {s : Site} {flags : Flags} {i : Nat}
    (hok : s.intervalVars flags i = .ok (s.ones flags i)) :
    (s.ones flags i).filter (matchesFilter (some .site) (some "site")) = [.site (s.oneInterval i)] := by
  rw [(intervalVars_ok hok).2]
  rw [List.filter_cons_of_pos (by simp [matchesFilter, OneInterval.kind, OneInterval.name])]
  have : (s.assets.flatMap (fun a => a.ois i s.freq flags)).filter (matchesFilter (some .site) (some "site")) = [] := by
    rw [List.filter_eq_nil_iff]
    intro o ho
    rw [List.mem_flatMap] at ho
    obtain ⟨b, hb, ho⟩ := ho
    have := kinds_ne_site (ois_name_kind ho).2
    simp [matchesFilter, this]
  rw [this]

end EPL
