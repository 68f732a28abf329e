/-
`limit_charge_variables_to_valid_events`: the program with the flag is the program without it after removing the charge variables of
vehicles that are not plugged in.
-/
import Verif.Proofs.DropRead
import Verif.Proofs.EvsFacts
import Verif.Proofs.Emit

namespace EPL

open Classical

/-- The variables the flag removes: charge variables of a charge event in an interval in which its vehicle is not plugged in. -/
def Site.Removed (s : Site) : VarId → Prop
  | .evFlow attr i name e _ _ => attr ∈ chargeAttrs ∧ i < s.data.n ∧ ∃ c, Asset.evs c ∈ s.assets ∧ c.name = name ∧ c.entry i e ≠ 1
  | _ => False

theorem active_unlimited (c : EvsCfg) (flags : Flags) (i e : Nat) : c.active flags.unlimited i e = true := by
  simp [EvsCfg.active, Flags.unlimited]

theorem active_limited (c : EvsCfg) (flags : Flags) (i e : Nat) : c.active flags.limited i e = true ↔ c.entry i e = 1 := by
  simp only [EvsCfg.active, Flags.limited, EvsCfg.entry]
  cases matIndex c.chargeEvents i e <;> simp

section
variable {s : Site} {flags : Flags}

theorem asset_unique (hn : (s.assets.map Asset.name).Nodup) {a b : Asset} (ha : a ∈ s.assets) (hb : b ∈ s.assets) (h : a.name = b.name) :
    a = b := List.inj_on_of_nodup_map hn ha hb h

theorem removed_iff (hn : (s.assets.map Asset.name).Nodup) {c : EvsCfg} (hc : Asset.evs c ∈ s.assets) {i : Nat} (hi : i < s.data.n)
    {attr : String} (hat : attr ∈ chargeAttrs) (e : Nat) (ch : String) (sp : Bool) :
    s.Removed (.evFlow attr i c.name e ch sp) ↔ c.active flags.limited i e = false := by
  rw [← Bool.not_eq_true, active_limited]
  constructor
  · rintro ⟨_, _, c', hc', hnm, h⟩
    have := asset_unique hn hc' hc hnm
    cases this
    exact h
  · intro h
    exact ⟨hat, hi, c, hc, rfl, h⟩

theorem not_removed_flow {attr : String} (h : attr ∉ chargeAttrs) {i : Nat} {n : String} {e : Nat} {ch : String} {sp : Bool} :
    ¬ s.Removed (.evFlow attr i n e ch sp) := fun h' => h h'.1

theorem obj_drop (hn : (s.assets.map Asset.name).Nodup) {c : EvsCfg} (hc : Asset.evs c ∈ s.assets) {i : Nat} (hi : i < s.data.n)
    (f : Freq) (cs cd isp : Bool) (ev : ChargeEventCfg) (e : Nat) (ch : ChargerCfg) (k : Nat) :
    c.obj i f flags.limited cs cd isp ev e ch k = (c.obj i f flags.unlimited cs cd isp ev e ch k).drop s.Removed := by
  have h1 := removed_iff (flags := flags) hn hc hi (attr := "electric_charge_mwh") (by decide) e ch.name isp
  have h2 := removed_iff (flags := flags) hn hc hi (attr := "electric_charge_binary") (by decide) e ch.name isp
  have n1 : ¬ s.Removed (.evFlow "electric_discharge_mwh" i c.name e ch.name isp) := not_removed_flow (by decide)
  have n2 : ¬ s.Removed (.evFlow "electric_discharge_binary" i c.name e ch.name isp) := not_removed_flow (by decide)
  have n3 : ¬ s.Removed (.evFlow "electric_loss_mwh" i c.name e ch.name isp) := not_removed_flow (by decide)
  have n4 : ∀ attr, ¬ s.Removed (.evSoc attr i c.name ev.name) := fun _ h => h
  have kept : ∀ (b : Bool) (v : LpVar) (x : Val), ¬ s.Removed v.id → x.isVar = false →
      (if b then Val.var v else x) = (if b then Val.var v else x).drop s.Removed := by
    intro b v x hv hx
    cases b with
    | true => simp only [if_true, Val.drop, if_neg hv]
    | false => cases x <;> simp_all [Val.drop, Val.isVar]
  have flip : ∀ (v : LpVar) (z : Val), (s.Removed v.id ↔ c.active flags.limited i e = false) →
      (if v.isBinary then Val.int 0 else Val.num 0) = z →
      (if c.active flags.limited i e then Val.var v else z) = (Val.var v).drop s.Removed := by
    intro v z hv hz
    cases ha : c.active flags.limited i e with
    | true =>
      have : ¬ s.Removed v.id := by rw [hv, ha]; simp
      simp [Val.drop, this]
    | false =>
      have : s.Removed v.id := hv.2 ha
      simp [Val.drop, this, hz]
  unfold EvsCfg.obj EvOI.drop
  simp only [active_unlimited, if_true]
  congr 1
  · exact flip _ (.num 0) h1 rfl
  · exact flip _ (.int 0) h2 rfl
  · exact kept _ _ _ n1 rfl
  · exact kept _ _ _ n2 rfl
  · exact kept _ _ _ (n4 _) rfl
  · exact kept _ _ _ (n4 _) rfl
  · simp only [Val.drop]
    rw [if_neg]
    exact n3

theorem objs_drop (hn : (s.assets.map Asset.name).Nodup) {c : EvsCfg} (hc : Asset.evs c ∈ s.assets) {i : Nat} (hi : i < s.data.n)
    (chs : List ChargerCfg) (f : Freq) (cs cd isp : Bool) :
    c.objs chs i f flags.limited cs cd isp = (c.objs chs i f flags.unlimited cs cd isp).map (EvOI.drop s.Removed) := by
  unfold EvsCfg.objs
  rw [List.map_flatMap]
  congr 1
  funext ev
  rw [List.map_map]
  congr 1
  funext ch
  exact obj_drop hn hc hi ..

theorem ois_drop (hn : (s.assets.map Asset.name).Nodup) {a : Asset} (ha : a ∈ s.assets) {i : Nat} (hi : i < s.data.n) (hb : a.Buildable i)
    (f : Freq) : a.ois i f flags.limited = (a.ois i f flags.unlimited).map (OneInterval.drop s.Removed) := by
  cases a with
  | evs c =>
    have hm : ∀ fl, c.MatOk fl i := fun fl => hb.2.matOk fl
    simp only [Asset.ois, ois_evs (hm _), List.map_append, List.map_map, objs_drop (flags := flags) hn ha hi]
    rfl
  | renewable c =>
    simp only [Asset.ois, Asset.oneInterval, renewable_oi hb.1 hb.2, ok_bind]
    rfl
  | _ => rfl

theorem ones_drop (h1 : VarsOk s flags.limited s.data.n) (h2 : VarsOk s flags.unlimited s.data.n) {i : Nat} (hi : i < s.data.n)
    (hb : ∀ a ∈ s.assets, a.Buildable i) : s.ones flags.limited i = (s.ones flags.unlimited i).map (OneInterval.drop s.Removed) := by
  rw [ones_eq h1 hi, ones_eq h2 hi, List.map_cons, List.map_flatMap]
  congr 1
  rw [List.flatMap_def, List.flatMap_def]
  congr 1
  apply List.map_congr_left
  intro a ha
  exact ois_drop h1.nodup ha hi (hb a ha) s.freq

theorem ivars_drop (h1 : VarsOk s flags.limited s.data.n) (h2 : VarsOk s flags.unlimited s.data.n)
    (hb : ∀ i < s.data.n, ∀ a ∈ s.assets, a.Buildable i) :
    s.ivarsTo flags.limited s.data.n = (s.ivarsTo flags.unlimited s.data.n).drop s.Removed := by
  unfold Site.ivarsTo IVars.drop
  rw [List.map_map]
  apply List.map_congr_left
  intro i hi
  rw [List.mem_range] at hi
  exact ones_drop h1 h2 hi (hb i hi)

theorem varsOk_of (hn : (s.assets.map Asset.name).Nodup) (hb : ∀ i < s.data.n, ∀ a ∈ s.assets, a.Buildable i) (fl : Flags) :
    VarsOk s fl s.data.n :=
  ⟨hn, fun i hi => (intervalVars_of_ok (fun a ha => oneInterval_ok (hb i hi a ha))).1⟩

/-! ### The objects without the flag -/

/-- A removed variable has lower bound zero and zero is allowed. -/
def ZeroAllowed (s : Site) (v : LpVar) : Prop := s.Removed v.id → v.low = some 0 ∧ ∀ u ∈ v.up, 0 ≤ u

/-- The chargers have no negative power. -/
def EvsCfg.PowersOk (c : EvsCfg) (f : Freq) : Prop := ∀ ch ∈ c.chargers ++ c.spillChargers, 0 ≤ f.mwToMwh ch.powerMax

theorem over_ite {P : LpVar → Prop} {b : Bool} {x y : Val} (hx : x.Over P) (hy : y.Over P) : (if b then x else y).Over P := by
  cases b <;> simpa using by assumption

theorem obj_allowed {c : EvsCfg} {f : Freq} {ch : ChargerCfg} (hp : 0 ≤ f.mwToMwh ch.powerMax) (fl : Flags) (i : Nat) (cs cd isp : Bool)
    (ev : ChargeEventCfg) (e k : Nat) :
    let o := c.obj i f fl cs cd isp ev e ch k
    o.charge.Over (ZeroAllowed s) ∧ o.chargeBin.Over (ZeroAllowed s) ∧ o.discharge.Over (ZeroAllowed s) ∧
      o.dischargeBin.Over (ZeroAllowed s) ∧ o.initialSoc.Over (ZeroAllowed s) ∧ o.finalSoc.Over (ZeroAllowed s) ∧ o.loss.Over (ZeroAllowed s) := by
  have nf : ∀ {attr}, attr ∉ chargeAttrs → ¬ s.Removed (.evFlow attr i c.name e ch.name isp) := fun h => not_removed_flow h
  refine ⟨over_ite ?_ trivial, over_ite ?_ trivial, over_ite ?_ trivial, over_ite ?_ trivial, over_ite ?_ trivial, over_ite ?_ trivial, ?_⟩
  · intro _
    refine ⟨rfl, fun u hu => ?_⟩
    cases hu
    exact hp
  · intro _
    refine ⟨rfl, fun u hu => ?_⟩
    cases hu
    norm_num
  · exact fun h => absurd h (nf (by decide))
  · exact fun h => absurd h (nf (by decide))
  · exact fun h => absurd h id
  · exact fun h => absurd h id
  · exact fun h => absurd h (nf (by decide))

theorem evObject_over {P : LpVar → Prop} {o : EvOI} (h : o.charge.Over P ∧ o.chargeBin.Over P ∧ o.discharge.Over P ∧ o.dischargeBin.Over P ∧
    o.initialSoc.Over P ∧ o.finalSoc.Over P ∧ o.loss.Over P) :
    ((OneInterval.ev o).base.AllOver P ∧ (OneInterval.ev o).Over P) ∧ ((OneInterval.evSpill o).base.AllOver P ∧ (OneInterval.evSpill o).Over P) := by
  obtain ⟨h1, h2, h3, h4, h5, h6, h7⟩ := h
  have hb : (OneInterval.ev o).base.AllOver P := ⟨trivial, trivial, trivial, trivial, trivial, trivial, h1, h3, trivial, trivial⟩
  have ho : (OneInterval.ev o).Over P := by
    refine OneInterval.over_iff.2 ⟨fun attr v hv => hb.get hv, fun attr v _ hv => ?_⟩
    simp only [OneInterval.extra?] at hv
    split_ifs at hv <;> first | (cases hv; first | assumption | trivial) | cases hv
  exact ⟨⟨hb, ho⟩, hb, fun attr v hv => ho attr v hv⟩

theorem mine_not_removed {a : Asset} (h : ∀ c, a ≠ .evs c) {fl : Flags} {id : VarId} (hm : a.Mine fl id) : ¬ s.Removed id := by
  cases a <;> first | exact absurd rfl (h _) | (obtain ⟨attr, _, i, rfl⟩ := hm; exact id)

theorem siteMine_not_removed {id : VarId} (hm : siteMine id) : ¬ s.Removed id := by
  obtain ⟨attr, _, i, rfl⟩ := hm
  exact fun h => h

theorem ones_mem {fl : Flags} (hv : VarsOk s fl s.data.n) {i : Nat} (hi : i < s.data.n) (hb : ∀ a ∈ s.assets, a.Buildable i) {o : OneInterval}
    (ho : o ∈ s.ones fl i) :
    (o.kind ≠ .ev ∧ o.kind ≠ .evSpill ∧ o.drop s.Removed = o ∧ o.base.AllOver (fun v => ¬ s.Removed v.id) ∧ o.Over (fun v => ¬ s.Removed v.id)) ∨
    (∃ c, Asset.evs c ∈ s.assets ∧ ∃ e ev k ch, c.events[e]? = some ev ∧
      ((c.chargers[k]? = some ch ∧ o = .ev (c.obj i s.freq fl true true false ev e ch k)) ∨
       (c.spillChargers[k]? = some ch ∧ o = .evSpill (c.obj i s.freq fl false false true ev e ch k)))) := by
  rw [ones_eq hv hi, List.mem_cons, List.mem_flatMap] at ho
  rcases ho with rfl | ⟨a, ha, ho⟩
  · left
    have h1 : (OneInterval.site (s.oneInterval i)).base.AllOver (fun v => ¬ s.Removed v.id) :=
      ⟨trivial, trivial, trivial, trivial, trivial, trivial, trivial, trivial, trivial, trivial⟩
    refine ⟨by simp [OneInterval.kind], by simp [OneInterval.kind], rfl, h1, OneInterval.over_iff.2 ⟨fun attr v hv => h1.get hv, ?_⟩⟩
    intro attr v _ hv
    simp only [OneInterval.extra?] at hv
    split_ifs at hv <;> first | (cases hv; first | exact fun h => h | trivial) | cases hv
  · by_cases hev : ∃ c, a = .evs c
    · right
      obtain ⟨c, rfl⟩ := hev
      refine ⟨c, ha, ?_⟩
      have hm : c.MatOk fl i := (hb _ ha : c.Shape ∧ c.HasRow i).2.matOk fl
      simp only [Asset.ois, ois_evs hm, List.mem_append, List.mem_map] at ho
      rcases ho with ⟨x, hx, rfl⟩ | ⟨x, hx, rfl⟩
      · obtain ⟨e, ev, k, ch, h1, h2, rfl⟩ := objs_mem.1 hx
        exact ⟨e, ev, k, ch, h1, .inl ⟨h2, rfl⟩⟩
      · obtain ⟨e, ev, k, ch, h1, h2, rfl⟩ := objs_mem.1 hx
        exact ⟨e, ev, k, ch, h1, .inr ⟨h2, rfl⟩⟩
    · left
      have hev : ∀ c, a ≠ .evs c := fun c h => hev ⟨c, h⟩
      obtain ⟨h1, h2⟩ := ois_mine (hb a ha) ho
      have mono : ∀ v : Val, v.Over (MineOf a fl) → v.Over (fun v => ¬ s.Removed v.id) := by
        intro v hv
        cases v with
        | var v => exact mine_not_removed hev hv
        | _ => trivial
      have hk : o.kind ≠ .ev ∧ o.kind ≠ .evSpill := by
        have := oneInterval_ok (f := s.freq) (flags := fl) (hb a ha)
        cases a with
        | evs c => exact absurd rfl (hev c)
        | renewable c =>
          obtain ⟨b1, b2⟩ := (hb _ ha : c.isArray = true ∧ i < c.generation.length)
          simp only [Asset.ois, Asset.oneInterval, renewable_oi b1 b2, ok_bind, List.mem_singleton] at ho
          subst ho
          simp [OneInterval.kind]
        | _ =>
          simp only [Asset.ois, Asset.oneInterval, List.mem_singleton] at ho
          subst ho
          simp [OneInterval.kind]
      refine ⟨hk.1, hk.2, ?_, ⟨mono _ h1.1, mono _ h1.2, mono _ h1.3, mono _ h1.4, mono _ h1.5, mono _ h1.6, mono _ h1.7, mono _ h1.8,
        mono _ h1.9, mono _ h1.10⟩, fun attr v hv => mono v (h2 attr v hv)⟩
      cases o <;> first | rfl | exact absurd rfl hk.1 | exact absurd rfl hk.2

theorem ivars_mem {fl : Flags} {l : List OneInterval} (h : l ∈ s.ivarsTo fl s.data.n) : ∃ i < s.data.n, l = s.ones fl i := by
  simp only [Site.ivarsTo, List.mem_map, List.mem_range] at h
  obtain ⟨i, hi, rfl⟩ := h
  exact ⟨i, hi, rfl⟩

/-- What the chargers and the charge event matrix have to satisfy. -/
structure Site.Plugs (s : Site) : Prop where
  powers : ∀ c, Asset.evs c ∈ s.assets → c.PowersOk s.freq
  entries : ∀ c, Asset.evs c ∈ s.assets → ∀ i < s.data.n, ∀ e < c.events.length, 0 ≤ c.present i e ∧ c.present i e ≤ 1

theorem val_mono {P Q : LpVar → Prop} {x : Val} (h : x.Over P) (hpq : ∀ v, P v → Q v) : x.Over Q := by
  cases x with
  | var v => exact hpq v h
  | _ => trivial

theorem allOver_mono {P Q : LpVar → Prop} {b : Base} (h : b.AllOver P) (hpq : ∀ v, P v → Q v) : b.AllOver Q :=
  ⟨val_mono h.1 hpq, val_mono h.2 hpq, val_mono h.3 hpq, val_mono h.4 hpq, val_mono h.5 hpq, val_mono h.6 hpq, val_mono h.7 hpq,
    val_mono h.8 hpq, val_mono h.9 hpq, val_mono h.10 hpq⟩

theorem over_mono {P Q : LpVar → Prop} {o : OneInterval} (h : o.Over P) (hpq : ∀ v, P v → Q v) : o.Over Q :=
  fun attr v hv => val_mono (h attr v hv) hpq

theorem ones_allowed (hp : s.Plugs) {fl : Flags} (hv : VarsOk s fl s.data.n) {i : Nat} (hi : i < s.data.n)
    (hb : ∀ a ∈ s.assets, a.Buildable i) {o : OneInterval} (ho : o ∈ s.ones fl i) :
    o.base.AllOver (ZeroAllowed s) ∧ o.Over (ZeroAllowed s) := by
  rcases ones_mem hv hi hb ho with ⟨_, _, _, h1, h2⟩ | ⟨c, hc, e, ev, k, ch, _, ⟨h1, rfl⟩ | ⟨h1, rfl⟩⟩
  · exact ⟨allOver_mono h1 fun v hv h => absurd h hv, over_mono h2 fun v hv h => absurd h hv⟩
  · exact (evObject_over (obj_allowed (hp.powers c hc ch (by simp [List.mem_of_getElem? h1])) fl i _ _ _ ev e k)).1
  · exact (evObject_over (obj_allowed (hp.powers c hc ch (by simp [List.mem_of_getElem? h1])) fl i _ _ _ ev e k)).2

theorem ivars_allowed (hp : s.Plugs) {fl : Flags} (hv : VarsOk s fl s.data.n) (hb : ∀ i < s.data.n, ∀ a ∈ s.assets, a.Buildable i) :
    (s.ivarsTo fl s.data.n).Over (ZeroAllowed s) := by
  intro l hl o ho
  obtain ⟨i, hi, rfl⟩ := ivars_mem hl
  exact ones_allowed hp hv hi (hb i hi) ho

theorem droppable (hp : s.Plugs) {fl : Flags} (hv : VarsOk s fl s.data.n) (hb : ∀ i < s.data.n, ∀ a ∈ s.assets, a.Buildable i) :
    (s.ivarsTo fl s.data.n).Droppable s.Removed where
  natural := by
    intro l hl o ho
    obtain ⟨i, hi, rfl⟩ := ivars_mem hl
    rcases ones_mem hv hi (hb i hi) ho with ⟨_, _, h0, _, h2⟩ | ⟨c, hc, e, ev, k, ch, _, ⟨_, rfl⟩ | ⟨_, rfl⟩⟩
    · exact natural_kept _ h0 h2
    · exact (natural_ev _ _).1
    · exact (natural_ev _ _).2
  aux := fun _ _ h => h
  low := fun l hl o ho => over_mono (ivars_allowed hp hv hb l hl o ho).2 fun v hv h => (hv h).1
  site := by
    intro l hl
    obtain ⟨i, hi, rfl⟩ := ivars_mem hl
    refine ⟨s.oneInterval i, _, ones_eq hv hi, ?_⟩
    rcases ones_mem hv hi (hb i hi) (o := .site (s.oneInterval i)) (by rw [ones_eq hv hi]; simp) with
      ⟨_, _, _, _, h2⟩ | ⟨c, hc, e, ev, k, ch, _, ⟨_, h⟩ | ⟨_, h⟩⟩
    · exact h2
    · cases h
    · cases h

/-! ### Constraints over a property -/

theorem siteList_overP {P : LpVar → Prop} {fl : Flags} {i : Nat} (hs : ∀ v : LpVar, siteMine v.id → P v)
    (h : ∀ o ∈ s.ones fl i, o.base.AllOver P) : ∀ con ∈ s.siteList fl i, con.Over P := by
  intro con hcon
  simp only [Site.siteList, Site.withinList, List.mem_cons, List.not_mem_nil, or_false] at hcon
  have vs : ∀ {attr low up b}, attr ∈ ["import_power_mw", "export_power_mw", "import_power_bin", "export_power_bin"] →
      P ⟨.site attr i, low, up, b⟩ := fun h => hs _ ⟨_, h, _, rfl⟩
  rcases hcon with rfl | rfl | rfl | rfl | rfl | rfl
  · exact Expr.Over.eqC (.add (.sub (.sub (.add (.sub (.sub (.var (vs (by decide))) (.var (vs (by decide)))) (.num _))
      (sumOver_over fun o ho => (h o ho).electricGeneration)) (sumOver_over fun o ho => (h o ho).electricLoad))
      (sumOver_over fun o ho => (h o ho).electricCharge)) (sumOver_over fun o ho => (h o ho).electricDischarge)) (.num _)
  · exact Expr.Over.leC (.sub (.var (vs (by decide))) (.mul (.var (vs (by decide))) _)) (.num _)
  · exact Expr.Over.leC (.sub (.var (vs (by decide))) (.mul (.var (vs (by decide))) _)) (.num _)
  · exact Expr.Over.eqC (.add (.var (vs (by decide))) (.var (vs (by decide)))) (.num _)
  · exact Expr.Over.eqC (.sub (.sub (sumOver_over fun o ho => (h o ho).htGeneration) (sumOver_over fun o ho => (h o ho).htLoad)) (.num _)) (.num _)
  · exact Expr.Over.eqC (.add (.sub (.sub (sumOver_over fun o ho => (h o ho).ltGeneration) (sumOver_over fun o ho => (h o ho).ltLoad)) (.num _))
      (.num _)) (.num _)

theorem arrays_allowed {c : EvsCfg} {f : Freq} (hp : c.PowersOk f) (fl : Flags) (i : Nat) :
    (c.array i f fl).Over (ZeroAllowed s) ∧ (c.spillArray i f fl).Over (ZeroAllowed s) := by
  have k1 : ∀ ch ∈ c.chargers, 0 ≤ f.mwToMwh ch.powerMax := fun ch h => hp ch (by simp [h])
  have k2 : ∀ ch ∈ c.spillChargers, 0 ≤ f.mwToMwh ch.powerMax := fun ch h => hp ch (by simp [h])
  constructor
  · exact {
      initialSoc := arr1_mine fun ev _ h h' => absurd h' id
      finalSoc := arr1_mine fun ev _ h h' => absurd h' id
      charge := arr2_mine fun ev e ch k _ h2 => (obj_allowed (k1 ch h2) fl i _ _ _ ev e k).1
      chargeBin := arr2_mine fun ev e ch k _ h2 => (obj_allowed (k1 ch h2) fl i _ _ _ ev e k).2.1
      discharge := arr2_mine fun ev e ch k _ h2 => (obj_allowed (k1 ch h2) fl i _ _ _ ev e k).2.2.1
      dischargeBin := arr2_mine fun ev e ch k _ h2 => (obj_allowed (k1 ch h2) fl i _ _ _ ev e k).2.2.2.1
      loss := arr2_mine fun ev e ch k _ h2 => (obj_allowed (k1 ch h2) fl i _ _ _ ev e k).2.2.2.2.2.2 }
  · exact {
      initialSoc := arr1_mine fun ev _ h => trivial
      finalSoc := arr1_mine fun ev _ h => trivial
      charge := arr2_mine fun ev e ch k _ h2 => (obj_allowed (k2 ch h2) fl i _ _ _ ev e k).1
      chargeBin := arr2_mine fun ev e ch k _ h2 => (obj_allowed (k2 ch h2) fl i _ _ _ ev e k).2.1
      discharge := arr2_mine fun ev e ch k _ h2 => (obj_allowed (k2 ch h2) fl i _ _ _ ev e k).2.2.1
      dischargeBin := arr2_mine fun ev e ch k _ h2 => (obj_allowed (k2 ch h2) fl i _ _ _ ev e k).2.2.2.1
      loss := arr2_mine fun ev e ch k _ h2 => (obj_allowed (k2 ch h2) fl i _ _ _ ev e k).2.2.2.2.2.2 }

theorem base_allowed (hp : s.Plugs) {fl : Flags} (hv : VarsOk s fl s.data.n) (hb : ∀ i < s.data.n, ∀ a ∈ s.assets, a.Buildable i) {c : Con}
    (hc : s.BaseCon fl c) : c.Over (ZeroAllowed s) := by
  have other : ∀ a : Asset, (∀ c, a ≠ .evs c) → c.Over (MineOf a fl) → c.Over (ZeroAllowed s) := fun a ha h =>
    h.mono fun v hv h' => absurd h' (mine_not_removed ha hv)
  rcases hc with ⟨i, hi, hc⟩ | ⟨i, hi, a, ha, hc⟩ | ⟨a, ha, hc⟩
  · exact siteList_overP (fun v hv h => absurd h (siteMine_not_removed hv)) (fun o ho => (ones_allowed hp hv hi (hb i hi) ho).1) c hc
  · by_cases hev : ∃ c, a = .evs c
    · obtain ⟨x, rfl⟩ := hev
      have hx := hp.powers x ha
      simp only [Asset.withinList, EvsCfg.withinList, List.mem_append] at hc
      rcases hc with (((hc | hc) | hc) | hc) | hc
      · exact evMinMax_over (arrays_allowed hx fl i).1 c hc
      · exact evMinMax_over (arrays_allowed hx fl i).2 c hc
      · exact single_over (arrays_allowed hx fl i).1 _ _ c hc
      · exact balance_over (arrays_allowed hx fl i).1 (arrays_allowed hx fl i).2 c hc
      · split at hc
        · simp at hc
        · exact connection_over (arrays_allowed hx fl (i - 1)).1 (arrays_allowed hx fl i).1 c hc
    · exact other a (fun c h => hev ⟨c, h⟩) (within_mine c hc)
  · by_cases hev : ∃ c, a = .evs c
    · obtain ⟨x, rfl⟩ := hev
      simp only [Asset.afterList, EvsCfg.afterList, List.mem_flatMap, List.mem_cons, List.not_mem_nil, or_false] at hc
      have hx := hp.powers x ha
      obtain ⟨ev, _, rfl | rfl⟩ := hc
      · exact Expr.Over.eqC ((arrays_allowed hx fl 0).1.initialSoc _).toExpr (.num _)
      · exact Expr.Over.eqC ((arrays_allowed hx fl (s.data.n - 1)).1.finalSoc _).toExpr (.num _)
    · exact other a (fun c h => hev ⟨c, h⟩) (after_mine c hc)

end

end EPL
