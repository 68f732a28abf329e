/-
`allow_evs_discharge`: the program without the flag is the program with it after removing the discharge variables.  (The same steps as in
Proofs/Limit, LimitCons and LimitProg, for another set of removed variables.)
-/
import Verif.Proofs.LimitProg
import Verif.Spec.V2g

namespace EPL.V2g

open Classical

/-- The variables that only exist with the flag. -/
def Back : VarId → Prop
  | .evFlow attr _ _ _ _ _ => attr = "electric_discharge_mwh" ∨ attr = "electric_discharge_binary"
  | _ => False

/-- Such a variable has lower bound zero and zero is allowed. -/
def ZeroBack (v : LpVar) : Prop := Back v.id → v.low = some 0 ∧ ∀ u ∈ v.up, 0 ≤ u

section
variable {s : Site} {flags : Flags}

theorem not_back_flow {attr : String} (h : attr ≠ "electric_discharge_mwh") (h' : attr ≠ "electric_discharge_binary") {i : Nat} {n : String} {e : Nat}
    {ch : String} {sp : Bool} : ¬ Back (.evFlow attr i n e ch sp) := fun k => k.elim h h'

theorem active_grounded (c : EvsCfg) (flags : Flags) (i e : Nat) : c.active flags.grounded i e = c.active flags.toGrid i e := rfl

theorem obj_drop (c : EvsCfg) (i : Nat) (f : Freq) (cs cd isp : Bool) (ev : ChargeEventCfg) (e : Nat) (ch : ChargerCfg) (k : Nat) :
    c.obj i f flags.grounded cs cd isp ev e ch k = (c.obj i f flags.toGrid cs cd isp ev e ch k).drop Back := by
  have n1 : ¬ Back (.evFlow "electric_charge_mwh" i c.name e ch.name isp) := not_back_flow (by decide) (by decide)
  have n2 : ¬ Back (.evFlow "electric_charge_binary" i c.name e ch.name isp) := not_back_flow (by decide) (by decide)
  have n3 : ¬ Back (.evFlow "electric_loss_mwh" i c.name e ch.name isp) := not_back_flow (by decide) (by decide)
  have n4 : ∀ attr, ¬ Back (.evSoc attr i c.name ev.name) := fun _ h => h
  have kept : ∀ (b : Bool) (v : LpVar) (x : Val), ¬ Back v.id → x.isVar = false →
      (if b then Val.var v else x) = (if b then Val.var v else x).drop Back := by
    intro b v x hv hx
    cases b with
    | true => simp only [if_true, Val.drop, if_neg hv]
    | false => cases x <;> simp_all [Val.drop, Val.isVar]
  have b1 : Back (.evFlow "electric_discharge_mwh" i c.name e ch.name isp) := .inl rfl
  have b2 : Back (.evFlow "electric_discharge_binary" i c.name e ch.name isp) := .inr rfl
  unfold EvsCfg.obj EvOI.drop
  simp only [active_grounded, Bool.and_false, Bool.and_true, Bool.false_eq_true, if_false]
  congr 1
  · exact kept _ _ _ n1 rfl
  · exact kept _ _ _ n2 rfl
  · cases cd
    · rfl
    · simp only [if_true, Val.drop, continuous, if_pos b1, Bool.false_eq_true, if_false]
  · cases cd
    · rfl
    · simp only [if_true, Val.drop, binary, if_pos b2]
  · exact kept _ _ _ (n4 _) rfl
  · exact kept _ _ _ (n4 _) rfl
  · simp only [Val.drop]
    rw [if_neg]
    exact n3

theorem objs_drop (hn : (s.assets.map Asset.name).Nodup) {c : EvsCfg} (hc : Asset.evs c ∈ s.assets) {i : Nat} (hi : i < s.data.n)
    (chs : List ChargerCfg) (f : Freq) (cs cd isp : Bool) :
    c.objs chs i f flags.grounded cs cd isp = (c.objs chs i f flags.toGrid cs cd isp).map (EvOI.drop Back) := by
  unfold EvsCfg.objs
  rw [List.map_flatMap]
  congr 1
  funext ev
  rw [List.map_map]
  congr 1
  funext ch
  exact obj_drop ..

theorem ois_drop (hn : (s.assets.map Asset.name).Nodup) {a : Asset} (ha : a ∈ s.assets) {i : Nat} (hi : i < s.data.n) (hb : a.Buildable i)
    (f : Freq) : a.ois i f flags.grounded = (a.ois i f flags.toGrid).map (OneInterval.drop Back) := by
  cases a with
  | evs c =>
    have hm : ∀ fl, c.MatOk fl i := fun fl => hb.2.matOk fl
    simp only [Asset.ois, ois_evs (hm _), List.map_append, List.map_map, objs_drop (flags := flags) hn ha hi]
    rfl
  | renewable c =>
    simp only [Asset.ois, Asset.oneInterval, renewable_oi hb.1 hb.2, ok_bind]
    rfl
  | _ => rfl

theorem ones_drop (h1 : VarsOk s flags.grounded s.data.n) (h2 : VarsOk s flags.toGrid s.data.n) {i : Nat} (hi : i < s.data.n)
    (hb : ∀ a ∈ s.assets, a.Buildable i) : s.ones flags.grounded i = (s.ones flags.toGrid i).map (OneInterval.drop Back) := by
  rw [ones_eq h1 hi, ones_eq h2 hi, List.map_cons, List.map_flatMap]
  congr 1
  rw [List.flatMap_def, List.flatMap_def]
  congr 1
  apply List.map_congr_left
  intro a ha
  exact ois_drop h1.nodup ha hi (hb a ha) s.freq

theorem ivars_drop (h1 : VarsOk s flags.grounded s.data.n) (h2 : VarsOk s flags.toGrid s.data.n)
    (hb : ∀ i < s.data.n, ∀ a ∈ s.assets, a.Buildable i) :
    s.ivarsTo flags.grounded s.data.n = (s.ivarsTo flags.toGrid s.data.n).drop Back := by
  unfold Site.ivarsTo IVars.drop
  rw [List.map_map]
  apply List.map_congr_left
  intro i hi
  rw [List.mem_range] at hi
  exact ones_drop h1 h2 hi (hb i hi)

theorem obj_allowed {c : EvsCfg} {f : Freq} {ch : ChargerCfg} (hp : 0 ≤ f.mwToMwh ch.powerMax) (fl : Flags) (i : Nat) (cs cd isp : Bool)
    (ev : ChargeEventCfg) (e k : Nat) :
    let o := c.obj i f fl cs cd isp ev e ch k
    o.charge.Over ZeroBack ∧ o.chargeBin.Over ZeroBack ∧ o.discharge.Over ZeroBack ∧
      o.dischargeBin.Over ZeroBack ∧ o.initialSoc.Over ZeroBack ∧ o.finalSoc.Over ZeroBack ∧ o.loss.Over ZeroBack := by
  refine ⟨over_ite ?_ trivial, over_ite ?_ trivial, over_ite ?_ trivial, over_ite ?_ trivial, over_ite ?_ trivial, over_ite ?_ trivial, ?_⟩
  · exact fun h => absurd h (not_back_flow (by decide) (by decide))
  · exact fun h => absurd h (not_back_flow (by decide) (by decide))
  · intro _
    refine ⟨rfl, fun u hu => ?_⟩
    cases hu
    exact hp
  · intro _
    refine ⟨rfl, fun u hu => ?_⟩
    cases hu
    norm_num
  · exact fun h => absurd h id
  · exact fun h => absurd h id
  · exact fun h => absurd h (not_back_flow (by decide) (by decide))

theorem mine_not_back {a : Asset} (h : ∀ c, a ≠ .evs c) {fl : Flags} {id : VarId} (hm : a.Mine fl id) : ¬ Back id := by
  cases a <;> first | exact absurd rfl (h _) | (obtain ⟨attr, _, i, rfl⟩ := hm; exact id)

theorem siteMine_not_back {id : VarId} (hm : siteMine id) : ¬ Back id := by
  obtain ⟨attr, _, i, rfl⟩ := hm
  exact fun h => h

theorem ones_mem {fl : Flags} (hv : VarsOk s fl s.data.n) {i : Nat} (hi : i < s.data.n) (hb : ∀ a ∈ s.assets, a.Buildable i) {o : OneInterval}
    (ho : o ∈ s.ones fl i) :
    (o.kind ≠ .ev ∧ o.kind ≠ .evSpill ∧ o.drop Back = o ∧ o.base.AllOver (fun v => ¬ Back v.id) ∧ o.Over (fun v => ¬ Back v.id)) ∨
    (∃ c, Asset.evs c ∈ s.assets ∧ ∃ e ev k ch, c.events[e]? = some ev ∧
      ((c.chargers[k]? = some ch ∧ o = .ev (c.obj i s.freq fl true true false ev e ch k)) ∨
       (c.spillChargers[k]? = some ch ∧ o = .evSpill (c.obj i s.freq fl false false true ev e ch k)))) := by
  rw [ones_eq hv hi, List.mem_cons, List.mem_flatMap] at ho
  rcases ho with rfl | ⟨a, ha, ho⟩
  · left
    have h1 : (OneInterval.site (s.oneInterval i)).base.AllOver (fun v => ¬ Back v.id) :=
      ⟨trivial, trivial, trivial, trivial, trivial, trivial, trivial, trivial, trivial, trivial⟩
    refine ⟨by simp [OneInterval.kind], by simp [OneInterval.kind], rfl, h1, OneInterval.over_iff.2 ⟨fun attr v hv => h1.get hv, ?_⟩⟩
    intro attr v _ hv
    simp only [OneInterval.extra?] at hv
    split_ifs at hv <;> first | (cases hv; first | exact fun h => h | trivial) | cases hv
  · by_cases hev : ∃ c, a = .evs c
    · right
      obtain ⟨c, rfl⟩ := hev
      refine ⟨c, ha, ?_⟩
      have hm : c.MatOk fl i := (hb _ ha : c.Shape ∧ c.HasRow i).2.matOk fl
      simp only [Asset.ois, ois_evs hm, List.mem_append, List.mem_map] at ho
      rcases ho with ⟨x, hx, rfl⟩ | ⟨x, hx, rfl⟩
      · obtain ⟨e, ev, k, ch, h1, h2, rfl⟩ := objs_mem.1 hx
        exact ⟨e, ev, k, ch, h1, .inl ⟨h2, rfl⟩⟩
      · obtain ⟨e, ev, k, ch, h1, h2, rfl⟩ := objs_mem.1 hx
        exact ⟨e, ev, k, ch, h1, .inr ⟨h2, rfl⟩⟩
    · left
      have hev : ∀ c, a ≠ .evs c := fun c h => hev ⟨c, h⟩
      obtain ⟨h1, h2⟩ := ois_mine (hb a ha) ho
      have mono : ∀ v : Val, v.Over (MineOf a fl) → v.Over (fun v => ¬ Back v.id) := by
        intro v hv
        cases v with
        | var v => exact mine_not_back hev hv
        | _ => trivial
      have hk : o.kind ≠ .ev ∧ o.kind ≠ .evSpill := by
        have := oneInterval_ok (f := s.freq) (flags := fl) (hb a ha)
        cases a with
        | evs c => exact absurd rfl (hev c)
        | renewable c =>
          obtain ⟨b1, b2⟩ := (hb _ ha : c.isArray = true ∧ i < c.generation.length)
          simp only [Asset.ois, Asset.oneInterval, renewable_oi b1 b2, ok_bind, List.mem_singleton] at ho
          subst ho
          simp [OneInterval.kind]
        | _ =>
          simp only [Asset.ois, Asset.oneInterval, List.mem_singleton] at ho
          subst ho
          simp [OneInterval.kind]
      refine ⟨hk.1, hk.2, ?_, ⟨mono _ h1.1, mono _ h1.2, mono _ h1.3, mono _ h1.4, mono _ h1.5, mono _ h1.6, mono _ h1.7, mono _ h1.8,
        mono _ h1.9, mono _ h1.10⟩, fun attr v hv => mono v (h2 attr v hv)⟩
      cases o <;> first | rfl | exact absurd rfl hk.1 | exact absurd rfl hk.2

theorem ones_allowed (hp : s.Plugs) {fl : Flags} (hv : VarsOk s fl s.data.n) {i : Nat} (hi : i < s.data.n)
    (hb : ∀ a ∈ s.assets, a.Buildable i) {o : OneInterval} (ho : o ∈ s.ones fl i) :
    o.base.AllOver (ZeroBack) ∧ o.Over (ZeroBack) := by
  rcases ones_mem hv hi hb ho with ⟨_, _, _, h1, h2⟩ | ⟨c, hc, e, ev, k, ch, _, ⟨h1, rfl⟩ | ⟨h1, rfl⟩⟩
  · exact ⟨allOver_mono h1 fun v hv h => absurd h hv, over_mono h2 fun v hv h => absurd h hv⟩
  · exact (evObject_over (obj_allowed (hp.powers c hc ch (by simp [List.mem_of_getElem? h1])) fl i _ _ _ ev e k)).1
  · exact (evObject_over (obj_allowed (hp.powers c hc ch (by simp [List.mem_of_getElem? h1])) fl i _ _ _ ev e k)).2

theorem ivars_allowed (hp : s.Plugs) {fl : Flags} (hv : VarsOk s fl s.data.n) (hb : ∀ i < s.data.n, ∀ a ∈ s.assets, a.Buildable i) :
    (s.ivarsTo fl s.data.n).Over (ZeroBack) := by
  intro l hl o ho
  obtain ⟨i, hi, rfl⟩ := ivars_mem hl
  exact ones_allowed hp hv hi (hb i hi) ho

theorem droppable (hp : s.Plugs) {fl : Flags} (hv : VarsOk s fl s.data.n) (hb : ∀ i < s.data.n, ∀ a ∈ s.assets, a.Buildable i) :
    (s.ivarsTo fl s.data.n).Droppable Back where
  natural := by
    intro l hl o ho
    obtain ⟨i, hi, rfl⟩ := ivars_mem hl
    rcases ones_mem hv hi (hb i hi) ho with ⟨_, _, h0, _, h2⟩ | ⟨c, hc, e, ev, k, ch, _, ⟨_, rfl⟩ | ⟨_, rfl⟩⟩
    · exact natural_kept _ h0 h2
    · exact (natural_ev _ _).1
    · exact (natural_ev _ _).2
  aux := fun _ _ h => h
  low := fun l hl o ho => over_mono (ivars_allowed hp hv hb l hl o ho).2 fun v hv h => (hv h).1
  site := by
    intro l hl
    obtain ⟨i, hi, rfl⟩ := ivars_mem hl
    refine ⟨s.oneInterval i, _, ones_eq hv hi, ?_⟩
    rcases ones_mem hv hi (hb i hi) (o := .site (s.oneInterval i)) (by rw [ones_eq hv hi]; simp) with
      ⟨_, _, _, _, h2⟩ | ⟨c, hc, e, ev, k, ch, _, ⟨_, h⟩ | ⟨_, h⟩⟩
    · exact h2
    · cases h
    · cases h

theorem arrays_allowed {c : EvsCfg} {f : Freq} (hp : c.PowersOk f) (fl : Flags) (i : Nat) :
    (c.array i f fl).Over (ZeroBack) ∧ (c.spillArray i f fl).Over (ZeroBack) := by
  have k1 : ∀ ch ∈ c.chargers, 0 ≤ f.mwToMwh ch.powerMax := fun ch h => hp ch (by simp [h])
  have k2 : ∀ ch ∈ c.spillChargers, 0 ≤ f.mwToMwh ch.powerMax := fun ch h => hp ch (by simp [h])
  constructor
  · exact {
      initialSoc := arr1_mine fun ev _ h h' => absurd h' id
      finalSoc := arr1_mine fun ev _ h h' => absurd h' id
      charge := arr2_mine fun ev e ch k _ h2 => (obj_allowed (k1 ch h2) fl i _ _ _ ev e k).1
      chargeBin := arr2_mine fun ev e ch k _ h2 => (obj_allowed (k1 ch h2) fl i _ _ _ ev e k).2.1
      discharge := arr2_mine fun ev e ch k _ h2 => (obj_allowed (k1 ch h2) fl i _ _ _ ev e k).2.2.1
      dischargeBin := arr2_mine fun ev e ch k _ h2 => (obj_allowed (k1 ch h2) fl i _ _ _ ev e k).2.2.2.1
      loss := arr2_mine fun ev e ch k _ h2 => (obj_allowed (k1 ch h2) fl i _ _ _ ev e k).2.2.2.2.2.2 }
  · exact {
      initialSoc := arr1_mine fun ev _ h => trivial
      finalSoc := arr1_mine fun ev _ h => trivial
      charge := arr2_mine fun ev e ch k _ h2 => (obj_allowed (k2 ch h2) fl i _ _ _ ev e k).1
      chargeBin := arr2_mine fun ev e ch k _ h2 => (obj_allowed (k2 ch h2) fl i _ _ _ ev e k).2.1
      discharge := arr2_mine fun ev e ch k _ h2 => (obj_allowed (k2 ch h2) fl i _ _ _ ev e k).2.2.1
      dischargeBin := arr2_mine fun ev e ch k _ h2 => (obj_allowed (k2 ch h2) fl i _ _ _ ev e k).2.2.2.1
      loss := arr2_mine fun ev e ch k _ h2 => (obj_allowed (k2 ch h2) fl i _ _ _ ev e k).2.2.2.2.2.2 }

theorem base_allowed (hp : s.Plugs) {fl : Flags} (hv : VarsOk s fl s.data.n) (hb : ∀ i < s.data.n, ∀ a ∈ s.assets, a.Buildable i) {c : Con}
    (hc : s.BaseCon fl c) : c.Over (ZeroBack) := by
  have other : ∀ a : Asset, (∀ c, a ≠ .evs c) → c.Over (MineOf a fl) → c.Over (ZeroBack) := fun a ha h =>
    h.mono fun v hv h' => absurd h' (mine_not_back ha hv)
  rcases hc with ⟨i, hi, hc⟩ | ⟨i, hi, a, ha, hc⟩ | ⟨a, ha, hc⟩
  · exact siteList_overP (fun v hv h => absurd h (siteMine_not_back hv)) (fun o ho => (ones_allowed hp hv hi (hb i hi) ho).1) c hc
  · by_cases hev : ∃ c, a = .evs c
    · obtain ⟨x, rfl⟩ := hev
      have hx := hp.powers x ha
      simp only [Asset.withinList, EvsCfg.withinList, List.mem_append] at hc
      rcases hc with (((hc | hc) | hc) | hc) | hc
      · exact evMinMax_over (arrays_allowed hx fl i).1 c hc
      · exact evMinMax_over (arrays_allowed hx fl i).2 c hc
      · exact single_over (arrays_allowed hx fl i).1 _ _ c hc
      · exact balance_over (arrays_allowed hx fl i).1 (arrays_allowed hx fl i).2 c hc
      · split at hc
        · simp at hc
        · exact connection_over (arrays_allowed hx fl (i - 1)).1 (arrays_allowed hx fl i).1 c hc
    · exact other a (fun c h => hev ⟨c, h⟩) (within_mine c hc)
  · by_cases hev : ∃ c, a = .evs c
    · obtain ⟨x, rfl⟩ := hev
      simp only [Asset.afterList, EvsCfg.afterList, List.mem_flatMap, List.mem_cons, List.not_mem_nil, or_false] at hc
      have hx := hp.powers x ha
      obtain ⟨ev, _, rfl | rfl⟩ := hc
      · exact Expr.Over.eqC ((arrays_allowed hx fl 0).1.initialSoc _).toExpr (.num _)
      · exact Expr.Over.eqC ((arrays_allowed hx fl (s.data.n - 1)).1.finalSoc _).toExpr (.num _)
    · exact other a (fun c h => hev ⟨c, h⟩) (after_mine c hc)

theorem arrays_drop (c : EvsCfg) (i : Nat) (f : Freq) : c.array i f flags.grounded = (c.array i f flags.toGrid).drop Back ∧
      c.spillArray i f flags.grounded = (c.spillArray i f flags.toGrid).drop Back := by
  have a2 : ∀ (chs : List ChargerCfg) (g g' : ChargeEventCfg → Nat → ChargerCfg → Nat → Val),
      (∀ ev e ch k, g' ev e ch k = (g ev e ch k).drop Back) →
      arr2 c.events chs g' = fun e k => (arr2 c.events chs g e k).drop Back := by
    intro chs g g' h
    funext e k
    unfold arr2
    split
    · exact h ..
    · rfl
  have a1 : ∀ (g : ChargeEventCfg → Nat → Val), (∀ ev e, g ev e = (g ev e).drop Back) →
      arr1 c.events g = fun e => (arr1 c.events g e).drop Back := by
    intro g h
    funext e
    unfold arr1
    split
    · exact h ..
    · rfl
  have ho := fun (cs cd isp : Bool) ev e ch k => obj_drop (flags := flags) c i f cs cd isp ev e ch k
  have soc : ∀ attr ev, Val.var (c.socVar attr i ev) = (Val.var (c.socVar attr i ev)).drop Back := by
    intro attr ev
    rw [Val.drop_kept]
    exact fun h => h
  constructor
  · unfold EvsCfg.array EvsArray.drop
    congr 1
    · exact a1 _ fun ev _ => soc _ ev
    · exact a1 _ fun ev _ => soc _ ev
    · exact a2 _ _ _ fun ev e ch k => congrArg EvOI.charge (ho ..)
    · exact a2 _ _ _ fun ev e ch k => congrArg EvOI.chargeBin (ho ..)
    · exact a2 _ _ _ fun ev e ch k => congrArg EvOI.discharge (ho ..)
    · exact a2 _ _ _ fun ev e ch k => congrArg EvOI.dischargeBin (ho ..)
    · exact a2 _ _ _ fun ev e ch k => congrArg EvOI.loss (ho ..)
  · unfold EvsCfg.spillArray EvsArray.drop
    congr 1
    · exact a1 _ fun _ _ => rfl
    · exact a1 _ fun _ _ => rfl
    · exact a2 _ _ _ fun ev e ch k => congrArg EvOI.charge (ho ..)
    · exact a2 _ _ _ fun ev e ch k => congrArg EvOI.chargeBin (ho ..)
    · exact a2 _ _ _ fun _ _ _ _ => rfl
    · exact a2 _ _ _ fun _ _ _ _ => rfl
    · exact a2 _ _ _ fun ev e ch k => congrArg EvOI.loss (ho ..)

theorem siteList_drop (h1 : VarsOk s flags.grounded s.data.n) (h2 : VarsOk s flags.toGrid s.data.n) {i : Nat} (hi : i < s.data.n)
    (hb : ∀ a ∈ s.assets, a.Buildable i) (hnat : ∀ o ∈ s.ones flags.toGrid i, o.Natural Back) :
    s.siteList flags.grounded i = (s.siteList flags.toGrid i).map (Con.drop Back) := by
  have hk : ∀ attr low up b, (Expr.var ⟨.site attr i, low, up, b⟩).drop Back = .var ⟨.site attr i, low, up, b⟩ := fun attr low up b =>
    Expr.drop_var _ fun h => h
  have k1 : (Expr.var (s.oneInterval i).importPower).drop Back = .var (s.oneInterval i).importPower := hk ..
  have k2 : (Expr.var (s.oneInterval i).exportPower).drop Back = .var (s.oneInterval i).exportPower := hk ..
  have k3 : (Expr.var (s.oneInterval i).importBin).drop Back = .var (s.oneInterval i).importBin := hk ..
  have k4 : (Expr.var (s.oneInterval i).exportBin).drop Back = .var (s.oneInterval i).exportBin := hk ..
  have hd := fun o ho => (hnat o ho).base
  unfold Site.siteList Site.withinList
  simp only [ones_drop h1 h2 hi hb, List.map_cons, List.map_nil, Expr.drop_eqC, Expr.drop_leC, Expr.drop_sub, Expr.drop_add, Expr.drop_mul,
    Expr.drop_num, k1, k2, k3, k4, sumOver_drop fun o ho => (hd o ho).electricGeneration, sumOver_drop fun o ho => (hd o ho).electricLoad,
    sumOver_drop fun o ho => (hd o ho).electricCharge, sumOver_drop fun o ho => (hd o ho).electricDischarge,
    sumOver_drop fun o ho => (hd o ho).htGeneration, sumOver_drop fun o ho => (hd o ho).htLoad,
    sumOver_drop fun o ho => (hd o ho).ltGeneration, sumOver_drop fun o ho => (hd o ho).ltLoad]

theorem soc_kept (c : EvsCfg) (i : Nat) (f : Freq) (fl : Flags) (e : Nat) :
    ((c.array i f fl).initialSoc e).Over (fun v => ¬ Back v.id) ∧ ((c.array i f fl).finalSoc e).Over (fun v => ¬ Back v.id) := by
  constructor
  · simp only [EvsCfg.array]
    apply arr1_mine
    intro ev _ _
    exact id
  · simp only [EvsCfg.array]
    apply arr1_mine
    intro ev _ _
    exact id

theorem flow_kept (c : EvsCfg) (i : Nat) (f : Freq) (fl : Flags) (cs cd isp : Bool) (ev : ChargeEventCfg) (e : Nat) (ch : ChargerCfg) (k : Nat) :
    (c.obj i f fl cs cd isp ev e ch k).charge.Over (fun v => ¬ Back v.id) ∧ (c.obj i f fl cs cd isp ev e ch k).chargeBin.Over (fun v => ¬ Back v.id) :=
  ⟨over_ite (not_back_flow (by decide) (by decide)) trivial, over_ite (not_back_flow (by decide) (by decide)) trivial⟩

theorem evs_lists (hp : s.Plugs) {c : EvsCfg} (hc : Asset.evs c ∈ s.assets) {i : Nat}
    (hi : i < s.data.n) (hr : c.HasRow i) (f : Freq) : Lists Back (c.withinList i f flags.toGrid) (c.withinList i f flags.grounded) := by
  obtain ⟨e1, e2⟩ := arrays_drop (flags := flags) c i f
  have flow : ∀ e k, e < c.events.length →
      ((c.array i f flags.toGrid).discharge e k).Over (fun v => ¬ Back v.id) ∧ ((c.array i f flags.toGrid).dischargeBin e k).Over (fun v => ¬ Back v.id) ∨
      (0 ≤ c.entry i e ∧ ∃ v w, (c.array i f flags.toGrid).discharge e k = .var v ∧ (c.array i f flags.toGrid).dischargeBin e k = .var w ∧
        Back v.id ∧ Back w.id) := by
    intro e k he
    simp only [EvsCfg.array, arr2]
    split
    · right
      refine ⟨?_, _, _, rfl, rfl, .inl rfl, .inr rfl⟩
      rw [hr.entry_eq he]
      exact (hp.entries c hc i hi e he).1
    · exact .inl ⟨trivial, trivial⟩
  have keep : ∀ e k, ((c.array i f flags.toGrid).charge e k).Over (fun v => ¬ Back v.id) ∧
      ((c.array i f flags.toGrid).chargeBin e k).Over (fun v => ¬ Back v.id) := by
    intro e k
    exact ⟨arr2_mine (fun ev e ch k _ _ => (flow_kept c i f flags.toGrid _ _ _ ev e ch k).1) e k,
      arr2_mine (fun ev e ch k _ _ => (flow_kept c i f flags.toGrid _ _ _ ev e ch k).2) e k⟩
  have keepS : ∀ e k, ((c.spillArray i f flags.toGrid).charge e k).Over (fun v => ¬ Back v.id) ∧
      ((c.spillArray i f flags.toGrid).chargeBin e k).Over (fun v => ¬ Back v.id) := by
    intro e k
    exact ⟨arr2_mine (fun ev e ch k _ _ => (flow_kept c i f flags.toGrid _ _ _ ev e ch k).1) e k,
      arr2_mine (fun ev e ch k _ _ => (flow_kept c i f flags.toGrid _ _ _ ev e ch k).2) e k⟩
  unfold EvsCfg.withinList
  refine .append (.append (.append (.append ?_ ?_) ?_) ?_) ?_
  · rw [e1]
    unfold evMinMaxList
    refine .flatMap fun ev hev => .flatMap fun ch _ => .append ?_ ?_
    · exact evFlow_lists (.inl (keep ev.2 ch.2))
    · have hz : evFlowList ((((c.array i f flags.toGrid).drop Back).discharge) ev.2 ch.2) ((((c.array i f flags.toGrid).drop Back).dischargeBin) ev.2 ch.2)
          (c.entry i ev.2) f ch.1 = [] := by
        have : ((((c.array i f flags.toGrid).drop Back).discharge) ev.2 ch.2).isVar = false := by
          rw [← e1]
          simp only [EvsCfg.array, arr2]
          split <;> rfl
        simp [evFlowList, this]
      have := evFlow_lists (f := f) (ch := ch.1) (flow ev.2 ch.2 (zipIdx_lt hev))
      have h2 : Lists Back (evFlowList ((c.array i f flags.toGrid).discharge ev.2 ch.2) ((c.array i f flags.toGrid).dischargeBin ev.2 ch.2)
          (c.entry i ev.2) f ch.1) [] := by
        rw [← hz]
        exact this
      exact h2
  · rw [e2]
    unfold evMinMaxList
    refine .flatMap fun ev hev => .flatMap fun ch _ => .append ?_ ?_
    · exact evFlow_lists (.inl (keepS ev.2 ch.2))
    · exact .same (by simp)
  · rw [e1]
    exact .of_map (single_drop ..)
  · rw [e1, e2]
    exact .of_map (balance_drop ..)
  · split
    · exact .same (by simp)
    · have : ∀ fl : Flags, constrainConnectionChargeEvents (c.array (i - 1) f fl) (c.array i f fl) =
          constrainConnectionChargeEvents (c.array (i - 1) f flags) (c.array i f flags) := fun _ => rfl
      rw [this flags.grounded, this flags.toGrid]
      refine .same fun con hcon => ?_
      simp only [constrainConnectionChargeEvents, List.mem_flatMap] at hcon
      obtain ⟨e, _, hcon⟩ := hcon
      split at hcon
      · rw [List.mem_singleton] at hcon
        subst hcon
        exact Expr.Over.eqC (soc_kept ..).1.toExpr (soc_kept ..).2.toExpr
      · simp at hcon

theorem evsAfter_lists (c : EvsCfg) (n : Nat) (f : Freq) :
    Lists Back (c.afterList n f flags.toGrid) (c.afterList n f flags.grounded) := by
  have : ∀ fl : Flags, c.afterList n f fl = c.afterList n f flags := fun _ => rfl
  rw [this flags.grounded, this flags.toGrid]
  refine .same fun con hcon => ?_
  simp only [EvsCfg.afterList, List.mem_flatMap, List.mem_cons, List.not_mem_nil, or_false] at hcon
  obtain ⟨ev, _, rfl | rfl⟩ := hcon
  · exact Expr.Over.eqC (soc_kept ..).1.toExpr (.num _)
  · exact Expr.Over.eqC (soc_kept ..).2.toExpr (.num _)

theorem within_lists (hn : (s.assets.map Asset.name).Nodup) (hp : s.Plugs) {a : Asset} (ha : a ∈ s.assets) {i : Nat} (hi : i < s.data.n)
    (hb : a.Buildable i) : Lists Back (a.withinList i s.freq flags.toGrid) (a.withinList i s.freq flags.grounded) := by
  by_cases hev : ∃ c, a = .evs c
  · obtain ⟨c, rfl⟩ := hev
    exact evs_lists hp ha hi hb.2 s.freq
  · have hev : ∀ c, a ≠ .evs c := fun c h => hev ⟨c, h⟩
    have : a.withinList i s.freq flags.grounded = a.withinList i s.freq flags.toGrid := by
      cases a <;> first | rfl | exact absurd rfl (hev _)
    rw [this]
    exact .same fun c hc => (within_mine c hc).mono fun v hv => mine_not_back hev hv

theorem after_lists {a : Asset} : Lists Back (a.afterList s.data.n s.freq flags.toGrid) (a.afterList s.data.n s.freq flags.grounded) := by
  by_cases hev : ∃ c, a = .evs c
  · obtain ⟨c, rfl⟩ := hev
    exact evsAfter_lists c _ _
  · have hev : ∀ c, a ≠ .evs c := fun c h => hev ⟨c, h⟩
    have : a.afterList s.data.n s.freq flags.grounded = a.afterList s.data.n s.freq flags.toGrid := by
      cases a <;> first | rfl | exact absurd rfl (hev _)
    rw [this]
    exact .same fun c hc => (after_mine c hc).mono fun v hv => mine_not_back hev hv

/-- The base constraints with and without the flag. -/
theorem base_lists (hp : s.Plugs) (h1 : VarsOk s flags.grounded s.data.n) (h2 : VarsOk s flags.toGrid s.data.n)
    (hb : ∀ i < s.data.n, ∀ a ∈ s.assets, a.Buildable i) :
    (∀ c, s.BaseCon flags.toGrid c → s.BaseCon flags.grounded (c.drop Back) ∨ c.Dead Back) ∧
    (∀ c, s.BaseCon flags.grounded c → ∃ c0, s.BaseCon flags.toGrid c0 ∧ c0.drop Back = c) := by
  have hs : ∀ i < s.data.n, Lists Back (s.siteList flags.toGrid i) (s.siteList flags.grounded i) := fun i hi =>
    .of_map (siteList_drop h1 h2 hi (hb i hi) fun o ho => (droppable hp h2 hb).natural _ (by
      simp only [Site.ivarsTo, List.mem_map, List.mem_range]
      exact ⟨i, hi, rfl⟩) o ho)
  constructor
  · rintro c (⟨i, hi, hc⟩ | ⟨i, hi, a, ha, hc⟩ | ⟨a, ha, hc⟩)
    · exact ((hs i hi).fwd c hc).imp (fun h => .inl ⟨i, hi, h⟩) id
    · exact ((within_lists h1.nodup hp ha hi (hb i hi a ha)).fwd c hc).imp (fun h => .inr (.inl ⟨i, hi, a, ha, h⟩)) id
    · exact (after_lists.fwd c hc).imp (fun h => .inr (.inr ⟨a, ha, h⟩)) id
  · rintro c (⟨i, hi, hc⟩ | ⟨i, hi, a, ha, hc⟩ | ⟨a, ha, hc⟩)
    · obtain ⟨c0, h0, h⟩ := (hs i hi).back c hc
      exact ⟨c0, .inl ⟨i, hi, h0⟩, h⟩
    · obtain ⟨c0, h0, h⟩ := (within_lists h1.nodup hp ha hi (hb i hi a ha)).back c hc
      exact ⟨c0, .inr (.inl ⟨i, hi, a, ha, h0⟩), h⟩
    · obtain ⟨c0, h0, h⟩ := after_lists.back c hc
      exact ⟨c0, .inr (.inr ⟨a, ha, h0⟩), h⟩

end

/-- The programs without and with the flag. -/
structure Paired (s : Site) (objective : Objective) (flags : Flags) (p p' : Prob) : Prop where
  off : s.program objective flags.toGrid = .ok (s.ivarsTo flags.toGrid s.data.n, p)
  on : s.program objective flags.grounded = .ok (s.ivarsTo flags.grounded s.data.n, p')
  lists : Lists Back p.cons p'.cons
  obj : p'.obj = p.obj.drop Back

section
variable {s : Site} {objective : Objective} {flags : Flags} {p p' : Prob} {σ : Assign}

/-- When the intervals can be built, both programs exist or neither does. -/
theorem pair_of (hn : (s.assets.map Asset.name).Nodup) (h0 : 0 < s.data.n) (hp : s.Plugs) (ho : objective.NoMaxMany)
    (hrow : ∀ i < s.data.n, s.data.HasRow i) (hb : ∀ i < s.data.n, ∀ a ∈ s.assets, a.Buildable i) :
    (∀ iv p, s.program objective flags.toGrid = .ok (iv, p) → ∃ p', Paired s objective flags p p') ∧
    (∀ iv p', s.program objective flags.grounded = .ok (iv, p') → ∃ p, Paired s objective flags p p') := by
  obtain ⟨b1, hb1⟩ := build_ok (flags := flags.toGrid) hn h0 hrow hb
  obtain ⟨b2, hb2⟩ := build_ok (flags := flags.grounded) hn h0 hrow hb
  have k1 := built_of_build hn hb1
  have k2 := built_of_build hn hb2
  have hl : Lists Back b1 b2 := by
    obtain ⟨l1, l2⟩ := base_lists hp k2.vars k1.vars hb
    refine ⟨fun c hc => (l1 c ((k1.mem_iff c).1 hc)).imp (k2.mem_iff _).2 id, fun c hc => ?_⟩
    obtain ⟨c0, h, h'⟩ := l2 c ((k2.mem_iff c).1 hc)
    exact ⟨c0, (k1.mem_iff _).2 h, h'⟩
  have hd := droppable hp k1.vars hb
  have hc := flatMapE_natural_id (f := addCustomConstraint s.data (s.ivarsTo flags.toGrid s.data.n))
    (f' := addCustomConstraint s.data (s.ivarsTo flags.grounded s.data.n)) (h := Con.drop Back) (l := s.constraints) (by
      intro c _
      rw [ivars_drop k2.vars k1.vars hb]
      exact addCustom_drop hd.natural c)
  have hob := getObjective_drop (d := s.data) hd ho
  rw [← ivars_drop k2.vars k1.vars hb] at hob
  have hna : noDup (s.assets.map Asset.name) = true := decide_eq_true hn
  have make : ∀ custom obj objCons, flatMapE (addCustomConstraint s.data (s.ivarsTo flags.toGrid s.data.n)) s.constraints = .ok custom →
      getObjective s.data (s.ivarsTo flags.toGrid s.data.n) objective = .ok (obj, objCons) →
      Paired s objective flags ⟨b1 ++ custom ++ objCons, obj⟩
        ⟨b2 ++ custom.map (Con.drop Back) ++ objCons.map (Con.drop Back), obj.drop Back⟩ := by
    intro custom obj objCons e1 e2
    rw [e1, map_ok] at hc
    rw [e2, map_ok] at hob
    refine ⟨?_, ?_, (hl.append (.of_map rfl)).append (.of_map rfl), rfl⟩
    · simp only [Site.program, hna, pyAssert_true, ok_bind, hb1, e1, e2]
    · simp only [Site.program, hna, pyAssert_true, ok_bind, hb2, hc, hob, pairDrop]
  constructor
  · intro iv p h
    simp only [Site.program, hna, pyAssert_true, ok_bind, hb1, bind_ok, Prod.exists, Except.ok.injEq, Prod.mk.injEq] at h
    obtain ⟨custom, e1, obj, objCons, e2, -, rfl⟩ := h
    exact ⟨_, make _ _ _ e1 e2⟩
  · intro iv p' h
    simp only [Site.program, hna, pyAssert_true, ok_bind, hb2, bind_ok, Prod.exists, Except.ok.injEq, Prod.mk.injEq] at h
    obtain ⟨custom', e1, obj', objCons', e2, -, rfl⟩ := h
    rw [e1, eq_comm, map_eq_ok] at hc
    rw [e2, eq_comm, map_eq_ok] at hob
    obtain ⟨custom, f1, rfl⟩ := hc
    obtain ⟨⟨obj, objCons⟩, f2, e3⟩ := hob
    simp only [pairDrop, Prod.mk.injEq] at e3
    obtain ⟨rfl, rfl⟩ := e3
    exact ⟨_, make _ _ _ f1 f2⟩

namespace Paired

theorem progOff (h : Paired s objective flags p p') : Prog s objective flags.toGrid (s.ivarsTo flags.toGrid s.data.n) p := program_spec h.off

theorem vars_iff (h : Paired s objective flags p p') {v : LpVar} : v ∈ p'.vars ↔ v ∈ p.vars ∧ ¬ Back v.id := by
  rw [prob_vars_iff, prob_vars_iff, h.obj, Expr.mem_drop]
  constructor
  · rintro (⟨c, hc, hv⟩ | ⟨hv, hg⟩)
    · obtain ⟨c0, h0, rfl⟩ := h.lists.back c hc
      obtain ⟨h1, h2⟩ := (Expr.mem_drop Back).1 hv
      exact ⟨.inl ⟨c0, h0, h1⟩, h2⟩
    · exact ⟨.inr hv, hg⟩
  · rintro ⟨⟨c, hc, hv⟩ | hv, hg⟩
    · rcases h.lists.fwd c hc with hd | hd
      · exact .inl ⟨_, hd, (Expr.mem_drop Back).2 ⟨hv, hg⟩⟩
      · exact absurd (hd.1 v hv) hg
    · exact .inr ⟨hv, hg⟩

theorem allowed (h : Paired s objective flags p p') (hp : s.Plugs) {v : LpVar} (hv : v ∈ p.vars) : ZeroBack v := by
  obtain ⟨base, custom, objCons, hbu, hcu, hob, hcons⟩ := h.progOff.built
  have hov := ivars_allowed hp hbu.vars hbu.buildable
  obtain ⟨h1, h2⟩ := objective_over hov hob
  have fin : OrAny (ZeroBack) v → ZeroBack v := by
    rintro (h | ⟨k, hk⟩)
    · exact h
    · intro hr
      cases hid : v.id <;> rw [hid] at hr hk <;> simp [Back, VarId.owner] at hr hk
  rcases prob_vars_iff.1 hv with ⟨c, hc, hv⟩ | hv
  · rw [hcons, List.mem_append, List.mem_append] at hc
    rcases hc with (hc | hc) | hc
    · exact base_allowed hp hbu.vars hbu.buildable ((hbu.mem_iff c).1 hc) v hv
    · exact custom_over hov hcu c hc v hv
    · exact fin (h2 c hc v hv)
  · exact fin (h1 v hv)

/-- An assignment with zero for the removed variables. -/
noncomputable def zeroed (σ : Assign) : Assign := fun id => if Back id then 0 else σ id

theorem zeroed_removed {id : VarId} (h : Back id) : zeroed σ id = 0 := if_pos h
theorem zeroed_kept {id : VarId} (h : ¬ Back id) : zeroed σ id = σ id := if_neg h

theorem feasible_off (h : Paired s objective flags p p') (hp : s.Plugs) (hf : p'.Feasible σ) : p.Feasible (zeroed σ) := by
  have hz : ∀ v : LpVar, Back v.id → zeroed σ v.id = 0 := fun v hr => zeroed_removed hr
  refine ⟨fun c hc => ?_, fun v hv => ?_⟩
  · rcases h.lists.fwd c hc with hd | hd
    · rw [← Con.drop_holds Back (fun v _ hr => hz v hr)]
      have := hf.1 _ hd
      unfold Con.Holds at this ⊢
      rw [Expr.eval_congr (τ := σ)]
      · exact this
      · intro v hv
        exact zeroed_kept ((Expr.mem_drop Back).1 hv).2
    · exact hd.2 _ fun v hv => hz v (hd.1 v hv)
  · by_cases hr : Back v.id
    · obtain ⟨h1, h2⟩ := h.allowed hp hv hr
      refine ⟨fun l hl => ?_, fun u hu => ?_, fun _ => .inl (hz v hr)⟩
      · rw [h1] at hl
        cases hl
        rw [hz v hr]
      · rw [hz v hr]
        exact h2 u hu
    · have := hf.2 v (h.vars_iff.2 ⟨hv, hr⟩)
      unfold LpVar.InBounds at this ⊢
      rw [zeroed_kept hr]
      exact this

theorem obj_off (h : Paired s objective flags p p') : p.obj.eval (zeroed σ) = p'.obj.eval σ := by
  rw [← Expr.eval_drop Back (e := p.obj) (σ := zeroed σ) (fun v _ hr => zeroed_removed hr), ← h.obj]
  apply Expr.eval_congr
  intro v hv
  rw [h.obj] at hv
  exact zeroed_kept ((Expr.mem_drop Back).1 hv).2

end Paired

end

end EPL.V2g
