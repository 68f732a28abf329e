/-
Which variables occur where, in full: the identities of the variables an asset brings into the program.
-/
import Verif.Proofs.OwnerTerms

namespace EPL

/-- The attributes of the variables of batteries, boilers, CHPs, spills and valves. -/
def plainAttrs : List String :=
  ["electric_charge_mwh", "electric_discharge_mwh", "electric_charge_binary", "electric_discharge_binary", "electric_loss_mwh",
    "electric_initial_charge_mwh", "electric_final_charge_mwh", "high_temperature_generation_mwh", "binary_mwh", "gas_consumption_mwh",
    "electric_generation_mwh", "low_temperature_generation_mwh", "electric_load_mwh", "low_temperature_load_mwh", "high_temperature_load_mwh"]

/-- The attributes of the variables of heat pumps and renewable generators. -/
def taggedAttrs : List String :=
  ["electric_load_mwh", "electric_load_binary", "low_temperature_load_mwh", "high_temperature_generation_mwh", "electric_generation_mwh"]

/-- The charge variables of EVs that `limit_charge_variables_to_valid_events` removes. -/
def chargeAttrs : List String := ["electric_charge_mwh", "electric_charge_binary"]

/-- The variables of EVs with a charger. -/
def flowAttrs : List String :=
  ["electric_charge_mwh", "electric_charge_binary", "electric_discharge_mwh", "electric_discharge_binary", "electric_loss_mwh"]

/-- The variables of an EVs asset. -/
def EvsCfg.Mine (c : EvsCfg) (flags : Flags) : VarId → Prop
  | .evSoc attr _ n event => n = c.name ∧ attr ∈ ["initial_soc_mwh", "final_soc_mwh"] ∧ ∃ e ∈ c.events, e.name = event
  | .evFlow attr i n e charger isSpill => n = c.name ∧ attr ∈ flowAttrs ∧ e < c.events.length ∧
      (∃ ch ∈ (if isSpill then c.spillChargers else c.chargers), ch.name = charger) ∧ (attr ∈ chargeAttrs → c.active flags i e = true)
  | _ => False

/-- The variables of an asset. -/
def Asset.Mine (a : Asset) (flags : Flags) (id : VarId) : Prop :=
  match a with
  | .evs c => c.Mine flags id
  | .heatPump c => ∃ attr ∈ taggedAttrs, ∃ i, id = .tagged attr i c.name
  | .renewable c => ∃ attr ∈ taggedAttrs, ∃ i, id = .tagged attr i c.name
  | .battery c => ∃ attr ∈ plainAttrs, ∃ i, id = .asset c.name attr i
  | .boiler c => ∃ attr ∈ plainAttrs, ∃ i, id = .asset c.name attr i
  | .chp c => ∃ attr ∈ plainAttrs, ∃ i, id = .asset c.name attr i
  | .spill c => ∃ attr ∈ plainAttrs, ∃ i, id = .asset c.name attr i
  | .valve c => ∃ attr ∈ plainAttrs, ∃ i, id = .asset c.name attr i

/-- The variables of the site itself. -/
def siteMine (id : VarId) : Prop := ∃ attr ∈ ["import_power_mw", "export_power_mw", "import_power_bin", "export_power_bin"], ∃ i, id = .site attr i

section
variable {i : Nat} {f : Freq} {flags : Flags}

/-- A property of the variables of an asset. -/
abbrev MineOf (a : Asset) (flags : Flags) : LpVar → Prop := fun v => a.Mine flags v.id

theorem over_dite {P : LpVar → Prop} {b : Prop} [Decidable b] {x y : Val} (hx : b → x.Over P) (hy : y.Over P) : (if b then x else y).Over P := by
  split
  · exact hx ‹_›
  · exact hy

theorem obj_mine (c : EvsCfg) (cs cd isp : Bool) {ev : ChargeEventCfg} {e : Nat} {ch : ChargerCfg} (k : Nat)
    (he : c.events[e]? = some ev) (hch : ch ∈ (if isp then c.spillChargers else c.chargers)) :
    let o := c.obj i f flags cs cd isp ev e ch k
    o.charge.Over (MineOf (.evs c) flags) ∧ o.chargeBin.Over (MineOf (.evs c) flags) ∧ o.discharge.Over (MineOf (.evs c) flags) ∧
      o.dischargeBin.Over (MineOf (.evs c) flags) ∧ o.initialSoc.Over (MineOf (.evs c) flags) ∧ o.finalSoc.Over (MineOf (.evs c) flags) ∧
      o.loss.Over (MineOf (.evs c) flags) := by
  have hlt : e < c.events.length := (List.getElem?_eq_some_iff.1 he).1
  have hmem : ev ∈ c.events := List.mem_of_getElem? he
  refine ⟨over_dite (fun h => ?_) trivial, over_dite (fun h => ?_) trivial, over_dite (fun h => ?_) trivial, over_dite (fun h => ?_) trivial,
    over_dite (fun h => ?_) trivial, over_dite (fun h => ?_) trivial, ?_⟩
  · exact ⟨rfl, by decide, hlt, ⟨ch, hch, rfl⟩, fun _ => h⟩
  · exact ⟨rfl, by decide, hlt, ⟨ch, hch, rfl⟩, fun _ => h⟩
  · exact ⟨rfl, by decide, hlt, ⟨ch, hch, rfl⟩, fun h => absurd h (by decide)⟩
  · exact ⟨rfl, by decide, hlt, ⟨ch, hch, rfl⟩, fun h => absurd h (by decide)⟩
  · exact ⟨rfl, by decide, ev, hmem, rfl⟩
  · exact ⟨rfl, by decide, ev, hmem, rfl⟩
  · exact ⟨rfl, by decide, hlt, ⟨ch, hch, rfl⟩, fun h => absurd h (by decide)⟩

/-- The objects of an asset hold variables of that asset only. -/
theorem ois_mine {a : Asset} (hb : a.Buildable i) {o : OneInterval} (ho : o ∈ a.ois i f flags) :
    o.base.AllOver (MineOf a flags) ∧ o.Over (MineOf a flags) := by
  have ev : ∀ (c : EvsCfg) (cs cd isp : Bool) (e : EvOI), e ∈ c.objs (if isp then c.spillChargers else c.chargers) i f flags cs cd isp →
      ((OneInterval.ev e).base.AllOver (MineOf (.evs c) flags) ∧ (OneInterval.ev e).Over (MineOf (.evs c) flags)) ∧
      ((OneInterval.evSpill e).base.AllOver (MineOf (.evs c) flags) ∧ (OneInterval.evSpill e).Over (MineOf (.evs c) flags)) := by
    intro c cs cd isp e he
    obtain ⟨n, ev, k, ch, hev, hch, rfl⟩ := objs_mem.1 he
    obtain ⟨h1, h2, h3, h4, h5, h6, h7⟩ := obj_mine (i := i) (f := f) (flags := flags) c cs cd isp k hev (List.mem_of_getElem? hch)
    have hbase : (OneInterval.ev (c.obj i f flags cs cd isp ev n ch k)).base.AllOver (MineOf (.evs c) flags) :=
      ⟨trivial, trivial, trivial, trivial, trivial, trivial, h1, h3, trivial, trivial⟩
    have hex : ∀ attr v, (OneInterval.ev (c.obj i f flags cs cd isp ev n ch k)).extra? attr = some v → v.Over (MineOf (.evs c) flags) := by
      intro attr v hv
      simp only [OneInterval.extra?] at hv
      repeat' split at hv
      all_goals first | (simp only [Option.some.injEq] at hv; subst hv; first | assumption | trivial) | simp at hv
    exact ⟨⟨hbase, OneInterval.over_iff.2 ⟨fun attr v hv => hbase.get hv, fun attr v _ hv => hex attr v hv⟩⟩,
      ⟨hbase, OneInterval.over_iff.2 ⟨fun attr v hv => Base.AllOver.get (b := (OneInterval.ev _).base) hbase hv, fun attr v _ hv => hex attr v hv⟩⟩⟩
  have single : ∀ (x : OneInterval), a.ois i f flags = [x] → x.base.AllOver (MineOf a flags) →
      (∀ attr v, x.extra? attr = some v → v.Over (MineOf a flags)) → o.base.AllOver (MineOf a flags) ∧ o.Over (MineOf a flags) := by
    intro x hx h1 h2
    rw [hx, List.mem_singleton] at ho
    subst ho
    exact ⟨h1, OneInterval.over_iff.2 ⟨fun attr v hv => h1.get hv, fun attr v _ hv => h2 attr v hv⟩⟩
  cases a with
  | evs c =>
    obtain ⟨_, hrow⟩ := (hb : c.Shape ∧ c.HasRow i)
    have h : (Asset.evs c).ois i f flags = (c.objs c.chargers i f flags true true false).map .ev ++
        (c.objs c.spillChargers i f flags false false true).map .evSpill := by
      simp only [Asset.ois, ois_evs (hrow.matOk _)]
    rw [h, List.mem_append, List.mem_map, List.mem_map] at ho
    rcases ho with ⟨e, he, rfl⟩ | ⟨e, he, rfl⟩
    · exact (ev c _ _ false e he).1
    · exact (ev c _ _ true e he).2
  | renewable c =>
    refine single _ (ois_renewable hb) ⟨⟨_, by decide, _, rfl⟩, trivial, trivial, trivial, trivial, trivial, trivial, trivial, trivial, trivial⟩ ?_
    intro attr v hv
    simp [OneInterval.extra?] at hv
  | battery c =>
    refine single _ rfl ⟨trivial, trivial, trivial, trivial, trivial, trivial, ⟨_, by decide, _, rfl⟩, ⟨_, by decide, _, rfl⟩, trivial, trivial⟩ ?_
    intro attr v hv
    simp only [OneInterval.extra?] at hv
    repeat' split at hv
    all_goals first | (simp only [Option.some.injEq] at hv; subst hv; first | exact ⟨_, by decide, _, rfl⟩ | trivial) | simp at hv
  | boiler c =>
    refine single _ rfl ⟨trivial, ⟨_, by decide, _, rfl⟩, trivial, trivial, trivial, trivial, trivial, trivial, ⟨_, by decide, _, rfl⟩,
      ⟨_, by decide, _, rfl⟩⟩ ?_
    intro attr v hv
    simp [OneInterval.extra?] at hv
  | chp c =>
    refine single _ rfl ⟨⟨_, by decide, _, rfl⟩, ⟨_, by decide, _, rfl⟩, ⟨_, by decide, _, rfl⟩, trivial, trivial, trivial, trivial, trivial,
      ⟨_, by decide, _, rfl⟩, ⟨_, by decide, _, rfl⟩⟩ ?_
    intro attr v hv
    simp [OneInterval.extra?] at hv
  | heatPump c =>
    refine single _ rfl ⟨trivial, ⟨_, by decide, _, rfl⟩, trivial, ⟨_, by decide, _, rfl⟩, trivial, ⟨_, by decide, _, rfl⟩, trivial, trivial,
      trivial, trivial⟩ ?_
    intro attr v hv
    simp only [OneInterval.extra?] at hv
    repeat' split at hv
    all_goals first | (simp only [Option.some.injEq] at hv; subst hv; first | exact ⟨_, by decide, _, rfl⟩ | trivial) | simp at hv
  | spill c =>
    refine single _ rfl ⟨⟨_, by decide, _, rfl⟩, ⟨_, by decide, _, rfl⟩, trivial, ⟨_, by decide, _, rfl⟩, trivial, ⟨_, by decide, _, rfl⟩, trivial,
      trivial, trivial, trivial⟩ ?_
    intro attr v hv
    simp [OneInterval.extra?] at hv
  | valve c =>
    refine single _ rfl ⟨trivial, trivial, ⟨_, by decide, _, rfl⟩, trivial, ⟨_, by decide, _, rfl⟩, trivial, trivial, trivial, trivial, trivial⟩ ?_
    intro attr v hv
    simp [OneInterval.extra?] at hv

/-! ### Constraints -/

theorem arr2_mine {P : LpVar → Prop} {evs : List ChargeEventCfg} {chs : List ChargerCfg} {g : ChargeEventCfg → Nat → ChargerCfg → Nat → Val}
    (h : ∀ ev e ch k, evs[e]? = some ev → ch ∈ chs → (g ev e ch k).Over P) (e k : Nat) : (arr2 evs chs g e k).Over P := by
  unfold arr2
  split
  · rename_i h1 h2; exact h _ _ _ _ h1 (List.mem_of_getElem? h2)
  · trivial

theorem arr1_mine {P : LpVar → Prop} {evs : List ChargeEventCfg} {g : ChargeEventCfg → Nat → Val} (h : ∀ ev e, ev ∈ evs → (g ev e).Over P)
    (e : Nat) : (arr1 evs g e).Over P := by
  unfold arr1
  split
  · rename_i h1; exact h _ _ (List.mem_of_getElem? h1)
  · trivial

theorem array_mine (c : EvsCfg) : (c.array i f flags).Over (MineOf (.evs c) flags) where
  initialSoc := arr1_mine fun ev _ h => ⟨rfl, by decide, ev, h, rfl⟩
  finalSoc := arr1_mine fun ev _ h => ⟨rfl, by decide, ev, h, rfl⟩
  charge := arr2_mine fun ev e ch k h1 h2 => (obj_mine c _ _ false k h1 h2).1
  chargeBin := arr2_mine fun ev e ch k h1 h2 => (obj_mine c _ _ false k h1 h2).2.1
  discharge := arr2_mine fun ev e ch k h1 h2 => (obj_mine c _ _ false k h1 h2).2.2.1
  dischargeBin := arr2_mine fun ev e ch k h1 h2 => (obj_mine c _ _ false k h1 h2).2.2.2.1
  loss := arr2_mine fun ev e ch k h1 h2 => (obj_mine (f := f) c true true false k h1 h2).2.2.2.2.2.2

theorem spillArray_mine (c : EvsCfg) : (c.spillArray i f flags).Over (MineOf (.evs c) flags) where
  initialSoc := arr1_mine fun _ _ _ => trivial
  finalSoc := arr1_mine fun _ _ _ => trivial
  charge := arr2_mine fun ev e ch k h1 h2 => (obj_mine c _ _ true k h1 h2).1
  chargeBin := arr2_mine fun ev e ch k h1 h2 => (obj_mine c _ _ true k h1 h2).2.1
  discharge := arr2_mine fun ev e ch k h1 h2 => (obj_mine c _ _ true k h1 h2).2.2.1
  dischargeBin := arr2_mine fun ev e ch k h1 h2 => (obj_mine c _ _ true k h1 h2).2.2.2.1
  loss := arr2_mine fun ev e ch k h1 h2 => (obj_mine (f := f) c false false true k h1 h2).2.2.2.2.2.2

/-- The constraints of an asset are over its variables only. -/
theorem within_mine {a : Asset} : ∀ con ∈ a.withinList i f flags, con.Over (MineOf a flags) := by
  intro con hcon
  have own : ∀ {v : LpVar}, a.Mine flags v.id → (Expr.var v).Over (MineOf a flags) := fun h => Expr.Over.var h
  cases a with
  | battery c =>
    have own : ∀ {attr j low up b}, attr ∈ plainAttrs → (Expr.var ⟨.asset c.name attr j, low, up, b⟩).Over (MineOf (.battery c) flags) :=
      fun h => own ⟨_, h, _, rfl⟩
    simp only [Asset.withinList, BatteryCfg.withinList, constrainOnlyChargeOrDischarge, constrainBatteryElectricityBalance, List.mem_append,
      List.mem_cons, List.not_mem_nil, or_false] at hcon
    rcases hcon with ((rfl | rfl | rfl) | rfl | rfl) | hcon
    · exact Expr.Over.max (own (by decide)) (own (by decide)) _
    · exact Expr.Over.max (own (by decide)) (own (by decide)) _
    · exact Expr.Over.leC (.add (own (by decide)) (own (by decide))) (.num _)
    · exact Expr.Over.eqC (.sub (.sub (.add (own (by decide)) (own (by decide))) (own (by decide))) (own (by decide))) (own (by decide))
    · exact Expr.Over.eqC (own (by decide)) (.mul (own (by decide)) _)
    · split at hcon
      · simp at hcon
      · rw [List.mem_singleton] at hcon
        exact hcon ▸ Expr.Over.eqC (own (by decide)) (own (by decide))
  | boiler c =>
    have own : ∀ {attr j low up b}, attr ∈ plainAttrs → (Expr.var ⟨.asset c.name attr j, low, up, b⟩).Over (MineOf (.boiler c) flags) :=
      fun h => own ⟨_, h, _, rfl⟩
    simp only [Asset.withinList, BoilerCfg.withinList, List.mem_cons, List.not_mem_nil, or_false] at hcon
    rcases hcon with rfl | rfl | rfl
    · exact Expr.Over.eqC (own (by decide)) (.mul (own (by decide)) _)
    · exact Expr.Over.max (own (by decide)) (own (by decide)) _
    · exact Expr.Over.min (own (by decide)) (own (by decide)) _
  | chp c =>
    have own : ∀ {attr j low up b}, attr ∈ plainAttrs → (Expr.var ⟨.asset c.name attr j, low, up, b⟩).Over (MineOf (.chp c) flags) :=
      fun h => own ⟨_, h, _, rfl⟩
    simp only [Asset.withinList, ChpCfg.withinList, List.mem_append, List.mem_cons, List.not_mem_nil, or_false] at hcon
    rcases hcon with hcon | rfl | rfl | rfl | rfl
    · split at hcon
      · rw [List.mem_singleton] at hcon
        exact hcon ▸ Expr.Over.eqC (own (by decide)) (.mul (own (by decide)) _)
      · simp at hcon
    · exact Expr.Over.eqC (own (by decide)) (.mul (own (by decide)) _)
    · exact Expr.Over.eqC (own (by decide)) (.mul (own (by decide)) _)
    · exact Expr.Over.max (own (by decide)) (own (by decide)) _
    · exact Expr.Over.min (own (by decide)) (own (by decide)) _
  | heatPump c =>
    have own : ∀ {attr j low up b}, attr ∈ taggedAttrs → (Expr.var ⟨.tagged attr j c.name, low, up, b⟩).Over (MineOf (.heatPump c) flags) :=
      fun h => own ⟨_, h, _, rfl⟩
    simp only [Asset.withinList, HeatPumpCfg.withinList, List.mem_cons, List.not_mem_nil, or_false] at hcon
    rcases hcon with rfl | rfl | rfl
    · exact Expr.Over.max (own (by decide)) (own (by decide)) _
    · exact Expr.Over.eqC (own (by decide)) (.mul (own (by decide)) _)
    · exact Expr.Over.eqC (.add (own (by decide)) (own (by decide))) (own (by decide))
  | renewable c => simp [Asset.withinList] at hcon
  | spill c => simp [Asset.withinList] at hcon
  | valve c =>
    have own : ∀ {attr j low up b}, attr ∈ plainAttrs → (Expr.var ⟨.asset c.name attr j, low, up, b⟩).Over (MineOf (.valve c) flags) :=
      fun h => own ⟨_, h, _, rfl⟩
    simp only [Asset.withinList, ValveCfg.withinList, List.mem_cons, List.not_mem_nil, or_false] at hcon
    exact hcon ▸ Expr.Over.eqC (own (by decide)) (own (by decide))
  | evs c =>
    simp only [Asset.withinList, EvsCfg.withinList, List.mem_append] at hcon
    rcases hcon with (((hcon | hcon) | hcon) | hcon) | hcon
    · exact evMinMax_over (array_mine c) con hcon
    · exact evMinMax_over (spillArray_mine c) con hcon
    · exact single_over (array_mine c) _ _ con hcon
    · exact balance_over (array_mine c) (spillArray_mine c) con hcon
    · split at hcon
      · simp at hcon
      · exact connection_over (array_mine c) (array_mine c) con hcon

theorem after_mine {a : Asset} {n : Nat} : ∀ con ∈ a.afterList n f flags, con.Over (MineOf a flags) := by
  intro con hcon
  cases a with
  | battery c =>
    simp only [Asset.afterList, BatteryCfg.afterList, List.mem_cons, List.not_mem_nil, or_false] at hcon
    rcases hcon with rfl | rfl <;> exact Expr.Over.eqC (.var ⟨_, by decide, _, rfl⟩) (.num _)
  | evs c =>
    simp only [Asset.afterList, EvsCfg.afterList, List.mem_flatMap, List.mem_cons, List.not_mem_nil, or_false] at hcon
    obtain ⟨ev, _, rfl | rfl⟩ := hcon
    · exact Expr.Over.eqC ((array_mine c).initialSoc _).toExpr (.num _)
    · exact Expr.Over.eqC ((array_mine c).finalSoc _).toExpr (.num _)
  | _ => simp [Asset.afterList] at hcon

end

/-- The variables of the site and of its assets. -/
def Site.Holds (s : Site) (flags : Flags) (v : LpVar) : Prop := siteMine v.id ∨ ∃ a ∈ s.assets, a.Mine flags v.id

section
variable {s : Site} {flags : Flags}

theorem ones_mine {n i : Nat} (hv : VarsOk s flags n) (hi : i < n) (hb : ∀ a ∈ s.assets, a.Buildable i) {o : OneInterval}
    (ho : o ∈ s.ones flags i) : o.base.AllOver (s.Holds flags) ∧ o.Over (s.Holds flags) := by
  rw [ones_eq hv hi, List.mem_cons, List.mem_flatMap] at ho
  rcases ho with rfl | ⟨a, ha, ho⟩
  · have h1 : (OneInterval.site (s.oneInterval i)).base.AllOver (s.Holds flags) :=
      ⟨trivial, trivial, trivial, trivial, trivial, trivial, trivial, trivial, trivial, trivial⟩
    refine ⟨h1, OneInterval.over_iff.2 ⟨fun attr v hv => h1.get hv, ?_⟩⟩
    intro attr v _ hv
    simp only [OneInterval.extra?] at hv
    repeat' split at hv
    all_goals first | (simp only [Option.some.injEq] at hv; subst hv; first | exact .inl ⟨_, by decide, _, rfl⟩ | trivial) | simp at hv
  · obtain ⟨h1, h2⟩ := ois_mine (hb a ha) ho
    have mono : ∀ v : Val, v.Over (MineOf a flags) → v.Over (s.Holds flags) := by
      intro v hv
      cases v with
      | var v => exact .inr ⟨a, ha, hv⟩
      | _ => trivial
    exact ⟨⟨mono _ h1.1, mono _ h1.2, mono _ h1.3, mono _ h1.4, mono _ h1.5, mono _ h1.6, mono _ h1.7, mono _ h1.8, mono _ h1.9, mono _ h1.10⟩,
      fun attr v hv => mono v (h2 attr v hv)⟩

theorem siteList_mine {n i : Nat} (hv : VarsOk s flags n) (hi : i < n) (hb : ∀ a ∈ s.assets, a.Buildable i) :
    ∀ con ∈ s.siteList flags i, con.Over (s.Holds flags) := by
  intro con hcon
  have h := fun (o : OneInterval) (ho : o ∈ s.ones flags i) => (ones_mine hv hi hb ho).1
  simp only [Site.siteList, Site.withinList, List.mem_cons, List.not_mem_nil, or_false] at hcon
  have vs : ∀ {attr low up b}, attr ∈ ["import_power_mw", "export_power_mw", "import_power_bin", "export_power_bin"] →
      s.Holds flags ⟨.site attr i, low, up, b⟩ := fun h => .inl ⟨_, h, _, rfl⟩
  rcases hcon with rfl | rfl | rfl | rfl | rfl | rfl
  · exact Expr.Over.eqC (.add (.sub (.sub (.add (.sub (.sub (.var (vs (by decide))) (.var (vs (by decide)))) (.num _))
      (sumOver_over fun o ho => (h o ho).electricGeneration)) (sumOver_over fun o ho => (h o ho).electricLoad))
      (sumOver_over fun o ho => (h o ho).electricCharge)) (sumOver_over fun o ho => (h o ho).electricDischarge)) (.num _)
  · exact Expr.Over.leC (.sub (.var (vs (by decide))) (.mul (.var (vs (by decide))) _)) (.num _)
  · exact Expr.Over.leC (.sub (.var (vs (by decide))) (.mul (.var (vs (by decide))) _)) (.num _)
  · exact Expr.Over.eqC (.add (.var (vs (by decide))) (.var (vs (by decide)))) (.num _)
  · exact Expr.Over.eqC (.sub (.sub (sumOver_over fun o ho => (h o ho).htGeneration) (sumOver_over fun o ho => (h o ho).htLoad)) (.num _)) (.num _)
  · exact Expr.Over.eqC (.add (.sub (.sub (sumOver_over fun o ho => (h o ho).ltGeneration) (sumOver_over fun o ho => (h o ho).ltLoad)) (.num _))
      (.num _)) (.num _)

end

end EPL
