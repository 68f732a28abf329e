/-
The flows of the assets: columns against variables.
-/
import Verif.Proofs.EvTable
import Verif.Spec.Balance

namespace EPL

/-- The value of a flow of an object. -/
def OneInterval.flow (σ : Assign) (q : String) (o : OneInterval) : ℚ := ((o.base.get? q).getD (.int 0)).eval σ

theorem list_sum_zero {α : Type} {l : List α} {g : α → ℚ} (h : ∀ a ∈ l, g a = 0) : (l.map g).sum = 0 := by
  induction l with
  | nil => rfl
  | cons a l ih =>
    simp only [List.map_cons, List.sum_cons]
    rw [h a (by simp), ih (fun b hb => h b (by simp [hb])), add_zero]

theorem list_sum_add {α : Type} (l : List α) (g g' : α → ℚ) : (l.map (fun a => g a + g' a)).sum = (l.map g).sum + (l.map g').sum := by
  induction l with
  | nil => simp
  | cons a l ih =>
    simp only [List.map_cons, List.sum_cons, ih]
    ring

theorem list_sum_swap {α β : Type} (l : List α) (m : List β) (g : α → β → ℚ) :
    (l.map (fun a => (m.map (fun b => g a b)).sum)).sum = (m.map (fun b => (l.map (fun a => g a b)).sum)).sum := by
  induction l with
  | nil => simp
  | cons a l ih => simp only [List.map_cons, List.sum_cons, ih, list_sum_add]

theorem list_sum_flatMap {α β : Type} (l : List α) (k : α → List β) (g : β → ℚ) :
    ((l.flatMap k).map g).sum = (l.map (fun a => ((k a).map g).sum)).sum := by
  induction l with
  | nil => simp
  | cons a l ih => simp only [List.flatMap_cons, List.map_append, List.sum_append, List.map_cons, List.sum_cons, ih]

theorem list_sum_congr {α : Type} {l : List α} {g g' : α → ℚ} (h : ∀ a ∈ l, g a = g' a) : (l.map g).sum = (l.map g').sum := by
  rw [List.map_congr_left h]

/-- The objects of an EV asset, summed: a double sum over chargers and charge events. -/
theorem objs_sum {c : EvsCfg} {chs : List ChargerCfg} {i : Nat} {f : Freq} {flags : Flags} {cs cd isp : Bool} {g : EvOI → ℚ}
    {val : Nat → ChargerCfg → ℚ}
    (hg : ∀ ev e ch k, c.events[e]? = some ev → chs[k]? = some ch → g (c.obj i f flags cs cd isp ev e ch k) = val e ch) :
    ((c.objs chs i f flags cs cd isp).map g).sum = (chs.map (fun ch => c.sumEvents (fun e => val e ch))).sum := by
  unfold EvsCfg.objs
  rw [list_sum_flatMap]
  have h1 : (c.events.zipIdx.map (fun ev => ((chs.zipIdx.map (fun ch => c.obj i f flags cs cd isp ev.1 ev.2 ch.1 ch.2)).map g).sum)).sum =
      (c.events.zipIdx.map (fun ev => (chs.map (fun ch => val ev.2 ch)).sum)).sum := by
    apply list_sum_congr
    rintro ⟨ev, e⟩ he
    rw [List.map_map]
    have : ∀ ch ∈ chs.zipIdx, (g ∘ fun ch : ChargerCfg × Nat => c.obj i f flags cs cd isp ev e ch.1 ch.2) ch = val e ch.1 := by
      rintro ⟨ch, k⟩ hk
      exact hg ev e ch k (mem_zipIdx_iff.1 he) (mem_zipIdx_iff.1 hk)
    rw [List.map_congr_left this]
    have h2 : chs.zipIdx.map (fun ch => val e ch.1) = (chs.zipIdx.map Prod.fst).map (fun ch => val e ch) := by
      rw [List.map_map]; rfl
    rw [h2, List.zipIdx_map_fst]
  rw [h1]
  have h2 : c.events.zipIdx.map (fun ev => (chs.map (fun ch => val ev.2 ch)).sum) =
      (List.range c.events.length).map (fun e => (chs.map (fun ch => val e ch)).sum) := by
    have : c.events.zipIdx.map (fun ev => (chs.map (fun ch => val ev.2 ch)).sum) =
      (c.events.zipIdx.map Prod.snd).map (fun e => (chs.map (fun ch => val e ch)).sum) := by
      rw [List.map_map]; rfl
    rw [this, List.zipIdx_map_snd, ← List.range_eq_range']
  rw [h2, list_sum_swap]
  rfl

section
variable {s : Site} {objective : Objective} {flags : Flags} {S : Solver} {r : SimResult} {V : String → Nat → ℚ} {p : Prob}
  {σ : Assign}

/-- The columns of a flow of some chargers. -/
def EvsCfg.reportsOf (c : EvsCfg) (chs : List ChargerCfg) (q : String) : List String :=
  if q ∈ ["electric_charge_mwh", "electric_discharge_mwh"] then chs.map (fun ch => c.name ++ "-" ++ ch.name ++ "-" ++ q) else []

/-- The columns of a flow of the chargers and of the spill charger sum to the values of the variables. -/
theorem ev_flow (h : Core s objective flags S r V p σ) {c : EvsCfg} (ha : Asset.evs c ∈ s.assets) (hw : pyIn "evs" c.name = true)
    {i : Nat} (hi : i < s.data.n) {q : String} (hq : q ∈ quantities) :
    rowSum V (c.reportsOf c.chargers q) i =
      (((c.objs c.chargers i s.freq flags true true false).map .ev).map (OneInterval.flow σ q)).sum ∧
    rowSum V (c.reportsOf c.spillChargers q) i =
      (((c.objs c.spillChargers i s.freq flags false false true).map .evSpill).map (OneInterval.flow σ q)).sum := by
  obtain ⟨_, hrow⟩ := (h.prog.buildable hi ha : c.Shape ∧ c.HasRow i)
  rw [List.map_map, List.map_map]
  simp only [quantities, List.mem_cons, List.not_mem_nil, or_false] at hq
  by_cases hq1 : q = "electric_charge_mwh"
  · subst hq1
    rw [objs_sum (i := i) (f := s.freq) (flags := flags) (cs := true) (cd := true) (isp := false) (val := fun e ch => c.chargeOf flags σ i e ch.name false)
        (g := OneInterval.flow σ "electric_charge_mwh" ∘ .ev) (fun ev e ch k he _ => obj_charge (f := s.freq) (flags := flags) (ch := ch) (k := k) hrow he true true false),
      objs_sum (i := i) (f := s.freq) (flags := flags) (cs := false) (cd := false) (isp := true) (val := fun e ch => c.chargeOf flags σ i e ch.name true)
        (g := OneInterval.flow σ "electric_charge_mwh" ∘ .evSpill) (fun ev e ch k he _ => obj_charge (f := s.freq) (flags := flags) (ch := ch) (k := k) hrow he false false true)]
    simp only [EvsCfg.reportsOf, List.mem_cons, true_or, if_true, rowSum, List.map_map, Function.comp_def]
    exact ⟨list_sum_congr (fun ch hch => (ev_charger_cell h ha hw hi hch).1),
      list_sum_congr (fun ch hch => (ev_spill_cell h ha hw hi hch).1)⟩
  by_cases hq2 : q = "electric_discharge_mwh"
  · subst hq2
    rw [objs_sum (i := i) (f := s.freq) (flags := flags) (cs := true) (cd := true) (isp := false) (val := fun e ch => c.dischargeOf flags σ i e ch.name)
        (g := OneInterval.flow σ "electric_discharge_mwh" ∘ .ev) (fun ev e ch k he _ => obj_discharge (c := c) (i := i) (flags := flags) (f := s.freq) (ev := ev) (e := e) (ch := ch) (k := k) true),
      objs_sum (i := i) (f := s.freq) (flags := flags) (cs := false) (cd := false) (isp := true) (val := fun e ch => 0)
        (g := OneInterval.flow σ "electric_discharge_mwh" ∘ .evSpill) (fun ev e ch k he _ => obj_discharge_spill (σ := σ) (c := c) (i := i) (flags := flags) (f := s.freq) (ev := ev) (e := e) (ch := ch) (k := k) false true)]
    simp only [EvsCfg.reportsOf, List.mem_cons, true_or, or_true, if_true, rowSum, List.map_map, Function.comp_def]
    exact ⟨list_sum_congr (fun ch hch => (ev_charger_cell h ha hw hi hch).2.2.1),
      list_sum_congr (fun ch hch => (ev_spill_cell h ha hw hi hch).2.1.trans (by simp [EvsCfg.sumEvents]))⟩
  have z1 : ∀ o : EvOI, (OneInterval.flow σ q ∘ .ev) o = 0 := by
    intro o
    rcases hq with rfl | rfl | rfl | rfl | rfl | rfl | rfl | rfl | rfl <;>
      first
        | exact absurd rfl hq1
        | exact absurd rfl hq2
        | simp [OneInterval.flow, Base.get?, OneInterval.base, Val.eval]
  have z2 : ∀ o : EvOI, (OneInterval.flow σ q ∘ .evSpill) o = 0 := by
    intro o
    rcases hq with rfl | rfl | rfl | rfl | rfl | rfl | rfl | rfl | rfl <;>
      first
        | exact absurd rfl hq1
        | exact absurd rfl hq2
        | simp [OneInterval.flow, Base.get?, OneInterval.base, Val.eval]
  rw [list_sum_zero (fun o _ => z1 o), list_sum_zero (fun o _ => z2 o)]
  simp [EvsCfg.reportsOf, hq1, hq2, rowSum]

/-- The columns of a flow of an asset sum to the values of the variables. -/
theorem asset_flow (h : Core s objective flags S r V p σ) {a : Asset} (ha : a ∈ s.assets) (hw : a.WellNamed) {i : Nat}
    (hi : i < s.data.n) {q : String} (hq : q ∈ quantities) :
    rowSum V (a.reports q) i = ((a.ois i s.freq flags).map (OneInterval.flow σ q)).sum := by
  simp only [quantities, List.mem_cons, List.not_mem_nil, or_false] at hq
  have hn := hw.ne_total
  cases a with
  | battery c =>
    obtain ⟨e1, e2, _⟩ := battery_cells h ha hn hi
    simp only [ois_battery]
    rcases hq with rfl | rfl | rfl | rfl | rfl | rfl | rfl | rfl | rfl <;>
      simp [Asset.reports, Asset.flows, Asset.units, Asset.name, rowSum, OneInterval.flow, Base.get?, OneInterval.base, Val.eval,
        String.append_assoc, e1, e2]
  | boiler c =>
    obtain ⟨e1, e2⟩ := boiler_cells h ha hn hi
    rw [show (Asset.boiler c).ois i s.freq flags = [.boiler (c.oneInterval i s.freq)] from rfl]
    rcases hq with rfl | rfl | rfl | rfl | rfl | rfl | rfl | rfl | rfl <;>
      simp [Asset.reports, Asset.flows, Asset.units, Asset.name, rowSum, OneInterval.flow, Base.get?, OneInterval.base, Val.eval,
        String.append_assoc, e1, e2]
  | chp c =>
    obtain ⟨e1, e2, e3, e4⟩ := chp_cells h ha hn hi
    rw [show (Asset.chp c).ois i s.freq flags = [.chp (c.oneInterval i s.freq)] from rfl]
    rcases hq with rfl | rfl | rfl | rfl | rfl | rfl | rfl | rfl | rfl <;>
      simp [Asset.reports, Asset.flows, Asset.units, Asset.name, rowSum, OneInterval.flow, Base.get?, OneInterval.base, Val.eval,
        String.append_assoc, e1, e2, e3, e4]
  | heatPump c =>
    obtain ⟨e1, e2, e3⟩ := heatPump_cells h ha hn hi
    rw [show (Asset.heatPump c).ois i s.freq flags = [.heatPump (c.oneInterval i s.freq)] from rfl]
    rcases hq with rfl | rfl | rfl | rfl | rfl | rfl | rfl | rfl | rfl <;>
      simp [Asset.reports, Asset.flows, Asset.units, Asset.name, rowSum, OneInterval.flow, Base.get?, OneInterval.base, Val.eval,
        String.append_assoc, e1, e2, e3]
  | renewable c =>
    have e1 := renewable_cells h ha hn hi
    rw [ois_renewable (h.prog.buildable hi ha)]
    rcases hq with rfl | rfl | rfl | rfl | rfl | rfl | rfl | rfl | rfl <;>
      simp [Asset.reports, Asset.flows, Asset.units, Asset.name, rowSum, OneInterval.flow, Base.get?, OneInterval.base, Val.eval,
        String.append_assoc, e1]
  | spill c =>
    obtain ⟨e1, e2, e3, e4, e5, e6, e7⟩ := spill_cells h ha hn hi
    rw [show (Asset.spill c).ois i s.freq flags = [.spill (c.oneInterval i)] from rfl]
    rcases hq with rfl | rfl | rfl | rfl | rfl | rfl | rfl | rfl | rfl <;>
      simp [Asset.reports, Asset.flows, Asset.units, Asset.name, rowSum, OneInterval.flow, Base.get?, OneInterval.base, Val.eval,
        String.append_assoc, e1, e2, e3, e4, e5, e6, e7]
  | valve c =>
    obtain ⟨e1, e2⟩ := valve_cells h ha hn hi
    rw [show (Asset.valve c).ois i s.freq flags = [.valve (c.oneInterval i)] from rfl]
    rcases hq with rfl | rfl | rfl | rfl | rfl | rfl | rfl | rfl | rfl <;>
      simp [Asset.reports, Asset.flows, Asset.units, Asset.name, rowSum, OneInterval.flow, Base.get?, OneInterval.base, Val.eval,
        String.append_assoc, e1, e2]
  | evs c =>
    obtain ⟨_, hrow⟩ := (h.prog.buildable hi ha : c.Shape ∧ c.HasRow i)
    have ho : (Asset.evs c).ois i s.freq flags = (c.objs c.chargers i s.freq flags true true false).map .ev ++
        (c.objs c.spillChargers i s.freq flags false false true).map .evSpill := by
      simp only [Asset.ois, ois_evs (hrow.matOk _)]
    have hq' : q ∈ quantities := by
      simp only [quantities, List.mem_cons, List.not_mem_nil, or_false]; exact hq
    obtain ⟨e1, e2⟩ := ev_flow h ha hw.1 hi hq'
    rw [ho, List.map_append, List.sum_append, ← e1, ← e2]
    by_cases hm : q ∈ ["electric_charge_mwh", "electric_discharge_mwh"]
    · rw [Asset.reports, if_pos (show q ∈ (Asset.evs c).flows from hm), EvsCfg.reportsOf, EvsCfg.reportsOf, if_pos hm, if_pos hm]
      simp only [Asset.units, rowSum, List.map_append, List.map_map, List.sum_append, Function.comp_def]
    · rw [Asset.reports, if_neg (show q ∉ (Asset.evs c).flows from hm), EvsCfg.reportsOf, EvsCfg.reportsOf, if_neg hm, if_neg hm]
      simp [rowSum]

end

end EPL
