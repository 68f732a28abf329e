/-
EVs: the objects of one interval and the arrays `create_evs_array` collects, explicitly.
-/
import Verif.Proofs.Cons

namespace EPL

/-- The variables of charge event `e` exist in interval `i`: always, unless `limit_charge_variables_to_valid_events` is set and
the charge event matrix is not 1 there. -/
def EvsCfg.active (c : EvsCfg) (flags : Flags) (i e : Nat) : Bool :=
  !flags.limitChargeVariables || (match matIndex c.chargeEvents i e with | .ok ce => decide (ce = 1) | .error _ => false)

/-- The object of one charge event and one charger. -/
def EvsCfg.obj (c : EvsCfg) (i : Nat) (f : Freq) (flags : Flags) (createSoc createDischarge isSpill : Bool)
    (ev : ChargeEventCfg) (e : Nat) (ch : ChargerCfg) (k : Nat) : EvOI where
  cfg := c
  i := i
  eventIdx := e
  eventCfg := ev
  chargerIdx := k
  chargerCfg := ch
  charge := if c.active flags i e then
      .var (continuous (.evFlow "electric_charge_mwh" i c.name e ch.name isSpill) (low := some 0)
        (up := some (f.mwToMwh ch.powerMax)))
    else .num 0
  chargeBin := if c.active flags i e then
      .var (binary (.evFlow "electric_charge_binary" i c.name e ch.name isSpill))
    else .int 0
  discharge := if createDischarge && flags.allowEvsDischarge then
      .var (continuous (.evFlow "electric_discharge_mwh" i c.name e ch.name isSpill) (low := some 0)
        (up := some (f.mwToMwh ch.powerMax)))
    else .num 0
  dischargeBin := if createDischarge && flags.allowEvsDischarge then
      .var (binary (.evFlow "electric_discharge_binary" i c.name e ch.name isSpill))
    else .int 0
  initialSoc := if createSoc then
      .var (continuous (.evSoc "initial_soc_mwh" i c.name ev.name) (low := some 0) (up := some ev.capacity))
    else .num 0
  finalSoc := if createSoc then
      .var (continuous (.evSoc "final_soc_mwh" i c.name ev.name) (low := some 0) (up := some ev.capacity))
    else .num 0
  loss := .var (continuous (.evFlow "electric_loss_mwh" i c.name e ch.name isSpill) (low := some 0))

/-- The matrix entries the variables depend on exist. -/
def EvsCfg.MatOk (c : EvsCfg) (flags : Flags) (i : Nat) : Prop :=
  flags.limitChargeVariables = true → ∀ e < c.events.length, ∃ q, matIndex c.chargeEvents i e = .ok q

theorem evOneCharger_eq {c : EvsCfg} {i : Nat} {f : Freq} {flags : Flags} {cs cd isp : Bool} {e : Nat}
    {ev : ChargeEventCfg} {k : Nat} {ch : ChargerCfg} {v1 v2 : Val}
    (h1 : v1 = if cs then
        Val.var (continuous (.evSoc "initial_soc_mwh" i c.name ev.name) (low := some 0) (up := some ev.capacity))
      else Val.num 0)
    (h2 : v2 = if cs then
        Val.var (continuous (.evSoc "final_soc_mwh" i c.name ev.name) (low := some 0) (up := some ev.capacity))
      else Val.num 0)
    (hm : flags.limitChargeVariables = true → ∃ q, matIndex c.chargeEvents i e = .ok q) :
    evOneCharger c i f flags cd isp e ev v1 v2 k ch = .ok (c.obj i f flags cs cd isp ev e ch k) := by
  unfold evOneCharger EvsCfg.obj EvsCfg.active
  subst h1 h2
  cases hf : flags.limitChargeVariables with
  | false => cases cs <;> cases hd : (cd && flags.allowEvsDischarge) <;> simp
  | true =>
    obtain ⟨q, hq⟩ := hm hf
    by_cases hce : q = 1
    · cases cs <;> cases hd : (cd && flags.allowEvsDischarge) <;> simp [hq, hce]
    · cases cs <;> cases hd : (cd && flags.allowEvsDischarge) <;> simp [hq, hce]

theorem evOneCharger_mat {c : EvsCfg} {i : Nat} {f : Freq} {flags : Flags} {cd isp : Bool} {e : Nat}
    {ev : ChargeEventCfg} {k : Nat} {ch : ChargerCfg} {v1 v2 : Val} {o : EvOI}
    (h : evOneCharger c i f flags cd isp e ev v1 v2 k ch = .ok o) (hf : flags.limitChargeVariables = true) :
    ∃ q, matIndex c.chargeEvents i e = .ok q := by
  unfold evOneCharger at h
  cases hm : matIndex c.chargeEvents i e with
  | error er => simp [hf, hm] at h
  | ok q => exact ⟨q, rfl⟩

/-- All objects of an interval for a list of chargers. -/
def EvsCfg.objs (c : EvsCfg) (chs : List ChargerCfg) (i : Nat) (f : Freq) (flags : Flags) (cs cd isp : Bool) : List EvOI :=
  c.events.zipIdx.flatMap (fun ev => chs.zipIdx.map (fun ch => c.obj i f flags cs cd isp ev.1 ev.2 ch.1 ch.2))

theorem mem_zipIdx_iff {α : Type} {l : List α} {a : α} {e : Nat} : (a, e) ∈ l.zipIdx ↔ l[e]? = some a := by
  simp [List.mem_zipIdx_iff_getElem?]

theorem zipIdx_lt {α : Type} {l : List α} {x : α × Nat} (h : x ∈ l.zipIdx) : x.2 < l.length := by
  obtain ⟨a, e⟩ := x
  rw [mem_zipIdx_iff] at h
  exact (List.getElem?_eq_some_iff.1 h).1

theorem evsOneInterval_eq {c : EvsCfg} {chs : List ChargerCfg} {i : Nat} {f : Freq} {flags : Flags} {cs cd isp : Bool}
    (hm : c.MatOk flags i) :
    evsOneInterval c chs i f flags cs cd isp = .ok (c.objs chs i f flags cs cd isp) := by
  unfold evsOneInterval EvsCfg.objs
  apply flatMapE_eq
  intro ev hev
  apply mapE_eq_map
  intro ch _
  apply evOneCharger_eq (cs := cs)
  · rfl
  · rfl
  · intro hf
    exact hm hf _ (zipIdx_lt hev)

theorem evsOneInterval_mat {c : EvsCfg} {chs : List ChargerCfg} {i : Nat} {f : Freq} {flags : Flags} {cs cd isp : Bool}
    {l : List EvOI} (h : evsOneInterval c chs i f flags cs cd isp = .ok l) (hne : chs ≠ []) : c.MatOk flags i := by
  intro hf e he
  unfold evsOneInterval at h
  have hmem : (c.events[e], e) ∈ c.events.zipIdx := by rw [mem_zipIdx_iff]; simp [he]
  obtain ⟨bs, hbs⟩ := flatMapE_all_ok h hmem
  cases chs with
  | nil => exact absurd rfl hne
  | cons ch chs =>
    obtain ⟨b, hb⟩ := mapE_all_ok hbs (a := (ch, 0)) (by simp)
    exact evOneCharger_mat hb.2 hf

/-! ### The arrays -/

theorem foldl_set2 {l : List EvOI} {a : Nat → Nat → Val} {g : EvOI → Val} {e k : Nat} {v : Val}
    (h : ∀ o ∈ l, o.eventIdx = e → o.chargerIdx = k → g o = v) :
    l.foldl (fun x o => set2 x o.eventIdx o.chargerIdx (g o)) a e k =
      if ∃ o ∈ l, o.eventIdx = e ∧ o.chargerIdx = k then v else a e k := by
  induction l generalizing a with
  | nil => simp
  | cons o l ih =>
    rw [List.foldl_cons, ih (fun o' ho' => h o' (List.mem_cons_of_mem _ ho'))]
    by_cases h1 : ∃ o' ∈ l, o'.eventIdx = e ∧ o'.chargerIdx = k
    · rw [if_pos h1, if_pos]
      obtain ⟨o', ho', h2⟩ := h1
      exact ⟨o', List.mem_cons_of_mem _ ho', h2⟩
    · rw [if_neg h1]
      by_cases h2 : o.eventIdx = e ∧ o.chargerIdx = k
      · rw [if_pos ⟨o, by simp, h2⟩]
        simp [set2, h2.1, h2.2, h o (by simp) h2.1 h2.2]
      · rw [if_neg]
        · simp only [set2]
          rw [if_neg]
          rintro ⟨rfl, rfl⟩
          exact h2 ⟨rfl, rfl⟩
        · rintro ⟨o', ho', h3⟩
          rcases List.mem_cons.1 ho' with rfl | ho'
          · exact h2 h3
          · exact h1 ⟨o', ho', h3⟩

theorem foldl_set1 {l : List EvOI} {a : Nat → Val} {g : EvOI → Val} {e : Nat} {v : Val}
    (h : ∀ o ∈ l, o.eventIdx = e → g o = v) :
    l.foldl (fun x o => set1 x o.eventIdx (g o)) a e = if ∃ o ∈ l, o.eventIdx = e then v else a e := by
  induction l generalizing a with
  | nil => simp
  | cons o l ih =>
    rw [List.foldl_cons, ih (fun o' ho' => h o' (List.mem_cons_of_mem _ ho'))]
    by_cases h1 : ∃ o' ∈ l, o'.eventIdx = e
    · rw [if_pos h1, if_pos]
      obtain ⟨o', ho', h2⟩ := h1
      exact ⟨o', List.mem_cons_of_mem _ ho', h2⟩
    · rw [if_neg h1]
      by_cases h2 : o.eventIdx = e
      · rw [if_pos ⟨o, by simp, h2⟩]
        simp [set1, h2, h o (by simp) h2]
      · rw [if_neg]
        · simp only [set1]
          rw [if_neg]
          exact fun h => h2 h.symm
        · rintro ⟨o', ho', h3⟩
          rcases List.mem_cons.1 ho' with rfl | ho'
          · exact h2 h3
          · exact h1 ⟨o', ho', h3⟩

theorem foldl_assign (l : List EvOI) (a : EvsArray) :
    l.foldl EvsArray.assign a =
      { cfg := a.cfg
        initialSoc := l.foldl (fun x o => set1 x o.eventIdx o.initialSoc) a.initialSoc
        finalSoc := l.foldl (fun x o => set1 x o.eventIdx o.finalSoc) a.finalSoc
        charge := l.foldl (fun x o => set2 x o.eventIdx o.chargerIdx o.charge) a.charge
        chargeBin := l.foldl (fun x o => set2 x o.eventIdx o.chargerIdx o.chargeBin) a.chargeBin
        discharge := l.foldl (fun x o => set2 x o.eventIdx o.chargerIdx o.discharge) a.discharge
        dischargeBin := l.foldl (fun x o => set2 x o.eventIdx o.chargerIdx o.dischargeBin) a.dischargeBin
        loss := l.foldl (fun x o => set2 x o.eventIdx o.chargerIdx o.loss) a.loss } := by
  induction l generalizing a with
  | nil => rfl
  | cons o l ih => rw [List.foldl_cons, ih]; rfl

/-- A two dimensional array filled from the charge events and chargers, zero outside. -/
def arr2 (evs : List ChargeEventCfg) (chs : List ChargerCfg) (g : ChargeEventCfg → Nat → ChargerCfg → Nat → Val)
    (e k : Nat) : Val :=
  match evs[e]?, chs[k]? with
  | some ev, some ch => g ev e ch k
  | _, _ => .num 0

/-- A one dimensional array filled from the charge events, zero outside. -/
def arr1 (evs : List ChargeEventCfg) (g : ChargeEventCfg → Nat → Val) (e : Nat) : Val :=
  match evs[e]? with
  | some ev => g ev e
  | none => .num 0

theorem objs_mem {c : EvsCfg} {chs : List ChargerCfg} {i : Nat} {f : Freq} {flags : Flags} {cs cd isp : Bool} {o : EvOI} :
    o ∈ c.objs chs i f flags cs cd isp ↔ ∃ e ev k ch, c.events[e]? = some ev ∧ chs[k]? = some ch ∧
      o = c.obj i f flags cs cd isp ev e ch k := by
  simp only [EvsCfg.objs, List.mem_flatMap, List.mem_map, Prod.exists, mem_zipIdx_iff]
  constructor
  · rintro ⟨ev, e, hev, ch, k, hch, rfl⟩
    exact ⟨e, ev, k, ch, hev, hch, rfl⟩
  · rintro ⟨e, ev, k, ch, hev, hch, rfl⟩
    exact ⟨ev, e, hev, ch, k, hch, rfl⟩

theorem foldl_objs2 {c : EvsCfg} {chs : List ChargerCfg} {i : Nat} {f : Freq} {flags : Flags} {cs cd isp : Bool}
    (g : EvOI → Val) :
    (c.objs chs i f flags cs cd isp).foldl (fun x o => set2 x o.eventIdx o.chargerIdx (g o)) (fun _ _ => .num 0) =
      arr2 c.events chs (fun ev e ch k => g (c.obj i f flags cs cd isp ev e ch k)) := by
  funext e k
  rw [foldl_set2 (v := arr2 c.events chs (fun ev e ch k => g (c.obj i f flags cs cd isp ev e ch k)) e k)]
  · split
    · rfl
    · rename_i h
      unfold arr2
      cases hev : c.events[e]? with
      | none => rfl
      | some ev =>
        cases hch : chs[k]? with
        | none => rfl
        | some ch => exact absurd ⟨_, objs_mem.2 ⟨e, ev, k, ch, hev, hch, rfl⟩, rfl, rfl⟩ h
  · intro o ho h1 h2
    obtain ⟨e', ev, k', ch, hev, hch, rfl⟩ := objs_mem.1 ho
    simp only [EvsCfg.obj] at h1 h2
    subst h1 h2
    simp [arr2, hev, hch]

theorem foldl_objs1 {c : EvsCfg} {chs : List ChargerCfg} {i : Nat} {f : Freq} {flags : Flags} {cs cd isp : Bool}
    (g : EvOI → Val) (g' : ChargeEventCfg → Nat → Val)
    (hg : ∀ ev e ch k, g (c.obj i f flags cs cd isp ev e ch k) = g' ev e) (hne : chs ≠ []) :
    (c.objs chs i f flags cs cd isp).foldl (fun x o => set1 x o.eventIdx (g o)) (fun _ => .num 0) =
      arr1 c.events g' := by
  funext e
  rw [foldl_set1 (v := arr1 c.events g' e)]
  · split
    · rfl
    · rename_i h
      unfold arr1
      cases hev : c.events[e]? with
      | none => rfl
      | some ev =>
        cases chs with
        | nil => exact absurd rfl hne
        | cons ch chs => exact absurd ⟨_, objs_mem.2 ⟨e, ev, 0, ch, hev, rfl, rfl⟩, rfl⟩ h
  · intro o ho h1
    obtain ⟨e', ev, k', ch, hev, hch, rfl⟩ := objs_mem.1 ho
    have h2 := h1
    simp only [EvsCfg.obj] at h2
    subst h2
    simp [arr1, hev, hg]

/-- The initial and final state of charge variables. -/
def EvsCfg.socVar (c : EvsCfg) (attr : String) (i : Nat) (ev : ChargeEventCfg) : LpVar :=
  continuous (.evSoc attr i c.name ev.name) (low := some 0) (up := some ev.capacity)

/-- The array `create_evs_array` returns for the chargers of the site. -/
def EvsCfg.array (c : EvsCfg) (i : Nat) (f : Freq) (flags : Flags) : EvsArray where
  cfg := c
  initialSoc := arr1 c.events (fun ev _ => .var (c.socVar "initial_soc_mwh" i ev))
  finalSoc := arr1 c.events (fun ev _ => .var (c.socVar "final_soc_mwh" i ev))
  charge := arr2 c.events c.chargers (fun ev e ch k => (c.obj i f flags true true false ev e ch k).charge)
  chargeBin := arr2 c.events c.chargers (fun ev e ch k => (c.obj i f flags true true false ev e ch k).chargeBin)
  discharge := arr2 c.events c.chargers (fun ev e ch k => (c.obj i f flags true true false ev e ch k).discharge)
  dischargeBin := arr2 c.events c.chargers (fun ev e ch k => (c.obj i f flags true true false ev e ch k).dischargeBin)
  loss := arr2 c.events c.chargers (fun ev e ch k => (c.obj i f flags true true false ev e ch k).loss)

/-- The array `create_evs_array` returns for the spill chargers. -/
def EvsCfg.spillArray (c : EvsCfg) (i : Nat) (f : Freq) (flags : Flags) : EvsArray where
  cfg := c
  initialSoc := arr1 c.events (fun _ _ => .num 0)
  finalSoc := arr1 c.events (fun _ _ => .num 0)
  charge := arr2 c.events c.spillChargers (fun ev e ch k => (c.obj i f flags false false true ev e ch k).charge)
  chargeBin := arr2 c.events c.spillChargers (fun ev e ch k => (c.obj i f flags false false true ev e ch k).chargeBin)
  discharge := arr2 c.events c.spillChargers (fun ev e ch k => (c.obj i f flags false false true ev e ch k).discharge)
  dischargeBin := arr2 c.events c.spillChargers (fun ev e ch k => (c.obj i f flags false false true ev e ch k).dischargeBin)
  loss := arr2 c.events c.spillChargers (fun ev e ch k => (c.obj i f flags false false true ev e ch k).loss)

/-- What `create_evs_array` demands of the configuration. -/
structure EvsCfg.Shape (c : EvsCfg) : Prop where
  events : c.events ≠ []
  chargers : c.chargers ≠ []
  spill : c.spillChargers.length = 1

/-- EV building succeeds for interval `i`: `EVs.one_interval` returned the explicit lists. -/
theorem ois_evs {c : EvsCfg} {i : Nat} {f : Freq} {flags : Flags} (hm : c.MatOk flags i) :
    (Asset.evs c).oneInterval i f flags = .ok ((c.objs c.chargers i f flags true true false).map .ev ++
      (c.objs c.spillChargers i f flags false false true).map .evSpill) := by
  simp only [Asset.oneInterval, EvsCfg.oneInterval, evsOneInterval_eq hm, ok_bind]

theorem ois_evs_mat {c : EvsCfg} {i : Nat} {f : Freq} {flags : Flags} {l : List OneInterval}
    (h : (Asset.evs c).oneInterval i f flags = .ok l) (hne : c.chargers ≠ []) : c.MatOk flags i := by
  simp only [Asset.oneInterval, EvsCfg.oneInterval, bind_ok] at h
  obtain ⟨e1, h1, _⟩ := h
  exact evsOneInterval_mat h1 hne

theorem evData_map_ev (l : List EvOI) : evData (l.map .ev) = l := by
  induction l with
  | nil => rfl
  | cons a l ih => simp [evData, ih]

theorem evData_map_evSpill (l : List EvOI) : evData (l.map .evSpill) = l := by
  induction l with
  | nil => rfl
  | cons a l ih => simp [evData, ih]

theorem filter_evs_ev {c : EvsCfg} {i : Nat} {f : Freq} {flags : Flags} (hm : c.MatOk flags i) :
    ((Asset.evs c).ois i f flags).filter (fun o => o.kind == .ev) = (c.objs c.chargers i f flags true true false).map .ev := by
  simp only [Asset.ois, ois_evs hm, List.filter_append, List.filter_map]
  rw [List.filter_eq_self.2, List.filter_eq_nil_iff.2]
  · simp
  · intro o _; simp [OneInterval.kind]
  · intro o _; simp [OneInterval.kind]

theorem filter_evs_evSpill {c : EvsCfg} {i : Nat} {f : Freq} {flags : Flags} (hm : c.MatOk flags i) :
    ((Asset.evs c).ois i f flags).filter (fun o => o.kind == .evSpill) =
      (c.objs c.spillChargers i f flags false false true).map .evSpill := by
  simp only [Asset.ois, ois_evs hm, List.filter_append, List.filter_map]
  rw [List.filter_eq_nil_iff.2, List.filter_eq_self.2]
  · simp
  · intro o _; simp [OneInterval.kind]
  · intro o _; simp [OneInterval.kind]

theorem objs_length (c : EvsCfg) (chs : List ChargerCfg) (i : Nat) (f : Freq) (flags : Flags) (cs cd isp : Bool) :
    (c.objs chs i f flags cs cd isp).length = c.events.length * chs.length := by
  simp [EvsCfg.objs, List.length_flatMap]

theorem objs_cfg {c : EvsCfg} {chs : List ChargerCfg} {i : Nat} {f : Freq} {flags : Flags} {cs cd isp : Bool} {o : EvOI}
    (h : o ∈ c.objs chs i f flags cs cd isp) : o.cfg = c ∧ o.eventIdx < c.events.length ∧ o.chargerIdx < chs.length := by
  obtain ⟨e, ev, k, ch, hev, hch, rfl⟩ := objs_mem.1 h
  exact ⟨rfl, (List.getElem?_eq_some_iff.1 hev).1, (List.getElem?_eq_some_iff.1 hch).1⟩

theorem objs_first {c : EvsCfg} {chs : List ChargerCfg} {i : Nat} {f : Freq} {flags : Flags} {cs cd isp : Bool}
    (h1 : c.events ≠ []) (h2 : chs ≠ []) :
    ∃ o, pyIndex (c.objs chs i f flags cs cd isp) 0 = .ok o ∧ o.cfg = c := by
  have hlen : 0 < (c.objs chs i f flags cs cd isp).length := by
    rw [objs_length]; exact Nat.mul_pos (List.length_pos_iff.2 h1) (List.length_pos_iff.2 h2)
  refine ⟨(c.objs chs i f flags cs cd isp)[0], pyIndex_zero.2 (by simp [hlen]), ?_⟩
  exact (objs_cfg (List.getElem_mem hlen)).1

section arrays
variable {s : Site} {flags : Flags} {c : EvsCfg} {n i : Nat} {ix : Int}

/-- Indexing the variables of interval `i` with the Python index `ix`. -/
def AtIndex (s : Site) (flags : Flags) (n : Nat) (ix : Int) (i : Nat) : Prop :=
  i < n ∧ pyIndex (s.ivarsTo flags n) ix = .ok (s.ones flags i)

theorem atIndex_nat (h : i < n) : AtIndex s flags n (i : Int) i := ⟨h, ivarsTo_index s flags h⟩
theorem atIndex_zero : AtIndex s flags (n + 1) 0 0 :=
  ⟨by omega, by simpa using ivarsTo_index s flags (k := n + 1) (i := 0) (by omega)⟩
theorem atIndex_last : AtIndex s flags (n + 1) (-1) n := ⟨by omega, ivarsTo_last s flags n⟩
theorem atIndex_pred (h : 0 < i) (hi : i < n) : AtIndex s flags n ((i : Int) - 1) (i - 1) := by
  have : ((i : Int) - 1) = ((i - 1 : Nat) : Int) := by omega
  rw [this]
  exact atIndex_nat (by omega)

theorem filter_atIndex (h : VarsOk s flags n) (hix : AtIndex s flags n ix i) {a : Asset} (ha : a ∈ s.assets) {k : Kind}
    (hk : k ≠ .site) :
    IVars.filter (s.ivarsTo flags n) ix (some k) (some a.name) =
      .ok ((a.ois i s.freq flags).filter (fun o => o.kind == k)) := by
  simp only [IVars.filter, hix.2, ok_bind, filter_ones (h.ok i hix.1) h.nodup ha hk]

theorem createEvsArray_eq (h : VarsOk s flags n) (hix : AtIndex s flags n ix i) (hc : Asset.evs c ∈ s.assets)
    (hm : c.MatOk flags i) (hs : c.Shape) :
    createEvsArray (s.ivarsTo flags n) ix c.name false = .ok (c.array i s.freq flags) := by
  have e1 := filter_atIndex h hix hc (k := .ev) (by simp)
  simp only [Asset.name, filter_evs_ev hm] at e1
  obtain ⟨o, ho, hoc⟩ := objs_first (c := c) (chs := c.chargers) (i := i) (f := s.freq) (flags := flags) (cs := true)
    (cd := true) (isp := false) hs.events hs.chargers
  simp only [createEvsArray, Bool.false_eq_true, if_false, e1, ok_bind, evData_map_ev, ho, hoc, objs_length, decide_true,
    pyAssert_true]
  rw [if_pos]
  · congr 1
    rw [foldl_assign]
    simp only [EvsArray.zeros, foldl_objs2]
    rw [foldl_objs1 EvOI.initialSoc (fun ev _ => .var (c.socVar "initial_soc_mwh" i ev)) (by intros; rfl) hs.chargers,
      foldl_objs1 EvOI.finalSoc (fun ev _ => .var (c.socVar "final_soc_mwh" i ev)) (by intros; rfl) hs.chargers]
    rfl
  · rw [List.all_eq_true]
    intro o ho
    simp [objs_cfg ho]

theorem createEvsArray_spill_eq (h : VarsOk s flags n) (hix : AtIndex s flags n ix i) (hc : Asset.evs c ∈ s.assets)
    (hm : c.MatOk flags i) (hs : c.Shape) :
    createEvsArray (s.ivarsTo flags n) ix c.name true = .ok (c.spillArray i s.freq flags) := by
  have e1 := filter_atIndex h hix hc (k := .evSpill) (by simp)
  simp only [Asset.name, filter_evs_evSpill hm] at e1
  have hne : c.spillChargers ≠ [] := by
    intro h; have := hs.spill; simp [h] at this
  obtain ⟨o, ho, hoc⟩ := objs_first (c := c) (chs := c.spillChargers) (i := i) (f := s.freq) (flags := flags) (cs := false)
    (cd := false) (isp := true) hs.events hne
  simp only [createEvsArray, if_true, e1, ok_bind, evData_map_evSpill, ho, hoc, objs_length, hs.spill, decide_true,
    pyAssert_true]
  rw [if_pos]
  · congr 1
    rw [foldl_assign]
    simp only [EvsArray.zeros, foldl_objs2]
    rw [foldl_objs1 EvOI.initialSoc (fun _ _ => .num 0) (by intros; rfl) hne,
      foldl_objs1 EvOI.finalSoc (fun _ _ => .num 0) (by intros; rfl) hne]
    rfl
  · rw [List.all_eq_true]
    intro o ho
    obtain ⟨h1, h2, h3⟩ := objs_cfg ho
    rw [hs.spill] at h3
    have : 0 < c.chargers.length := List.length_pos_iff.2 hs.chargers
    simp [h2]; omega

/-- Success of `create_evs_array` for both kinds of chargers forces the shape. -/
theorem createEvsArray_shape (h : VarsOk s flags n) (hix : AtIndex s flags n ix i) (hc : Asset.evs c ∈ s.assets) {a b : EvsArray}
    (ha : createEvsArray (s.ivarsTo flags n) ix c.name false = .ok a)
    (hb : createEvsArray (s.ivarsTo flags n) ix c.name true = .ok b) : c.Shape ∧ c.MatOk flags i := by
  obtain ⟨hn, hix2⟩ := hix
  have hok := (intervalVars_ok (h.ok i hn)).1 _ hc
  have hois := hok
  simp only [Asset.oneInterval, EvsCfg.oneInterval, bind_ok] at hois
  obtain ⟨e1, h1, e2, h2, h3⟩ := hois
  simp only [Except.ok.injEq] at h3
  have f1 : ((Asset.evs c).ois i s.freq flags).filter (fun o => o.kind == .ev) = e1.map .ev := by
    rw [← h3, List.filter_append, List.filter_map, List.filter_map, List.filter_eq_self.2, List.filter_eq_nil_iff.2]
    · simp
    · intro o _; simp [OneInterval.kind]
    · intro o _; simp [OneInterval.kind]
  have f2 : ((Asset.evs c).ois i s.freq flags).filter (fun o => o.kind == .evSpill) = e2.map .evSpill := by
    rw [← h3, List.filter_append, List.filter_map, List.filter_map, List.filter_eq_nil_iff.2, List.filter_eq_self.2]
    · simp
    · intro o _; simp [OneInterval.kind]
    · intro o _; simp [OneInterval.kind]
  have g1 := filter_atIndex h ⟨hn, hix2⟩ hc (k := .ev) (by simp)
  have g2 := filter_atIndex h ⟨hn, hix2⟩ hc (k := .evSpill) (by simp)
  rw [f1] at g1
  rw [f2] at g2
  simp only [Asset.name] at g1 g2
  simp only [createEvsArray, Bool.false_eq_true, if_false, g1, ok_bind, evData_map_ev, bind_ok] at ha
  simp only [createEvsArray, if_true, g2, ok_bind, evData_map_evSpill, bind_ok] at hb
  obtain ⟨o1, ho1, u1, hu1, _⟩ := ha
  obtain ⟨o2, ho2, u2, hu2, _⟩ := hb
  have hchne : c.chargers ≠ [] := by
    intro he
    rw [he] at h1
    have : e1 = [] := by
      simp only [evsOneInterval, List.zipIdx_nil, mapE] at h1
      rw [flatMapE_eq (g := fun _ => []) (by intros; rfl)] at h1
      simp only [Except.ok.injEq] at h1
      rw [← h1, List.flatMap_eq_nil_iff]
      intros; rfl
    rw [this] at ho1
    simp [pyIndex] at ho1
  have hm : c.MatOk flags i := evsOneInterval_mat h1 hchne
  have he1 := evsOneInterval_eq (chs := c.chargers) (f := s.freq) (cs := true) (cd := true) (isp := false) hm
  have he2 := evsOneInterval_eq (chs := c.spillChargers) (f := s.freq) (cs := false) (cd := false) (isp := true) hm
  rw [he1] at h1
  rw [he2] at h2
  cases h1
  cases h2
  have hev : c.events ≠ [] := by
    intro he
    simp [EvsCfg.objs, he, pyIndex] at ho1
  have hcfg : o2.cfg = c := by
    rw [pyIndex_zero] at ho2
    exact (objs_cfg (List.mem_of_getElem? ho2)).1
  rw [pyAssert_ok, hcfg, objs_length, decide_eq_true_eq] at hu2
  have hpos : 0 < c.events.length := List.length_pos_iff.2 hev
  exact ⟨⟨hev, hchne, Nat.eq_of_mul_eq_mul_left hpos (by simpa using hu2)⟩, hm⟩

end arrays

end EPL
