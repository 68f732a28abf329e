/-
The cells of one row of the results, explicitly.
-/
import Verif.Proofs.Table
import Mathlib.Data.List.Flatten
import Mathlib.Data.List.Perm.Basic

namespace EPL

/-- The columns `extract_results` writes for an object of a class. -/
def Kind.cols : Kind → List String
  | .spill => spillCols
  | .battery => batteryCols
  | .chp => chpCols
  | .boiler => boilerCols
  | .valve => valveCols
  | .heatPump => heatPumpCols
  | .renewable => renewableCols
  | _ => []

/-- Battery values are clipped at zero. -/
def Kind.adjust (k : Kind) (q : ℚ) : ℚ := if k = .battery then max q 0 else q

/-- The cells of one object. -/
def OneInterval.cells (σ : Assign) (x : OneInterval) : List (String × ℚ) :=
  x.kind.cols.map (fun attr => (x.name ++ "-" ++ attr, x.kind.adjust (x.attrValue σ attr)))

/-- The cells of a list of chargers. -/
def evChargerCells (c : EvsCfg) (a : EvsArray) (chs : List ChargerCfg) (σ : Assign) : List (String × ℚ) :=
  chs.zipIdx.flatMap (fun ch => evCols.map (fun attr =>
    (c.name ++ "-" ++ ch.1.name ++ "-" ++ attr,
      ((List.range c.events.length).map (fun e => (a.get2 attr e ch.2).eval σ)).sum)))

/-- The cells of the charge events. -/
def evEventCells (c : EvsCfg) (a : EvsArray) (σ : Assign) : List (String × ℚ) :=
  c.events.zipIdx.flatMap (fun ev => evEventCols.map (fun attr =>
    (c.name ++ "-" ++ ev.1.name ++ "-" ++ attr,
      ((List.range c.chargers.length).map (fun k => (a.get2 attr ev.2 k).eval σ)).sum)))

/-- The state of charge cells. -/
def evSocCells (c : EvsCfg) (a : EvsArray) (σ : Assign) : List (String × ℚ) :=
  (List.range c.events.length).map (fun e =>
    (c.name ++ "-charge-event-" ++ toString e ++ "-" ++ "initial_soc_mwh", (a.initialSoc e).eval σ)) ++
  (List.range c.events.length).map (fun e =>
    (c.name ++ "-charge-event-" ++ toString e ++ "-" ++ "final_soc_mwh", (a.finalSoc e).eval σ))

/-- The cells of an EVs asset. -/
def EvsCfg.cells (c : EvsCfg) (i : Nat) (f : Freq) (flags : Flags) (σ : Assign) : List (String × ℚ) :=
  evChargerCells c (c.array i f flags) c.chargers σ ++ evEventCells c (c.array i f flags) σ ++
    evSocCells c (c.array i f flags) σ ++ evChargerCells c (c.spillArray i f flags) c.spillChargers σ

/-- The EV assets whose results are extracted. -/
def Asset.evs? : Asset → Option EvsCfg
  | .evs c => if pyIn "evs" c.name then some c else none
  | _ => none

/-- All cells of an asset. -/
def Asset.cells (a : Asset) (i : Nat) (f : Freq) (flags : Flags) (σ : Assign) : List (String × ℚ) :=
  (a.ois i f flags).flatMap (OneInterval.cells σ) ++
    (match a.evs? with | some c => c.cells i f flags σ | none => [])

/-- The cells of the site. -/
def Site.cells (s : Site) (i : Nat) (σ : Assign) : List (String × ℚ) :=
  ("site-import_power_mwh", σ (s.oneInterval i).importPower.id) ::
  ("site-export_power_mwh", σ (s.oneInterval i).exportPower.id) ::
  s.data.dump.map (fun f => ("site-" ++ f.1, f.2.getD i 0))

/-- The cells of a row. -/
def Site.row (s : Site) (flags : Flags) (σ : Assign) (i : Nat) : List (String × ℚ) :=
  s.cells i σ ++ s.assets.flatMap (fun a => a.cells i s.freq flags σ)

/-- The values agree with an assignment. -/
def Agree (vals : Values) (σ : Assign) : Prop := ∀ v q, vals v = some q → σ v = q

section reads
variable {vals : Values} {σ : Assign}

theorem optimizerValue_ok (h : Agree vals σ) {clip : Bool} {x : Val} {q : ℚ} (hq : optimizerValue vals clip x = .ok q) :
    q = if clip then max (x.eval σ) 0 else x.eval σ := by
  unfold optimizerValue at hq
  cases x with
  | none => simp at hq
  | num a => cases clip <;> simp_all [Val.eval]
  | int a => cases clip <;> simp_all [Val.eval]
  | var v =>
    cases hv : vals v.id with
    | none => simp [hv] at hq
    | some a => cases clip <;> simp_all [Val.eval, h _ _ hv]

theorem directValue_ok (h : Agree vals σ) {x : Val} {q : ℚ} (hq : directValue vals x = .ok q) : q = x.eval σ := by
  unfold directValue at hq
  cases x with
  | var v =>
    cases hv : vals v.id with
    | none => simp [hv] at hq
    | some a => simp_all [Val.eval, h _ _ hv]
  | _ => simp at hq

theorem sumValues_ok (h : Agree vals σ) {xs : List Val} {q : ℚ} (hq : sumValues vals xs = .ok q) :
    q = (xs.map (Val.eval σ)).sum := by
  simp only [sumValues, bind_ok, Except.ok.injEq] at hq
  obtain ⟨qs, hqs, rfl⟩ := hq
  have : qs = xs.map (Val.eval σ) := by
    rw [mapE_ok] at hqs
    induction hqs with
    | nil => rfl
    | cons h1 _ ih => rw [List.map_cons, ← ih, optimizerValue_ok h h1]; simp
  rw [this]

end reads

theorem mapE_eq_of_ok {α β : Type} {f : α → Res β} {g : α → β} {l : List α} {bs : List β} (h : mapE f l = .ok bs)
    (hg : ∀ a ∈ l, ∀ b, f a = .ok b → b = g a) : bs = l.map g := by
  rw [mapE_ok] at h
  induction h with
  | nil => rfl
  | cons h1 _ ih =>
    rw [List.map_cons, ← ih (fun a ha => hg a (List.mem_cons_of_mem _ ha)), hg _ (by simp) _ h1]

theorem flatMapE_eq_of_ok {α β : Type} {f : α → Res (List β)} {g : α → List β} {l : List α} {bs : List β}
    (h : flatMapE f l = .ok bs) (hg : ∀ a ∈ l, ∀ b, f a = .ok b → b = g a) : bs = l.flatMap g := by
  simp only [flatMapE, bind_ok, Except.ok.injEq] at h
  obtain ⟨bss, h1, rfl⟩ := h
  rw [mapE_eq_of_ok h1 hg]
  rfl

section emit
variable {s : Site} {flags : Flags} {vals : Values} {σ : Assign} {i : Nat}

theorem emitKind_ok (hv : VarsOk s flags s.data.n) (hi : i < s.data.n) {k : Kind} {read : Val → Res ℚ}
    (hread : ∀ v q, read v = .ok q → q = k.adjust (v.eval σ)) {E : List (String × ℚ)}
    (h : emitKind (s.ivarsTo flags s.data.n) i k read k.cols = .ok E) (hk : k ≠ .site) :
    E = (s.assets.flatMap (fun a => a.ois i s.freq flags)).flatMap (fun x => if x.kind = k then x.cells σ else []) := by
  simp only [emitKind, IVars.filter, ivarsTo_index s flags hi, ok_bind, ones_eq hv hi] at h
  rw [List.filter_cons_of_neg (by simp [matchesFilter, OneInterval.kind]; exact fun h => hk h.symm)] at h
  have h1 : E = ((s.assets.flatMap (fun a => a.ois i s.freq flags)).filter (matchesFilter (some k) none)).flatMap
      (OneInterval.cells σ) := by
    refine flatMapE_eq_of_ok h ?_
    intro x hx b hb
    have hxk : x.kind = k := by
      have := (List.mem_filter.1 hx).2
      simpa [matchesFilter] using this
    unfold emitAttrs at hb
    unfold OneInterval.cells
    rw [hxk]
    refine mapE_eq_of_ok hb ?_
    intro attr _ c hc
    simp only [bind_ok, Except.ok.injEq] at hc
    obtain ⟨v, hv1, q, hq, rfl⟩ := hc
    simp [OneInterval.attrValue, hv1, hread v q hq]
  rw [h1]
  clear h1 h
  induction s.assets.flatMap (fun a => a.ois i s.freq flags) with
  | nil => rfl
  | cons x xs ih =>
    rw [List.flatMap_cons, ← ih]
    by_cases hx : x.kind = k
    · rw [List.filter_cons_of_pos (by simp [matchesFilter, hx])]
      simp [hx]
    · rw [List.filter_cons_of_neg (by simp [matchesFilter, hx])]
      simp [hx]

theorem emitSite_ok (ha : Agree vals σ) (hv : VarsOk s flags s.data.n) (hi : i < s.data.n) {E : List (String × ℚ)}
    (h : emitSite s.data (s.ivarsTo flags s.data.n) vals i = .ok E) : E = s.cells i σ := by
  simp only [emitSite, firstSite_at hv hi, ok_bind, bind_ok, Except.ok.injEq] at h
  obtain ⟨_, _, imp, himp, exp, hexp, data, hdata, rfl⟩ := h
  rw [directValue_ok ha himp, directValue_ok ha hexp]
  have : data = s.data.dump.map (fun f => ("site-" ++ f.1, f.2.getD i 0)) := by
    refine mapE_eq_of_ok hdata ?_
    intro f _ b hb
    simp only [bind_ok, pyIndex_nat, Except.ok.injEq] at hb
    obtain ⟨q, hq, rfl⟩ := hb
    simp [List.getD_eq_getElem?_getD, hq]
  rw [this]
  rfl

theorem emitChargers_ok (ha : Agree vals σ) {c : EvsCfg} {a : EvsArray} (hac : a.cfg = c) {chs : List ChargerCfg}
    {E : List (String × ℚ)} (h : emitChargers vals a chs = .ok E) : E = evChargerCells c a chs σ := by
  refine flatMapE_eq_of_ok h ?_
  intro ch _ b hb
  refine mapE_eq_of_ok hb ?_
  intro attr _ d hd
  simp only [bind_ok, Except.ok.injEq] at hd
  obtain ⟨q, hq, rfl⟩ := hd
  rw [sumValues_ok ha hq, hac, List.map_map]
  rfl

theorem emitEvents_ok (ha : Agree vals σ) {c : EvsCfg} {a : EvsArray} (hac : a.cfg = c)
    {E : List (String × ℚ)} (h : emitEvents vals a = .ok E) : E = evEventCells c a σ := by
  unfold emitEvents at h
  rw [hac] at h
  refine flatMapE_eq_of_ok h ?_
  intro ch _ b hb
  refine mapE_eq_of_ok hb ?_
  intro attr _ d hd
  simp only [bind_ok, Except.ok.injEq] at hd
  obtain ⟨q, hq, rfl⟩ := hd
  rw [sumValues_ok ha hq, List.map_map]
  rfl

theorem emitSocs_ok (ha : Agree vals σ) {c : EvsCfg} {a : EvsArray} (hac : a.cfg = c)
    {E : List (String × ℚ)} (h : emitSocs vals a = .ok E) : E = evSocCells c a σ := by
  unfold emitSocs at h
  rw [hac] at h
  simp only [bind_ok, Except.ok.injEq] at h
  obtain ⟨x, hx, y, hy, rfl⟩ := h
  unfold evSocCells
  congr 1
  · refine mapE_eq_of_ok hx ?_
    intro e _ d hd
    simp only [bind_ok, Except.ok.injEq] at hd
    obtain ⟨q, hq, rfl⟩ := hd
    rw [directValue_ok ha hq]
  · refine mapE_eq_of_ok hy ?_
    intro e _ d hd
    simp only [bind_ok, Except.ok.injEq] at hd
    obtain ⟨q, hq, rfl⟩ := hd
    rw [directValue_ok ha hq]

/-- Filtering by name finds an EV only under the name of an EVs asset. -/
theorem createEvsArray_isEvs (hv : VarsOk s flags s.data.n) (hi : i < s.data.n)
    (hb : ∀ a ∈ s.assets, a.Buildable i) {a : Asset} (ha : a ∈ s.assets) {sp : Bool} {r : EvsArray}
    (h : createEvsArray (s.ivarsTo flags s.data.n) i a.name sp = .ok r) :
    ∃ c, a = .evs c ∧ r = if sp then c.spillArray i s.freq flags else c.array i s.freq flags := by
  by_cases he : ∃ c, a = .evs c
  · obtain ⟨c, rfl⟩ := he
    obtain ⟨hs, hr⟩ := hb _ ha
    refine ⟨c, rfl, ?_⟩
    simp only [Asset.name] at h
    cases sp with
    | false => rw [createEvsArray_eq hv (atIndex_nat hi) ha (hr.matOk _) hs] at h; cases h; rfl
    | true => rw [createEvsArray_spill_eq hv (atIndex_nat hi) ha (hr.matOk _) hs] at h; cases h; rfl
  · exfalso
    have hne : ∀ k, (k = .ev ∨ k = .evSpill) → (a.ois i s.freq flags).filter (fun o => o.kind == k) = [] := by
      intro k hk
      rw [List.filter_eq_nil_iff]
      intro o ho
      have := (ois_name_kind ho).2
      have hk2 : k ∉ a.kinds := by
        cases a with
        | evs c => exact absurd ⟨c, rfl⟩ he
        | _ => rcases hk with rfl | rfl <;> simp [Asset.kinds]
      simp only [beq_iff_eq]
      rintro rfl
      exact hk2 this
    unfold createEvsArray at h
    have hk : (if sp = true then Kind.evSpill else Kind.ev) ≠ .site := by cases sp <;> simp
    rw [filter_at hv hi ha hk, hne _ (by cases sp <;> simp)] at h
    simp [evData, pyIndex] at h

theorem flatMap_evs (as : List Asset) (g : EvsCfg → List (String × ℚ)) :
    (as.filterMap Asset.evs?).flatMap g =
      as.flatMap (fun a => match a.evs? with | some c => g c | none => []) := by
  induction as with
  | nil => rfl
  | cons a as ih =>
    rw [List.flatMap_cons, ← ih]
    cases h : a.evs? <;> simp [List.filterMap_cons, h]

theorem mapE_arrays (hv : VarsOk s flags s.data.n) (hi : i < s.data.n)
    (hb : ∀ a ∈ s.assets, a.Buildable i) {sp : Bool} (as : List Asset) (hsub : ∀ a ∈ as, a ∈ s.assets) {l : List EvsArray}
    (h : mapE (fun n => createEvsArray (s.ivarsTo flags s.data.n) i n sp) ((as.map Asset.name).filter (pyIn "evs")) = .ok l) :
    l = (as.filterMap Asset.evs?).map (fun c => if sp then c.spillArray i s.freq flags else c.array i s.freq flags) := by
  induction as generalizing l with
  | nil => simp [mapE] at h; rw [h]; rfl
  | cons a as ih =>
    by_cases hp : pyIn "evs" a.name = true
    · rw [List.map_cons, List.filter_cons_of_pos hp] at h
      simp only [mapE, bind_ok, Except.ok.injEq] at h
      obtain ⟨r, hr, rest, hrest, rfl⟩ := h
      obtain ⟨c, rfl, hrc⟩ := createEvsArray_isEvs hv hi hb (hsub a (by simp)) hr
      rw [ih (fun a ha => hsub a (by simp [ha])) hrest]
      have hsome : (Asset.evs c).evs? = some c := by
        simp only [Asset.name] at hp
        simp [Asset.evs?, hp]
      rw [List.filterMap_cons, hsome, List.map_cons, ← hrc]
    · rw [List.map_cons, List.filter_cons_of_neg hp] at h
      rw [ih (fun a ha => hsub a (by simp [ha])) h]
      have hnone : a.evs? = none := by
        cases a with
        | evs c =>
          simp only [Asset.name] at hp
          simp [Asset.evs?, hp]
        | _ => rfl
      rw [List.filterMap_cons, hnone]

/-- The cells `extract_evs_results` writes. -/
theorem emitEvs_ok (ha : Agree vals σ) (hv : VarsOk s flags s.data.n) (hi : i < s.data.n) (hb : ∀ a ∈ s.assets, a.Buildable i)
    {E : List (String × ℚ)}
    (h : emitEvs (s.ivarsTo flags s.data.n) vals i (s.assets.map Asset.name) = .ok E) :
    E.Perm (s.assets.flatMap (fun a => match a.evs? with | some c => c.cells i s.freq flags σ | none => [])) := by
  simp only [emitEvs, IVars.filter, ivarsTo_index s flags hi, ok_bind] at h
  split at h
  · rename_i hemp
    cases h
    have hnone : ∀ a ∈ s.assets, a.evs? = none := by
      intro a haA
      cases a with
      | evs c =>
        exfalso
        obtain ⟨hs, hr⟩ := hb _ haA
        rw [List.isEmpty_iff, List.filter_eq_nil_iff] at hemp
        obtain ⟨o, ho, _⟩ := objs_first (c := c) (chs := c.chargers) (i := i) (f := s.freq) (flags := flags) (cs := true)
          (cd := true) (isp := false) hs.events hs.chargers
        rw [pyIndex_zero] at ho
        have hmem := List.mem_of_getElem? ho
        have : OneInterval.ev o ∈ s.ones flags i := by
          rw [ones_eq hv hi]
          refine List.mem_cons_of_mem _ (List.mem_flatMap.2 ⟨_, haA, ?_⟩)
          simp only [Asset.ois, ois_evs (hr.matOk _), List.mem_append, List.mem_map]
          exact .inl ⟨o, hmem, rfl⟩
        have := hemp _ this
        simp [matchesFilter, OneInterval.kind] at this
      | _ => rfl
    rw [List.flatMap_eq_nil_iff.2]
    intro a haA
    rw [hnone a haA]
  · simp only [bind_ok, Except.ok.injEq] at h
    obtain ⟨pkg, hpkg, rows, hrows, spkg, hspkg, srows, hsrows, rfl⟩ := h
    have h1 := mapE_arrays hv hi hb s.assets (fun _ h => h) hpkg
    have h2 := mapE_arrays hv hi hb s.assets (fun _ h => h) hspkg
    have h3 : rows = pkg.flatMap (fun a => evChargerCells a.cfg a a.cfg.chargers σ ++ evEventCells a.cfg a σ ++ evSocCells a.cfg a σ) := by
      refine flatMapE_eq_of_ok hrows ?_
      intro a _ b hb'
      simp only [bind_ok, Except.ok.injEq] at hb'
      obtain ⟨x, hx, y, hy, z, hz, rfl⟩ := hb'
      rw [emitChargers_ok ha rfl hx, emitEvents_ok ha rfl hy, emitSocs_ok ha rfl hz]
    have h4 : srows = spkg.flatMap (fun a => evChargerCells a.cfg a a.cfg.spillChargers σ) := by
      refine flatMapE_eq_of_ok hsrows ?_
      intro a _ b hb'
      exact emitChargers_ok ha rfl hb'
    rw [h3, h4, h1, h2, ← flatMap_evs]
    simp only [Bool.false_eq_true, if_false, if_true, List.flatMap_map]
    exact List.flatMap_append_perm _ _ _

theorem flatMap_kinds {xs : List OneInterval} (h : ∀ x ∈ xs, x.kind ≠ .site) (g : OneInterval → List (String × ℚ))
    (hev : ∀ x, x.kind = .ev ∨ x.kind = .evSpill → g x = []) :
    (xs.flatMap (fun x => if x.kind = .spill then g x else []) ++
      xs.flatMap (fun x => if x.kind = .battery then g x else []) ++
      xs.flatMap (fun x => if x.kind = .chp then g x else []) ++
      xs.flatMap (fun x => if x.kind = .boiler then g x else []) ++
      xs.flatMap (fun x => if x.kind = .valve then g x else []) ++
      xs.flatMap (fun x => if x.kind = .heatPump then g x else []) ++
      xs.flatMap (fun x => if x.kind = .renewable then g x else [])).Perm (xs.flatMap g) := by
  have e : xs.flatMap g = xs.flatMap (fun x => (((((((if x.kind = .spill then g x else []) ++
      (if x.kind = .battery then g x else [])) ++ (if x.kind = .chp then g x else [])) ++
      (if x.kind = .boiler then g x else [])) ++ (if x.kind = .valve then g x else [])) ++
      (if x.kind = .heatPump then g x else [])) ++ (if x.kind = .renewable then g x else []))) := by
    apply List.flatMap_congr
    intro x hx
    have h1 := h x hx
    have h2 := hev x
    cases hk : x.kind <;> simp_all
  rw [e]
  refine List.Perm.trans ?_ (List.flatMap_append_perm _ _ _)
  refine List.Perm.append_right _ (List.Perm.trans ?_ (List.flatMap_append_perm _ _ _))
  refine List.Perm.append_right _ (List.Perm.trans ?_ (List.flatMap_append_perm _ _ _))
  refine List.Perm.append_right _ (List.Perm.trans ?_ (List.flatMap_append_perm _ _ _))
  refine List.Perm.append_right _ (List.Perm.trans ?_ (List.flatMap_append_perm _ _ _))
  exact List.Perm.append_right _ (List.flatMap_append_perm _ _ _)

/-- The cells of a row, up to order. -/
theorem emitInterval_ok (ha : Agree vals σ) (hv : VarsOk s flags s.data.n) (hi : i < s.data.n)
    (hb : ∀ a ∈ s.assets, a.Buildable i) {E : List (String × ℚ)}
    (h : emitInterval s (s.ivarsTo flags s.data.n) vals i = .ok E) : E.Perm (s.row flags σ i) := by
  simp only [emitInterval, bind_ok, Except.ok.injEq] at h
  obtain ⟨e1, h1, e2, h2, e3, h3, e4, h4, e5, h5, e6, h6, e7, h7, e8, h8, e9, h9, rfl⟩ := h
  have rd : ∀ k : Kind, k ≠ .battery → ∀ v q, optimizerValue vals false v = .ok q → q = k.adjust (v.eval σ) := by
    intro k hk v q hq
    rw [optimizerValue_ok ha hq]
    simp [Kind.adjust, hk]
  have rdir : ∀ k : Kind, k ≠ .battery → ∀ v q, directValue vals v = .ok q → q = k.adjust (v.eval σ) := by
    intro k hk v q hq
    rw [directValue_ok ha hq]
    simp [Kind.adjust, hk]
  have rb : ∀ v q, optimizerValue vals true v = .ok q → q = Kind.battery.adjust (v.eval σ) := by
    intro v q hq
    rw [optimizerValue_ok ha hq]
    simp [Kind.adjust]
  rw [emitSite_ok ha hv hi h1,
    emitKind_ok hv hi (k := .spill) (rd _ (by simp)) h2 (by simp),
    emitKind_ok hv hi (k := .battery) rb h3 (by simp),
    emitKind_ok hv hi (k := .chp) (rdir _ (by simp)) h4 (by simp),
    emitKind_ok hv hi (k := .boiler) (rdir _ (by simp)) h5 (by simp),
    emitKind_ok hv hi (k := .valve) (rd _ (by simp)) h6 (by simp),
    emitKind_ok hv hi (k := .heatPump) (rd _ (by simp)) h8 (by simp),
    emitKind_ok hv hi (k := .renewable) (rd _ (by simp)) h9 (by simp)]
  have hev := emitEvs_ok ha hv hi hb h7
  have hk := flatMap_kinds (xs := s.assets.flatMap (fun a => a.ois i s.freq flags)) (g := OneInterval.cells σ) (by
    intro x hx
    obtain ⟨a, _, hx⟩ := List.mem_flatMap.1 hx
    exact kinds_ne_site (ois_name_kind hx).2) (by
    rintro x (hx | hx) <;> simp [OneInterval.cells, hx, Kind.cols])
  unfold Site.row
  simp only [List.append_assoc] at hk ⊢
  refine List.Perm.append_left _ ?_
  have hcells : ((s.assets.flatMap (fun a => a.ois i s.freq flags)).flatMap (OneInterval.cells σ) ++
      s.assets.flatMap (fun a => match a.evs? with | some c => c.cells i s.freq flags σ | none => [])).Perm
      (s.assets.flatMap (fun a => a.cells i s.freq flags σ)) := by
    rw [List.flatMap_assoc]
    exact List.flatMap_append_perm _ _ _
  refine List.Perm.trans ?_ hcells
  refine List.Perm.trans ?_ (List.Perm.append hk hev)
  simp only [List.append_assoc]
  refine List.Perm.append_left _ (List.Perm.append_left _ (List.Perm.append_left _ (List.Perm.append_left _
    (List.Perm.append_left _ ?_))))
  rw [← List.append_assoc, ← List.append_assoc]
  refine List.Perm.trans ?_ List.perm_append_comm
  rw [← List.append_assoc]

end emit

end EPL
