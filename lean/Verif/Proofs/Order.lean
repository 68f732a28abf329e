/-
The order in which the extraction loop writes columns.
-/
import Verif.Props.Results
import Verif.Spec.Order

namespace EPL

theorem foldl_columns_new (cells : List (String × ℚ)) (t : Table) (h : (cells.map Prod.fst).Nodup)
    (hd : ∀ k ∈ cells.map Prod.fst, k ∉ t.columns) : (cells.foldl Table.append t).columns = t.columns ++ cells.map Prod.fst := by
  induction cells generalizing t with
  | nil => simp
  | cons c cells ih =>
    obtain ⟨k, v⟩ := c
    rw [List.map_cons, List.nodup_cons] at h
    have hk : k ∉ t.columns := hd k (by simp)
    have e : (t.append (k, v)).columns = t.columns ++ [k] := by rw [columns_append, if_neg hk]
    rw [List.foldl_cons, ih _ h.2, e]
    · simp
    · intro k' hk' hm
      rw [e, List.mem_append, List.mem_singleton] at hm
      rcases hm with hm | rfl
      · exact hd k' (by simp only [List.map_cons, List.mem_cons]; exact .inr hk') hm
      · exact h.1 hk'

theorem foldl_columns_old (cells : List (String × ℚ)) (t : Table) (h : ∀ k ∈ cells.map Prod.fst, k ∈ t.columns) :
    (cells.foldl Table.append t).columns = t.columns := by
  induction cells generalizing t with
  | nil => rfl
  | cons c cells ih =>
    obtain ⟨k, v⟩ := c
    have e : (t.append (k, v)).columns = t.columns := by rw [columns_append, if_pos (h k (by simp))]
    rw [List.foldl_cons, ih, e]
    intro k' hk'
    rw [e]
    exact h k' (by simp only [List.map_cons, List.mem_cons]; exact .inr hk')

/-- A table written row by row has the columns of the first row, in its order. -/
theorem rows_columns {n : Nat} {E : Nat → List (String × ℚ)} (hn : 0 < n) (hd : ((E 0).map Prod.fst).Nodup)
    (hk : ∀ i < n, ∀ k ∈ (E i).map Prod.fst, k ∈ (E 0).map Prod.fst) :
    (((List.range n).flatMap E).foldl Table.append []).columns = (E 0).map Prod.fst := by
  obtain ⟨m, rfl⟩ : ∃ m, n = m + 1 := ⟨n - 1, by omega⟩
  rw [List.range_succ_eq_map, List.flatMap_cons, List.foldl_append]
  have h1 := foldl_columns_new (E 0) [] hd (by simp [Table.columns])
  rw [foldl_columns_old, h1]
  · rfl
  · intro k hm
    rw [h1]
    simp only [List.mem_map, List.mem_flatMap, List.mem_range] at hm
    obtain ⟨c, ⟨i, ⟨j, hj, rfl⟩, hc⟩, rfl⟩ := hm
    simp only [Table.columns, List.map_nil, List.nil_append]
    exact hk (j + 1) (by omega) _ (List.mem_map_of_mem hc)

section
variable {s : Site} {flags : Flags} {vals : Values} {σ : Assign} {i : Nat}

/-- The objects of one class write the columns of the assets of that class. -/
theorem kind_keys {k : Kind} {p : Asset → Bool} (hp : ∀ a : Asset, p a = true ↔ a.kinds = [k]) (hev : k ≠ .ev ∧ k ≠ .evSpill)
    (hb : ∀ a ∈ s.assets, a.Buildable i) :
    ((s.assets.flatMap (fun a => a.ois i s.freq flags)).flatMap (fun x => if x.kind = k then x.cells σ else [])).map Prod.fst =
      s.columnsOf p := by
  unfold Site.columnsOf
  rw [List.flatMap_assoc, List.map_flatMap]
  have : ∀ l : List Asset, (∀ a ∈ l, a ∈ s.assets) → l.flatMap (fun a => ((a.ois i s.freq flags).flatMap
      (fun x => if x.kind = k then x.cells σ else [])).map Prod.fst) = (l.filter p).flatMap Asset.documentedColumns := by
    intro l hl
    induction l with
    | nil => rfl
    | cons a l ih =>
      rw [List.flatMap_cons, ih (fun a ha => hl a (by simp [ha]))]
      by_cases hpa : p a = true
      · rw [List.filter_cons_of_pos hpa, List.flatMap_cons]
        congr 1
        have hk := (hp a).1 hpa
        have all : (a.ois i s.freq flags).flatMap (fun x => if x.kind = k then x.cells σ else []) = a.cells i s.freq flags σ := by
          have h1 : (a.ois i s.freq flags).flatMap (fun x => if x.kind = k then x.cells σ else []) =
              (a.ois i s.freq flags).flatMap (OneInterval.cells σ) := by
            apply List.flatMap_congr
            intro x hx
            have := (ois_name_kind hx).2
            rw [hk, List.mem_singleton] at this
            rw [if_pos this]
          have h2 : a.evs? = none := by
            cases a with
            | evs c => simp [Asset.kinds] at hk
            | _ => rfl
          rw [h1]
          simp [Asset.cells, h2]
        rw [all, cells_keys (hb a (hl a (by simp)))]
        cases a with
        | evs c => simp [Asset.kinds] at hk
        | _ => rfl
      · rw [List.filter_cons_of_neg hpa]
        have h0 : (a.ois i s.freq flags).flatMap (fun x => if x.kind = k then x.cells σ else []) = [] := by
          rw [List.flatMap_eq_nil_iff]
          intro x hx
          have hm := (ois_name_kind hx).2
          rw [if_neg]
          rintro rfl
          apply hpa
          rw [hp]
          cases a with
          | evs c =>
            simp only [Asset.kinds, List.mem_cons, List.not_mem_nil, or_false] at hm
            rcases hm with h | h
            · exact absurd h hev.1
            · exact absurd h hev.2
          | _ => simp only [Asset.kinds, List.mem_singleton] at hm; simp [Asset.kinds, hm]
        rw [h0]; rfl
  exact this _ (fun _ h => h)

theorem fleets_evs? (hw : ∀ a ∈ s.assets, a.WellNamed) : s.assets.filterMap Asset.evs? = s.fleets := by
  unfold Site.fleets
  apply List.filterMap_congr
  intro a ha
  cases a with
  | evs c => simp [Asset.evs?, (hw _ ha).1]
  | _ => rfl

theorem mem_fleets {c : EvsCfg} : c ∈ s.fleets ↔ Asset.evs c ∈ s.assets := by
  unfold Site.fleets
  rw [List.mem_filterMap]
  constructor
  · rintro ⟨a, ha, h⟩
    cases a with
    | evs c' => simp only [Option.some.injEq] at h; rw [← h]; exact ha
    | _ => simp at h
  · intro h
    exact ⟨_, h, rfl⟩

theorem evs_names {c : EvsCfg} (hw : (Asset.evs c).WellNamed) (g : String → List String) :
    c.chargers.flatMap (fun ch => g ch.name) = (List.range c.chargers.length).flatMap (fun k => g ("charger-" ++ toString k)) ∧
    c.spillChargers.flatMap (fun ch => g ch.name) = g ("charger-spill-" ++ c.name) ∧
    c.events.flatMap (fun ev => g ev.name) = (List.range c.events.length).flatMap (fun k => g ("charge-event-" ++ toString k)) := by
  obtain ⟨hname, hch, hsp, hev⟩ := hw
  refine ⟨?_, ?_, ?_⟩
  · have : c.chargers.flatMap (fun ch => g ch.name) = (c.chargers.map ChargerCfg.name).flatMap g := by rw [List.flatMap_map]
    rw [this, hch, List.flatMap_map]
  · have : c.spillChargers.flatMap (fun ch => g ch.name) = (c.spillChargers.map ChargerCfg.name).flatMap g := by rw [List.flatMap_map]
    rw [this, hsp]; simp
  · have : c.events.flatMap (fun ch => g ch.name) = (c.events.map ChargeEventCfg.name).flatMap g := by rw [List.flatMap_map]
    rw [this, hev, List.flatMap_map]

theorem charger_keys {c : EvsCfg} (hw : (Asset.evs c).WellNamed) (a : EvsArray) :
    (evChargerCells c a c.chargers σ).map Prod.fst = c.chargerColumns := by
  unfold evChargerCells EvsCfg.chargerColumns
  simp only [List.map_flatMap, List.map_map, Function.comp_def]
  rw [zipIdx_flatMap_fst c.chargers (fun ch => evCols.map (fun attr => c.name ++ "-" ++ ch.name ++ "-" ++ attr)),
    (evs_names hw (fun n => evCols.map (fun attr => c.name ++ "-" ++ n ++ "-" ++ attr))).1]
  apply List.flatMap_congr
  intro k _
  have e : c.name ++ "-" ++ ("charger-" ++ toString k) = c.name ++ "-charger-" ++ toString k := by
    rw [str_eq_iff]; simp [String.toList_append]
  rw [e]; rfl

theorem spill_keys {c : EvsCfg} (hw : (Asset.evs c).WellNamed) (a : EvsArray) :
    (evChargerCells c a c.spillChargers σ).map Prod.fst = c.spillColumns := by
  unfold evChargerCells EvsCfg.spillColumns
  simp only [List.map_flatMap, List.map_map, Function.comp_def]
  rw [zipIdx_flatMap_fst c.spillChargers (fun ch => evCols.map (fun attr => c.name ++ "-" ++ ch.name ++ "-" ++ attr)),
    (evs_names hw (fun n => evCols.map (fun attr => c.name ++ "-" ++ n ++ "-" ++ attr))).2.1]
  have e : c.name ++ "-" ++ ("charger-spill-" ++ c.name) = c.name ++ "-charger-spill-" ++ c.name := by
    rw [str_eq_iff]; simp [String.toList_append]
  rw [e]; rfl

theorem event_keys {c : EvsCfg} (hw : (Asset.evs c).WellNamed) (a : EvsArray) :
    (evEventCells c a σ).map Prod.fst = c.eventColumns := by
  unfold evEventCells EvsCfg.eventColumns
  simp only [List.map_flatMap, List.map_map, Function.comp_def]
  rw [zipIdx_flatMap_fst c.events (fun ch => evEventCols.map (fun attr => c.name ++ "-" ++ ch.name ++ "-" ++ attr)),
    (evs_names hw (fun n => evEventCols.map (fun attr => c.name ++ "-" ++ n ++ "-" ++ attr))).2.2]
  apply List.flatMap_congr
  intro k _
  have e : c.name ++ "-" ++ ("charge-event-" ++ toString k) = c.name ++ "-charge-event-" ++ toString k := by
    rw [str_eq_iff]; simp [String.toList_append]
  rw [e]; rfl

theorem soc_keys {c : EvsCfg} (a : EvsArray) : (evSocCells c a σ).map Prod.fst = c.socColumns := by
  unfold evSocCells EvsCfg.socColumns
  simp only [List.map_append, List.map_map, Function.comp_def]
  congr 1 <;> apply List.map_congr_left <;> intro e _ <;> rw [String.append_assoc] <;> rfl

/-- The columns of the EVs assets, in the order in which they are written. -/
theorem emitEvs_keys (ha : Agree vals σ) (hv : VarsOk s flags s.data.n) (hi : i < s.data.n) (hb : ∀ a ∈ s.assets, a.Buildable i)
    (hw : ∀ a ∈ s.assets, a.WellNamed) {E : List (String × ℚ)}
    (h : emitEvs (s.ivarsTo flags s.data.n) vals i (s.assets.map Asset.name) = .ok E) :
    E.map Prod.fst = s.fleets.flatMap (fun c => c.chargerColumns ++ c.eventColumns ++ c.socColumns) ++ s.fleets.flatMap EvsCfg.spillColumns := by
  have hp := emitEvs_ok ha hv hi hb h
  simp only [emitEvs, IVars.filter, ivarsTo_index s flags hi, ok_bind] at h
  split at h
  · cases h
    have hnil := hp.symm.eq_nil
    have hno : s.fleets = [] := by
      rw [← fleets_evs? hw, List.filterMap_eq_nil_iff]
      intro a ham
      rw [List.flatMap_eq_nil_iff] at hnil
      have := hnil a ham
      cases a with
      | evs c =>
        obtain ⟨hs, hr⟩ := hb _ ham
        rw [Asset.evs?, if_pos (hw _ ham).1] at this
        simp only at this
        have hk := spill_keys (σ := σ) (hw _ ham) (c.spillArray i s.freq flags)
        unfold EvsCfg.cells at this
        rw [List.append_eq_nil_iff] at this
        rw [this.2] at hk
        simp [EvsCfg.spillColumns] at hk
      | _ => rfl
    rw [hno]; rfl
  · simp only [bind_ok, Except.ok.injEq] at h
    obtain ⟨pkg, hpkg, rows, hrows, spkg, hspkg, srows, hsrows, rfl⟩ := h
    have h1 := mapE_arrays hv hi hb s.assets (fun _ h => h) hpkg
    have h2 := mapE_arrays hv hi hb s.assets (fun _ h => h) hspkg
    have h3 : rows = pkg.flatMap (fun a => evChargerCells a.cfg a a.cfg.chargers σ ++ evEventCells a.cfg a σ ++ evSocCells a.cfg a σ) := by
      refine flatMapE_eq_of_ok hrows ?_
      intro a _ b hb'
      simp only [bind_ok, Except.ok.injEq] at hb'
      obtain ⟨x, hx, y, hy, z, hz, rfl⟩ := hb'
      rw [emitChargers_ok ha rfl hx, emitEvents_ok ha rfl hy, emitSocs_ok ha rfl hz]
    have h4 : srows = spkg.flatMap (fun a => evChargerCells a.cfg a a.cfg.spillChargers σ) := by
      refine flatMapE_eq_of_ok hsrows ?_
      intro a _ b hb'
      exact emitChargers_ok ha rfl hb'
    rw [h3, h4, h1, h2, fleets_evs? hw, List.map_append, List.map_flatMap, List.map_flatMap]
    simp only [Bool.false_eq_true, if_false, if_true, List.flatMap_map]
    congr 1
    · apply List.flatMap_congr
      intro c hc
      have hwc := hw _ (mem_fleets.1 hc)
      simp only [EvsCfg.array]
      rw [List.map_append, List.map_append]
      exact congrArg₂ _ (congrArg₂ _ (charger_keys hwc _) (event_keys hwc _)) (soc_keys _)
    · apply List.flatMap_congr
      intro c hc
      exact spill_keys (hw _ (mem_fleets.1 hc)) _

/-- The columns of a row, in the order in which they are written, without the totals. -/
def Site.rowOrder (s : Site) : List String :=
  ["site-import_power_mwh", "site-export_power_mwh", "site-electricity_prices", "site-export_electricity_prices",
    "site-electricity_carbon_intensities", "site-gas_prices", "site-electric_load_mwh", "site-high_temperature_load_mwh",
    "site-low_temperature_load_mwh", "site-low_temperature_generation_mwh"] ++
  s.data.custom.map (fun f => "site-" ++ f.1) ++
  s.columnsOf Asset.isSpill ++ s.columnsOf Asset.isBattery ++ s.columnsOf Asset.isChp ++ s.columnsOf Asset.isBoiler ++
  s.columnsOf Asset.isValve ++
  s.fleets.flatMap (fun c => c.chargerColumns ++ c.eventColumns ++ c.socColumns) ++ s.fleets.flatMap EvsCfg.spillColumns ++
  s.columnsOf Asset.isHeatPump ++ s.columnsOf Asset.isRenewable

theorem emitInterval_keys (ha : Agree vals σ) (hv : VarsOk s flags s.data.n) (hi : i < s.data.n)
    (hb : ∀ a ∈ s.assets, a.Buildable i) (hw : ∀ a ∈ s.assets, a.WellNamed) {E : List (String × ℚ)}
    (h : emitInterval s (s.ivarsTo flags s.data.n) vals i = .ok E) : E.map Prod.fst = s.rowOrder := by
  simp only [emitInterval, bind_ok, Except.ok.injEq] at h
  obtain ⟨e1, h1, e2, h2, e3, h3, e4, h4, e5, h5, e6, h6, e7, h7, e8, h8, e9, h9, rfl⟩ := h
  have rd : ∀ k : Kind, k ≠ .battery → ∀ v q, optimizerValue vals false v = .ok q → q = k.adjust (v.eval σ) := by
    intro k hk v q hq
    rw [optimizerValue_ok ha hq]
    simp [Kind.adjust, hk]
  have rdir : ∀ k : Kind, k ≠ .battery → ∀ v q, directValue vals v = .ok q → q = k.adjust (v.eval σ) := by
    intro k hk v q hq
    rw [directValue_ok ha hq]
    simp [Kind.adjust, hk]
  have rb : ∀ v q, optimizerValue vals true v = .ok q → q = Kind.battery.adjust (v.eval σ) := by
    intro v q hq
    rw [optimizerValue_ok ha hq]
    simp [Kind.adjust]
  rw [emitSite_ok ha hv hi h1,
    emitKind_ok hv hi (k := .spill) (rd _ (by simp)) h2 (by simp),
    emitKind_ok hv hi (k := .battery) rb h3 (by simp),
    emitKind_ok hv hi (k := .chp) (rdir _ (by simp)) h4 (by simp),
    emitKind_ok hv hi (k := .boiler) (rdir _ (by simp)) h5 (by simp),
    emitKind_ok hv hi (k := .valve) (rd _ (by simp)) h6 (by simp),
    emitKind_ok hv hi (k := .heatPump) (rd _ (by simp)) h8 (by simp),
    emitKind_ok hv hi (k := .renewable) (rd _ (by simp)) h9 (by simp)]
  simp only [List.map_append]
  rw [emitEvs_keys ha hv hi hb hw h7,
    kind_keys (p := Asset.isSpill) (by intro a; cases a <;> simp [Asset.isSpill, Asset.kinds]) (by simp) hb,
    kind_keys (p := Asset.isBattery) (by intro a; cases a <;> simp [Asset.isBattery, Asset.kinds]) (by simp) hb,
    kind_keys (p := Asset.isChp) (by intro a; cases a <;> simp [Asset.isChp, Asset.kinds]) (by simp) hb,
    kind_keys (p := Asset.isBoiler) (by intro a; cases a <;> simp [Asset.isBoiler, Asset.kinds]) (by simp) hb,
    kind_keys (p := Asset.isValve) (by intro a; cases a <;> simp [Asset.isValve, Asset.kinds]) (by simp) hb,
    kind_keys (p := Asset.isHeatPump) (by intro a; cases a <;> simp [Asset.isHeatPump, Asset.kinds]) (by simp) hb,
    kind_keys (p := Asset.isRenewable) (by intro a; cases a <;> simp [Asset.isRenewable, Asset.kinds]) (by simp) hb]
  unfold Site.rowOrder Site.cells SiteData.dump
  simp only [List.map_cons, List.map_append, List.map_nil, List.map_map, Function.comp_def, List.append_assoc, List.cons_append, List.nil_append]
  rfl

/-- What `Site.optimize` extracts and how the totals are added to it. -/
theorem optimize_extract {objective : Objective} {S : Solver} {r : SimResult} (h : s.optimize objective flags S = .ok r) :
    ∃ p t N, s.program objective flags = .ok (s.ivarsTo flags s.data.n, p) ∧
      extractTable s (s.ivarsTo flags s.data.n) (p.valuesOf (S p)) = .ok t ∧ checkArrayLengths t = .ok N ∧ addTotals t N = .ok r.results := by
  simp only [Site.optimize, bind_ok, Prod.exists] at h
  obtain ⟨iv, p, hp, status, vals, hs, he⟩ := h
  have hiv := (program_spec hp).iv_eq
  subst hiv
  simp only [Prob.solve, bind_ok, pyAssert_ok] at hs
  obtain ⟨_, hdup, hs⟩ := hs
  have hvals : vals = p.valuesOf (S p) := by
    cases hfl : flags.allowInfeasible with
    | true =>
      simp only [hfl, if_true, Except.ok.injEq, Prod.mk.injEq] at hs
      exact hs.2.symm
    | false =>
      simp only [hfl, Bool.false_eq_true, if_false, bind_ok, pyAssert_ok, Except.ok.injEq, Prod.mk.injEq] at hs
      obtain ⟨_, h1, _, h2, rfl, rfl⟩ := hs
      rfl
  subst hvals
  unfold extractResults at he
  cases hfe : status.feasible with
  | true =>
    simp only [hfe, if_true, bind_ok, Except.ok.injEq] at he
    obtain ⟨t, ht, N, hN, t', ht', _, h1, _, h2, sp, hsp, rfl⟩ := he
    exact ⟨p, t, N, hp, ht, hN, ht'⟩
  | false =>
    simp only [hfe, Bool.false_eq_true, if_false, bind_ok, Except.ok.injEq] at he
    obtain ⟨t, ht, N, hN, t', ht', h⟩ := he
    obtain ⟨_, _, sp, hsp, rfl⟩ := h
    exact ⟨p, t, N, hp, ht, hN, ht'⟩

theorem set_new_columns {t : Table} {k : String} (h : k ∉ t.columns) (col : List ℚ) : (t.set k col).columns = t.columns ++ [k] := by
  rw [columns_set, if_neg h]

theorem foldl_total_columns (n : Nat) (qs : List String) (t : Table) (hd : qs.Nodup) (h : ∀ q ∈ qs, "total-" ++ q ∉ t.columns) :
    (qs.foldl (addTotal n) t).columns = t.columns ++ qs.map (fun q => "total-" ++ q) := by
  induction qs generalizing t with
  | nil => simp
  | cons q qs ih =>
    rw [List.nodup_cons] at hd
    have e : (addTotal n t q).columns = t.columns ++ ["total-" ++ q] := set_new_columns (h q (by simp)) _
    rw [List.foldl_cons, ih _ hd.2, e]
    · simp
    · intro q' hq' hm
      rw [e, List.mem_append, List.mem_singleton] at hm
      rcases hm with hm | hm
      · exact h q' (by simp [hq']) hm
      · have : q' = q := by
          rw [str_eq_iff] at hm ⊢
          simpa [String.toList_append] using hm
        exact hd.1 (this ▸ hq')

theorem addTotals_columns {t t' : Table} {n : Nat} (h : addTotals t n = .ok t') (hk : ∀ k ∈ totalColumns, k ∉ t.columns) :
    t'.columns = t.columns ++ totalColumns ++
      (if "site-electricity_balance_mwh" ∈ t.columns then [] else ["site-electricity_balance_mwh"]) := by
  simp only [addTotals, bind_ok, Except.ok.injEq] at h
  obtain ⟨imp, -, exp, -, rfl⟩ := h
  have hq : ∀ q ∈ quantities, "total-" ++ q ∈ totalColumns := by decide +kernel
  have e1 := foldl_total_columns n quantities t (by decide +kernel) (fun q h => hk _ (hq q h))
  have n1 : "total-spills_mwh" ∉ (quantities.foldl (addTotal n) t).columns := by
    rw [e1, List.mem_append, not_or]
    exact ⟨hk _ (by decide +kernel), by decide +kernel⟩
  have e2 := set_new_columns n1 ((quantities.foldl (addTotal n) t).sumColumns n isTotalSpillColumn)
  have n2 : "total-electric_loss_mwh" ∉ ((quantities.foldl (addTotal n) t).set "total-spills_mwh"
      ((quantities.foldl (addTotal n) t).sumColumns n isTotalSpillColumn)).columns := by
    rw [e2, e1, List.mem_append, List.mem_append, not_or, not_or]
    exact ⟨⟨hk _ (by decide +kernel), by decide +kernel⟩, by decide +kernel⟩
  have et : totalColumns = quantities.map (fun q => "total-" ++ q) ++ ["total-spills_mwh"] ++ ["total-electric_loss_mwh"] := by decide +kernel
  rw [columns_set, set_new_columns n2, e2, e1]
  have hb : "site-electricity_balance_mwh" ∈ t.columns ++ quantities.map (fun q => "total-" ++ q) ++ ["total-spills_mwh"] ++ ["total-electric_loss_mwh"] ↔
      "site-electricity_balance_mwh" ∈ t.columns := by
    simp only [List.append_assoc, List.mem_append]
    constructor
    · rintro (h | h)
      · exact h
      · exact absurd h (by decide +kernel)
    · exact .inl
  rw [if_congr hb rfl rfl, et]
  split <;> simp

end

variable {s : Site} {objective : Objective} {flags : Flags} {S : Solver} {r : SimResult}

theorem results_columns (hc : s.Constructed) (h : s.optimize objective flags S = .ok r) (hw : ∀ a ∈ s.assets, a.WellNamed) :
    r.results.columns = s.columnOrder ++
      (if "site-electricity_balance_mwh" ∈ s.rowOrder then [] else ["site-electricity_balance_mwh"]) := by
  obtain ⟨p, t, N, hp, ht, hN, htot⟩ := optimize_extract h
  have hprog := program_spec hp
  obtain ⟨rfl, hrows⟩ := extractTable_rows (agree_self _) hprog.vars (fun i hi a ha => hprog.buildable hi ha) hc.wf ht hN
  have hcols : t.columns = s.rowOrder := by
    simp only [extractTable, bind_ok, Except.ok.injEq] at ht
    obtain ⟨cells, hcells, ht⟩ := ht
    let E : Nat → List (String × ℚ) := fun i =>
      match emitInterval s (s.ivarsTo flags s.data.n) (p.valuesOf (S p)) i with
      | .ok l => l
      | .error _ => []
    have hE : ∀ i < s.data.n, emitInterval s (s.ivarsTo flags s.data.n) (p.valuesOf (S p)) i = .ok (E i) := by
      intro i hi
      obtain ⟨l, hl⟩ := flatMapE_all_ok hcells (List.mem_range.2 hi)
      simp [E, hl]
    rw [flatMapE_eq (g := E) (fun i hi => hE i (List.mem_range.1 hi))] at hcells
    cases hcells
    have hkeys : ∀ i < s.data.n, (E i).map Prod.fst = s.rowOrder := fun i hi =>
      emitInterval_keys (agree_self _) hprog.vars hi (fun a ha => hprog.buildable hi ha) hw (hE i hi)
    rw [← ht, rows_columns hrows.pos, hkeys 0 hrows.pos]
    · have := emitInterval_ok (agree_self _) hprog.vars hrows.pos (fun a ha => hprog.buildable hrows.pos ha) (hE 0 hrows.pos)
      rw [(this.map _).nodup_iff, row_keys (fun a ha => hprog.buildable hrows.pos ha)]
      exact hrows.keysNodup
    · intro i hi k hk
      rw [hkeys i hi] at hk
      rw [hkeys 0 hrows.pos]; exact hk
  have hnt : ∀ k ∈ totalColumns, k ∉ t.columns := by
    intro k hk hm
    rw [hrows.colsPerm.mem_iff] at hm
    unfold Site.keys at hm
    have hk' : k ∈ totalKeys := by
      have : totalKeys = totalColumns ++ ["site-electricity_balance_mwh"] := by decide +kernel
      rw [this]; simp [hk]
    rw [List.mem_append] at hm
    rcases hm with hm | hm
    · have hst : pyStartsWith k "total-" = true := by
        have : ∀ k ∈ totalColumns, pyStartsWith k "total-" = true := by decide +kernel
        exact this k hk
      have hsite : pyStartsWith k "site-" = true := by
        rw [List.mem_cons, List.mem_cons] at hm
        rcases hm with rfl | rfl | hm
        · decide +kernel
        · decide +kernel
        · obtain ⟨f, -, rfl⟩ := List.mem_map.1 hm
          simp [pyStartsWith, String.toList_append]
      have : ∀ k ∈ totalColumns, pyStartsWith k "site-" = false := by decide +kernel
      rw [this k hk] at hsite
      cases hsite
    · obtain ⟨a, ham, hm⟩ := List.mem_flatMap.1 hm
      exact keys_not_total (hw a ham) hm hk'
  rw [addTotals_columns htot hnt, hcols]
  rfl

end EPL
