/-
The results table: columns, totals, echoed inputs, flags.
-/
import Verif.Proofs.Totals
import Verif.Spec.Columns
import Verif.Spec.DemoSites
import Verif.Spec.DemoEvs
import Verif.Props.Inputs

namespace EPL

section
variable {s : Site} {objective : Objective} {flags : Flags} {S : Solver} {r : SimResult} {V : String → Nat → ℚ}

/-- Any returned result, feasible or not, is a table of the values left by the solver. -/
theorem returned_outcome (hc : s.Constructed) (h : s.optimize objective flags S = .ok r) : ∃ σ p, Ran s objective flags S r p ∧
    Prog s objective flags (s.ivarsTo flags s.data.n) p ∧ Outcome s flags σ r.results ∧
    ∀ i < s.data.n, (s.row flags σ i).map Prod.fst = s.keys := by
  obtain ⟨p, hr⟩ := optimize_ran h
  have hp := program_spec hr.program
  exact ⟨_, p, hr, hp, hr.outcome hc.wf _ (agree_self _), fun i hi => row_keys (fun a ha => hp.buildable hi ha)⟩

/-- Columns of well named assets are not overwritten by totals. -/
theorem keys_not_total {a : Asset} (hw : a.WellNamed) {k : String} (hk : k ∈ a.keys) : k ∉ totalKeys := by
  obtain ⟨pre, attr, rfl, hd, hs⟩ := keys_shape hk
  rcases hs with ⟨⟨kd, hkd⟩, rfl⟩ | ⟨_, rest, rfl⟩
  · exact single_key hw.ne_total hd (attr_ne_balance (cols_allAttrs hkd))
  · exact double_key hd

theorem site_key_not_total {f : String} (hf : f ≠ "electricity_balance_mwh") : "site-" ++ f ∉ totalKeys := by
  intro hm
  simp only [totalKeys, List.mem_append, List.mem_map, List.mem_cons, List.not_mem_nil, or_false] at hm
  have hne : ∀ g : String, "site-" ++ f ≠ "total-" ++ g := by
    intro g h
    rw [str_eq_iff, String.toList_append, String.toList_append] at h
    have := congrArg List.head? h
    revert this
    simp
  rcases hm with ⟨q, _, h⟩ | h | h | h
  · exact hne q h.symm
  · exact hne "spills_mwh" h
  · exact hne "electric_loss_mwh" h
  · exact hf (site_prefix_inj h)

/-- A total is the sum of the columns its filter selects. -/
theorem total_rowSum {t : Table} {σ : Assign} (ho : Outcome s flags σ t) (hkeys : ∀ i < s.data.n, (s.row flags σ i).map Prod.fst = s.keys)
    (hV : t.Reads s.data.n V) (hw : ∀ a ∈ s.assets, a.WellNamed) {P : String → Bool} (hP : P "site-electricity_balance_mwh" = false)
    {i : Nat} (hi : i < s.data.n) :
    (((s.row flags σ i).filter (fun c => P c.1)).map Prod.snd).sum = rowSum V (s.keys.filter P) i := by
  have hcell : ∀ c ∈ (s.row flags σ i).filter (fun c => P c.1), c.2 = V c.1 i := by
    intro c hc
    obtain ⟨hc, hPc⟩ := List.mem_filter.1 hc
    have hk : c.1 ∈ s.keys := by
      rw [← hkeys i hi]; exact List.mem_map_of_mem hc
    have hnot : c.1 ∉ totalKeys := by
      unfold Site.keys at hk
      rcases List.mem_append.1 hk with hk | hk
      · rcases List.mem_cons.1 hk with hk | hk
        · rw [hk]; decide
        · rcases List.mem_cons.1 hk with hk | hk
          · rw [hk]; decide
          · obtain ⟨f, _, hf⟩ := List.mem_map.1 hk
            rw [← hf]
            refine site_key_not_total ?_
            intro hfe
            rw [← hf, hfe] at hPc
            have : ("site-" ++ "electricity_balance_mwh" : String) = "site-electricity_balance_mwh" := by decide
            rw [this, hP] at hPc
            simp at hPc
      · obtain ⟨a, ha, hk⟩ := List.mem_flatMap.1 hk
        exact keys_not_total (hw a ha) hk
    have h1 := ho.cell i hi c hc hnot
    have hm : c.1 ∈ t.columns := (ho.columns c.1).2 (.inl hk)
    rw [hV _ hm i hi] at h1
    exact (Option.some.inj h1).symm
  rw [List.map_congr_left hcell]
  unfold rowSum
  rw [← hkeys i hi, List.filter_map, List.map_map]
  rfl

theorem total_cell {t : Table} {σ : Assign} (ho : Outcome s flags σ t) (hkeys : ∀ i < s.data.n, (s.row flags σ i).map Prod.fst = s.keys)
    (hV : t.Reads s.data.n V) (hw : ∀ a ∈ s.assets, a.WellNamed) {q : String} (hq : q ∈ quantities) {i : Nat} (hi : i < s.data.n) :
    V ("total-" ++ q) i = rowSum V (s.keys.filter (isTotalColumn q)) i := by
  have hb : isTotalColumn q "site-electricity_balance_mwh" = false := by
    have : ∀ q ∈ quantities, isTotalColumn q "site-electricity_balance_mwh" = false := by decide +kernel
    exact this q hq
  have hm : "total-" ++ q ∈ t.columns := (ho.columns _).2 (.inr (by
    simp only [totalKeys, List.mem_append, List.mem_map]
    exact .inl ⟨q, hq, rfl⟩))
  have := ho.total q hq i hi
  rw [hV _ hm i hi, total_rowSum ho hkeys hV hw hb hi] at this
  exact Option.some.inj this

/-! ### C24 -/

/-- A total is the sum over all columns whose name contains `-<quantity>` and not "charge-event", the total itself apart. -/
theorem C24_total_columns (hc : s.Constructed) (h : s.optimize objective flags S = .ok r) (hV : r.results.Reads s.data.n V)
    (hw : ∀ a ∈ s.assets, a.WellNamed) {q : String} (hq : q ∈ totalFlows) {i : Nat} (hi : i < s.data.n) :
    V ("total-" ++ q) i = rowSum V (r.results.columns.filter (fun c =>
      pyIn ("-" ++ q) c && !pyIn "charge-event" c && decide (c ≠ "total-" ++ q))) i := by
  obtain ⟨σ, p, hr, hp, ho, hkeys⟩ := returned_outcome hc h
  rw [total_cell ho hkeys hV hw hq hi]
  unfold rowSum
  have hperm : (s.keys.filter (isTotalColumn q)).Perm (r.results.columns.filter (fun c =>
      pyIn ("-" ++ q) c && !pyIn "charge-event" c && decide (c ≠ "total-" ++ q))) := by
    rw [List.perm_ext_iff_of_nodup (ho.nodup.filter _) (ho.colsNodup.filter _)]
    intro k
    rw [List.mem_filter, List.mem_filter, ho.columns]
    have hself : ∀ k ∈ s.keys, isTotalColumn q k = true → k ≠ "total-" ++ q := by
      rintro k hk hP rfl
      have hkt : "total-" ++ q ∈ totalKeys := by
        simp only [totalKeys, List.mem_append, List.mem_map]
        exact .inl ⟨q, hq, rfl⟩
      unfold Site.keys at hk
      rcases List.mem_append.1 hk with hk | hk
      · have hno : ∀ q ∈ quantities, "total-" ++ q ≠ "site-import_power_mwh" ∧ "total-" ++ q ≠ "site-export_power_mwh" := by decide +kernel
        rcases List.mem_cons.1 hk with hk | hk
        · exact (hno q hq).1 hk
        · rcases List.mem_cons.1 hk with hk | hk
          · exact (hno q hq).2 hk
          · obtain ⟨f, _, hf⟩ := List.mem_map.1 hk
            rw [str_eq_iff, String.toList_append, String.toList_append] at hf
            have := congrArg List.head? hf
            simp at this
      · obtain ⟨a, ha, hk⟩ := List.mem_flatMap.1 hk
        exact keys_not_total (hw a ha) hk hkt
    constructor
    · rintro ⟨hk, hP⟩
      refine ⟨.inl hk, ?_⟩
      have := hself k hk hP
      simpa [isTotalColumn, this] using hP
    · rintro ⟨hk, hP⟩
      simp only [Bool.and_eq_true, decide_eq_true_eq] at hP
      have hP2 : isTotalColumn q k = true := by simp only [isTotalColumn, Bool.and_eq_true]; exact hP.1
      refine ⟨?_, hP2⟩
      rcases hk with hk | hk
      · exact hk
      · exfalso
        simp only [totalKeys, List.mem_append, List.mem_map, List.mem_cons, List.not_mem_nil, or_false] at hk
        have hno : ∀ q ∈ quantities, isTotalColumn q "total-spills_mwh" = false ∧ isTotalColumn q "total-electric_loss_mwh" = false ∧
          isTotalColumn q "site-electricity_balance_mwh" = false := by decide +kernel
        rcases hk with ⟨q', hq', rfl⟩ | rfl | rfl | rfl
        · have hne : q' ≠ q := by
            rintro rfl; exact hP.2 rfl
          rw [total_other q hq q' hq' hne] at hP2
          simp at hP2
        · rw [(hno q hq).1] at hP2; simp at hP2
        · rw [(hno q hq).2.1] at hP2; simp at hP2
        · rw [(hno q hq).2.2] at hP2; simp at hP2
  exact (hperm.map _).sum_eq

/-- With plain names a total is what the site and all its assets report. -/
theorem C24_total_assets (hc : s.Constructed) (h : s.optimize objective flags S = .ok r) (hV : r.results.Reads s.data.n V)
    (hw : ∀ a ∈ s.assets, a.WellNamed) (hp : s.PlainNames) {q : String} (hq : q ∈ totalFlows) {i : Nat} (hi : i < s.data.n) :
    V ("total-" ++ q) i = (if q ∈ siteFlows then V ("site-" ++ q) i else 0) + s.assetSum V q i := by
  obtain ⟨σ, p, hr, hpr, ho, hkeys⟩ := returned_outcome hc h
  rw [total_cell ho hkeys hV hw hq hi]
  unfold Site.keys
  rw [List.filter_append, dump_total hp.custom hq, List.filter_flatMap]
  have : s.assets.flatMap (fun a => a.keys.filter (isTotalColumn q)) = s.assets.flatMap (fun a => a.reports q) :=
    List.flatMap_congr (fun a ha => keys_total (hw a ha) (hp.assets a ha) hq)
  rw [this, rowSum, List.map_append, List.sum_append, list_sum_flatMap]
  congr 1
  split <;> simp

/-- The site balance column is import minus export, and the loss and spill totals collect the loss and spill columns. -/
theorem C24_balance_column (hc : s.Constructed) (h : s.optimize objective flags S = .ok r) (hV : r.results.Reads s.data.n V)
    {i : Nat} (hi : i < s.data.n) :
    V "site-electricity_balance_mwh" i = V "site-import_power_mwh" i - V "site-export_power_mwh" i := by
  obtain ⟨σ, p, hr, hpr, ho, hkeys⟩ := returned_outcome hc h
  have h1 := ho.balance i hi
  have h2 := ho.cell i hi ("site-import_power_mwh", σ (s.oneInterval i).importPower.id) (by simp [Site.row, Site.cells])
    (by decide : "site-import_power_mwh" ∉ totalKeys)
  have h3 := ho.cell i hi ("site-export_power_mwh", σ (s.oneInterval i).exportPower.id) (by simp [Site.row, Site.cells])
    (by decide : "site-export_power_mwh" ∉ totalKeys)
  rw [hV _ ((ho.columns _).2 (.inr (by decide +kernel))) i hi] at h1
  rw [hV _ ((ho.columns _).2 (.inl (by simp [Site.keys]))) i hi] at h2 h3
  rw [Option.some.inj h1, Option.some.inj h2, Option.some.inj h3]

/-! ### C23 -/

theorem mem_keys_documented {a : Asset} (hw : a.WellNamed) (k : String) : k ∈ a.keys ↔ k ∈ a.documentedColumns := by
  cases a with
  | evs c =>
    obtain ⟨hname, hch, hsp, hev⟩ := hw
    have f1 : ∀ {β : Type} (g : String → List β), c.chargers.flatMap (fun ch => g ch.name) =
        (List.range c.chargers.length).flatMap (fun k => g ("charger-" ++ toString k)) := by
      intro β g
      have : c.chargers.flatMap (fun ch => g ch.name) = (c.chargers.map ChargerCfg.name).flatMap g := by rw [List.flatMap_map]
      rw [this, hch, List.flatMap_map]
    have f2 : ∀ {β : Type} (g : String → List β), c.spillChargers.flatMap (fun ch => g ch.name) = g ("charger-spill-" ++ c.name) := by
      intro β g
      have : c.spillChargers.flatMap (fun ch => g ch.name) = (c.spillChargers.map ChargerCfg.name).flatMap g := by rw [List.flatMap_map]
      rw [this, hsp]; simp
    have f3 : ∀ {β : Type} (g : String → List β), c.events.flatMap (fun ev => g ev.name) =
        (List.range c.events.length).flatMap (fun k => g ("charge-event-" ++ toString k)) := by
      intro β g
      have : c.events.flatMap (fun ch => g ch.name) = (c.events.map ChargeEventCfg.name).flatMap g := by rw [List.flatMap_map]
      rw [this, hev, List.flatMap_map]
    have e1 : ∀ x : String, c.name ++ "-" ++ ("charger-" ++ x) = c.name ++ "-charger-" ++ x := by
      intro x; rw [str_eq_iff]; simp [String.toList_append]
    have e2 : ∀ x : String, c.name ++ "-" ++ ("charger-spill-" ++ x) = c.name ++ "-charger-spill-" ++ x := by
      intro x; rw [str_eq_iff]; simp [String.toList_append]
    have e3 : ∀ x : String, c.name ++ "-" ++ ("charge-event-" ++ x) = c.name ++ "-charge-event-" ++ x := by
      intro x; rw [str_eq_iff]; simp [String.toList_append]
    simp only [Asset.keys, hname, if_true]
    rw [f1 (fun n => evCols.map (fun attr => c.name ++ "-" ++ n ++ "-" ++ attr)),
      f2 (fun n => evCols.map (fun attr => c.name ++ "-" ++ n ++ "-" ++ attr)),
      f3 (fun n => evEventCols.map (fun attr => c.name ++ "-" ++ n ++ "-" ++ attr))]
    simp only [e1, e2, e3, Asset.documentedColumns,
      evCols, evEventCols, List.flatMap_append, List.flatMap_map, List.mem_append, List.mem_flatMap, List.mem_map, List.mem_range,
      List.mem_cons, List.not_mem_nil, or_false, exists_eq_or_imp, exists_eq_left, List.flatMap_cons, List.flatMap_nil, List.append_nil]
    constructor
    · rintro (((⟨k', h1, h2⟩ | ⟨e, h1, h2⟩) | (⟨e, h1, h2⟩ | ⟨e, h1, h2⟩)) | h2)
      · exact .inl (.inl ⟨k', h1, h2⟩)
      · exact .inr ⟨e, h1, by tauto⟩
      · exact .inr ⟨e, h1, by tauto⟩
      · exact .inr ⟨e, h1, by tauto⟩
      · exact .inl (.inr h2)
    · rintro ((⟨k', h1, h2⟩ | h2) | ⟨e, h1, h2⟩)
      · exact .inl (.inl (.inl ⟨k', h1, h2⟩))
      · exact .inr h2
      · rcases h2 with h2 | h2 | h2 | h2 | h2
        · exact .inl (.inl (.inr ⟨e, h1, .inl h2⟩))
        · exact .inl (.inl (.inr ⟨e, h1, .inr (.inl h2)⟩))
        · exact .inl (.inl (.inr ⟨e, h1, .inr (.inr h2)⟩))
        · exact .inl (.inr (.inl ⟨e, h1, h2⟩))
        · exact .inl (.inr (.inr ⟨e, h1, h2⟩))
  | _ => rfl

/-- One row per interval, distinct columns, and exactly the documented columns: those of the site, the totals, the custom data and
those of every asset.  This holds for infeasible results too. -/
theorem C23_columns (hc : s.Constructed) (h : s.optimize objective flags S = .ok r) (hw : ∀ a ∈ s.assets, a.WellNamed) :
    0 < s.data.n ∧ (∀ c ∈ r.results, c.2.length = s.data.n) ∧ r.results.columns.Nodup ∧
    ∀ k, k ∈ r.results.columns ↔ k ∈ siteColumns ∨ k ∈ totalColumns ∨ (∃ f ∈ s.data.custom, k = "site-" ++ f.1) ∨
      ∃ a ∈ s.assets, k ∈ a.documentedColumns := by
  obtain ⟨σ, p, hr, hpr, ho, hkeys⟩ := returned_outcome hc h
  refine ⟨ho.pos, ho.lengths, ho.colsNodup, ?_⟩
  intro k
  have ht : k ∈ totalKeys ↔ k ∈ totalColumns ∨ k = "site-electricity_balance_mwh" := by
    have : totalKeys = totalColumns ++ ["site-electricity_balance_mwh"] := by decide +kernel
    rw [this]; simp
  have hs : k ∈ siteColumns ↔ k ∈ siteColumns.dropLast ∨ k = "site-electricity_balance_mwh" := by
    have : siteColumns = siteColumns.dropLast ++ ["site-electricity_balance_mwh"] := by decide +kernel
    conv_lhs => rw [this]
    simp only [List.mem_append, List.mem_singleton]
  have hd : ("site-import_power_mwh" :: "site-export_power_mwh" :: s.data.dump.map (fun f => "site-" ++ f.1)) =
      siteColumns.dropLast ++ s.data.custom.map (fun f => "site-" ++ f.1) := by
    simp [SiteData.dump, siteColumns]
  rw [ho.columns, ht, hs]
  unfold Site.keys
  rw [hd]
  have ha : (∃ a ∈ s.assets, k ∈ a.documentedColumns) ↔ ∃ a ∈ s.assets, k ∈ a.keys := by
    constructor
    · rintro ⟨a, h1, h2⟩; exact ⟨a, h1, (mem_keys_documented (hw a h1) k).2 h2⟩
    · rintro ⟨a, h1, h2⟩; exact ⟨a, h1, (mem_keys_documented (hw a h1) k).1 h2⟩
  have hcus : k ∈ s.data.custom.map (fun f => "site-" ++ f.1) ↔ ∃ f ∈ s.data.custom, k = "site-" ++ f.1 := by
    simp only [List.mem_map, eq_comm]
  rw [List.mem_append, List.mem_append, List.mem_flatMap, ha, hcus]
  generalize (k ∈ siteColumns.dropLast) = A, (k ∈ totalColumns) = B, (k = "site-electricity_balance_mwh") = C,
    (∃ f ∈ s.data.custom, k = "site-" ++ f.1) = D, (∃ a ∈ s.assets, k ∈ a.keys) = E
  clear ha hcus hd hs ht
  tauto

/-! ### C26 and C31: the inputs in the results -/

theorem returned_data_cell (hc : s.Constructed) (h : s.optimize objective flags S = .ok r) (hV : r.results.Reads s.data.n V)
    {f : String × List ℚ} (hf : f ∈ s.data.dump) (hne : f.1 ≠ "electricity_balance_mwh") {i : Nat} (hi : i < s.data.n) :
    f.2[i]? = some (V ("site-" ++ f.1) i) := by
  obtain ⟨σ, p, hr, hpr, ho, hkeys⟩ := returned_outcome hc h
  have h1 := ho.cell i hi ("site-" ++ f.1, f.2.getD i 0) (List.mem_append_left _ (by
      simp only [Site.cells, List.mem_cons]
      exact .inr (.inr (List.mem_map.2 ⟨f, hf, rfl⟩)))) (site_key_not_total hne)
  have hm : "site-" ++ f.1 ∈ r.results.columns := (ho.columns _).2 (.inl (by
    unfold Site.keys
    refine List.mem_append_left _ (List.mem_cons_of_mem _ (List.mem_cons_of_mem _ (List.mem_map.2 ⟨f, hf, rfl⟩)))))
  rw [hV _ hm i hi] at h1
  rw [Option.some.inj h1, List.getD_eq_getElem?_getD, List.getElem?_eq_getElem (by rw [hc.wf.lens f hf]; exact hi)]
  rfl

/-- The results repeat the (completed) interval data the site was built with. -/
theorem C26_echo {assets : List Asset} {raw : RawSiteData} {freqMins il el : ℚ} {constraints : List Constraint}
    {kwargs : List (String × KwData)} (hs : Site.new assets raw freqMins il el constraints kwargs = .ok s)
    (h : s.optimize objective flags S = .ok r) (hV : r.results.Reads s.data.n V) {d : SiteDataF} (hd : SiteDataSpec raw d)
    {i : Nat} (hi : i < s.data.n) :
    d.electricityPrices[i]? = some (some (V "site-electricity_prices" i)) ∧
    d.exportElectricityPrices[i]? = some (some (V "site-export_electricity_prices" i)) ∧
    d.electricityCarbonIntensities[i]? = some (some (V "site-electricity_carbon_intensities" i)) ∧
    d.gasPrices[i]? = some (some (V "site-gas_prices" i)) ∧
    d.electricLoad[i]? = some (some (V "site-electric_load_mwh" i)) ∧
    d.htLoad[i]? = some (some (V "site-high_temperature_load_mwh" i)) ∧
    d.ltLoad[i]? = some (some (V "site-low_temperature_load_mwh" i)) ∧
    d.ltGeneration[i]? = some (some (V "site-low_temperature_generation_mwh" i)) := by
  have hc : s.Constructed := ⟨_, _, _, _, _, _, _, hs⟩
  have hd2 := (site_new hs).data
  rw [(C29_site_data raw d).2 hd, Except.ok.injEq] at hd2
  subst hd2
  have key : ∀ (name : String) (l : List ℚ), (name, l) ∈ s.data.dump → name ≠ "electricity_balance_mwh" →
      (l.map some)[i]? = some (some (V ("site-" ++ name) i)) := by
    intro name l hm hne
    have := returned_data_cell hc h hV hm hne hi
    simp only at this
    rw [List.getElem?_map, this]
    rfl
  refine ⟨key "electricity_prices" _ ?_ (by decide), key "export_electricity_prices" _ ?_ (by decide),
    key "electricity_carbon_intensities" _ ?_ (by decide), key "gas_prices" _ ?_ (by decide), key "electric_load_mwh" _ ?_ (by decide),
    key "high_temperature_load_mwh" _ ?_ (by decide), key "low_temperature_load_mwh" _ ?_ (by decide),
    key "low_temperature_generation_mwh" _ ?_ (by decide)⟩ <;> simp [SiteData.dump]

/-- A one dimensional keyword argument appears in the results as `site-<name>`, repeated cyclically. -/
theorem C31_results_column {assets : List Asset} {raw : RawSiteData} {freqMins il el : ℚ} {constraints : List Constraint}
    {kwargs : List (String × KwData)} (hs : Site.new assets raw freqMins il el constraints kwargs = .ok s)
    (h : s.optimize objective flags S = .ok r) (hV : r.results.Reads s.data.n V) {name : String} {l : List ℚ}
    (hk : (name, KwData.seq l) ∈ kwargs) (hne : name ≠ "electricity_balance_mwh") {i : Nat} (hi : i < s.data.n) :
    cyclic l i = some (V ("site-" ++ name) i) := by
  have hc : s.Constructed := ⟨_, _, _, _, _, _, _, hs⟩
  have hf := C31_custom_data _ _ _ _ _ _ _ _ hs
  have hm : (name, l) ∈ sequences kwargs := List.mem_filterMap.2 ⟨_, hk, rfl⟩
  obtain ⟨k, hk, hk1, hk2⟩ : ∃ kept ∈ s.data.custom, kept.1 = name ∧ ∀ j < s.data.n, kept.2[j]? = cyclic l j := by
    generalize sequences kwargs = g at hf hm
    generalize s.data.custom = c at hf
    induction hf with
    | nil => simp at hm
    | cons h1 _ ih =>
      rcases List.mem_cons.1 hm with rfl | hm
      · exact ⟨_, by simp, h1.1, h1.2.2⟩
      · obtain ⟨k, h2, h3⟩ := ih hm
        exact ⟨k, by simp [h2], h3⟩
  have := returned_data_cell hc h hV (f := k) (by simp [SiteData.dump, hk]) (by rw [hk1]; exact hne) hi
  rw [← hk2 i hi, this, hk1]

/-! ### C15 -/

theorem table_colSum {t : Table} {n : Nat} (hV : t.Reads n V) (hl : ∀ c ∈ t, c.2.length = n) (hn : t.columns.Nodup) {c : String × List ℚ}
    (hc : c ∈ t) : c.2.sum = colSum V n c.1 := by
  unfold colSum
  congr 1
  apply List.ext_getElem?
  intro i
  by_cases hi : i < n
  · have h1 := hV c.1 (List.mem_map_of_mem hc) i hi
    unfold Table.cell at h1
    rw [mem_lookup hn (k := c.1) (col := c.2) hc] at h1
    simp only [Option.bind_some] at h1
    rw [h1]
    simp [hi]
  · rw [List.getElem?_eq_none (by rw [hl c hc]; omega), List.getElem?_eq_none (by simp; omega)]

/-- The spill flag: the spill columns, added over all rows, exceed 1e-4. -/
theorem C15_spill_flag (hc : s.Constructed) (h : s.optimize objective flags S = .ok r) (hV : r.results.Reads s.data.n V) :
    r.spill = true ↔ 1/10000 < ((r.results.columns.filter (fun c => pyIn "spill" c && !pyIn "charge_binary" c)).map
      (fun c => colSum V s.data.n c)).sum := by
  obtain ⟨σ, p, hr, hpr, ho, hkeys⟩ := returned_outcome hc h
  have hsp := hr.spill
  unfold warnSpills at hsp
  have hsum : ((r.results.filter (fun c => isSpillColumn c.1)).map (fun c => c.2.sum)).sum =
      ((r.results.columns.filter (fun c => pyIn "spill" c && !pyIn "charge_binary" c)).map (fun c => colSum V s.data.n c)).sum := by
    unfold Table.columns
    rw [List.filter_map, List.map_map]
    congr 1
    apply List.map_congr_left
    intro c hcm
    exact table_colSum hV ho.lengths ho.colsNodup (List.mem_filter.1 hcm).1
  simp only [hsum] at hsp
  split at hsp
  · simp at hsp
  · simp only [Except.ok.injEq] at hsp
    rw [← hsp, decide_eq_true_eq]
    norm_num [Defaults.epsilon]

/-- Without Spill assets and EVs (and without "spill" in any name) the flag is false. -/
theorem C15_no_spill_assets (hc : s.Constructed) (h : s.optimize objective flags S = .ok r)
    (ha : ∀ a ∈ s.assets, pyIn "spill" a.name = false ∧ ∀ c, a ≠ .evs c) (hcus : ∀ c ∈ s.data.custom, pyIn "spill" c.1 = false) :
    r.spill = false := by
  obtain ⟨σ, p, hr, hpr, ho, hkeys⟩ := returned_outcome hc h
  obtain ⟨V, hV⟩ := exists_reads ho.lengths ho.colsNodup
  have hno : ∀ k ∈ s.keys, pyIn "spill" k = false := by
    intro k hk
    unfold Site.keys at hk
    rcases List.mem_append.1 hk with hk | hk
    · rcases List.mem_cons.1 hk with hk | hk
      · rw [hk]; decide +kernel
      · rcases List.mem_cons.1 hk with hk | hk
        · rw [hk]; decide +kernel
        · obtain ⟨f, hf, rfl⟩ := List.mem_map.1 hk
          have e : "site-" ++ f.1 = "site" ++ "-" ++ f.1 := by rw [str_eq_iff]; simp [String.toList_append]
          rw [e, pyIn_word (by decide)]
          have h1 : pyIn "spill" "site" = false := by decide +kernel
          rw [h1, Bool.false_or]
          unfold SiteData.dump at hf
          rcases List.mem_append.1 hf with hf | hf
          · simp only [List.mem_cons, List.not_mem_nil, or_false] at hf
            rcases hf with rfl | rfl | rfl | rfl | rfl | rfl | rfl | rfl <;> (simp only; decide +kernel)
          · exact hcus f hf
    · obtain ⟨a, haa, hk⟩ := List.mem_flatMap.1 hk
      obtain ⟨pre, attr, rfl, hd, hs⟩ := keys_shape hk
      obtain ⟨hn, hev⟩ := ha a haa
      rcases hs with ⟨⟨kd, hkd⟩, rfl⟩ | ⟨hat, rest, rfl⟩
      · rw [pyIn_word (by decide), hn, Bool.false_or]
        have : ∀ attr ∈ allAttrs, pyIn "spill" attr = false := by decide +kernel
        exact this attr (cols_allAttrs hkd)
      · exfalso
        cases a with
        | evs c => exact hev c rfl
        | _ =>
          obtain ⟨attr', _, he⟩ := List.mem_map.1 hk
          have hat' : NoDash attr' := by
            first
              | exact cols_noDash (k := .battery) (by assumption)
              | exact cols_noDash (k := .boiler) (by assumption)
              | exact cols_noDash (k := .chp) (by assumption)
              | exact cols_noDash (k := .heatPump) (by assumption)
              | exact cols_noDash (k := .renewable) (by assumption)
              | exact cols_noDash (k := .spill) (by assumption)
              | exact cols_noDash (k := .valve) (by assumption)
          obtain ⟨h1, _⟩ := dash_inj hat' hd he
          have := congrArg (fun x : String => x.toList.length) h1
          simp [String.toList_append, Asset.name] at this
  have hts : ∀ i < s.data.n, V "total-spills_mwh" i = 0 := by
    intro i hi
    have h1 := ho.spills i hi
    rw [hV _ ((ho.columns _).2 (.inr (by decide +kernel))) i hi] at h1
    rw [Option.some.inj h1]
    have : (s.row flags σ i).filter (fun c => isTotalSpillColumn c.1) = [] := by
      rw [List.filter_eq_nil_iff]
      intro c hcm
      have hk : c.1 ∈ s.keys := by rw [← hkeys i hi]; exact List.mem_map_of_mem hcm
      simp [isTotalSpillColumn, hno _ hk]
    rw [this]; rfl
  rw [← Bool.not_eq_true, C15_spill_flag hc h hV, not_lt]
  rw [list_sum_zero]
  · norm_num
  · intro k hk
    obtain ⟨hk, hP⟩ := List.mem_filter.1 hk
    have hk2 : k = "total-spills_mwh" := by
      rcases (ho.columns k).1 hk with hk | hk
      · simp [hno k hk] at hP
      · have : ∀ k ∈ totalKeys, (pyIn "spill" k && !pyIn "charge_binary" k) = true → k = "total-spills_mwh" := by decide +kernel
        exact this k hk hP
    subst hk2
    unfold colSum
    exact list_sum_zero (fun i hi => hts i (List.mem_range.1 hi))

/-! ### C27 -/

/-- A returned result says whether the solver called it optimal; without `allow_infeasible` only optimal results are returned. -/
theorem C27_returned (h : s.optimize objective flags S = .ok r) : ∃ iv p, s.program objective flags = .ok (iv, p) ∧
    r.status.status = (S p).status ∧ (r.feasible = true ↔ (S p).status = "Optimal") ∧
    (flags.allowInfeasible = false → (S p).status = "Optimal" ∧ ∃ q, r.status.objective = some q) := by
  obtain ⟨p, hr⟩ := optimize_ran h
  have hf : r.feasible = true ↔ (S p).status = "Optimal" := by rw [hr.feasible]; simp
  refine ⟨_, p, hr.program, hr.status, hf, ?_⟩
  intro ha
  obtain ⟨h1, h2⟩ := hr.infeasible ha
  exact ⟨hf.1 h1, Option.isSome_iff_exists.1 h2⟩

/-- Without `allow_infeasible` an answer that is not optimal raises. -/
theorem C27_raises {iv : IVars} {p : Prob} (hp : s.program objective flags = .ok (iv, p)) (hs : (S p).status ≠ "Optimal")
    (ha : flags.allowInfeasible = false) : ∃ e, s.optimize objective flags S = .error e := by
  cases h : s.optimize objective flags S with
  | error e => exact ⟨e, rfl⟩
  | ok r =>
    obtain ⟨iv', p', hp', _, _, h2⟩ := C27_returned h
    rw [hp, Except.ok.injEq, Prod.mk.injEq] at hp'
    obtain ⟨_, rfl⟩ := hp'
    exact absurd (h2 ha).1 hs

/-- The flag `allow_infeasible` has no influence on the program given to the solver. -/
theorem program_allowInfeasible (s : Site) (objective : Objective) (flags : Flags) (b : Bool) :
    s.program objective { flags with allowInfeasible := b } = s.program objective flags := by
  have h : s.build { flags with allowInfeasible := b } = s.build flags := by
    have h2 : ∀ is iv cs, s.buildLoop { flags with allowInfeasible := b } is iv cs = s.buildLoop flags is iv cs := by
      intro is
      induction is with
      | nil => intros; rfl
      | cons i is ih =>
        intro iv cs
        simp only [Site.buildLoop, ih]
        rfl
    simp only [Site.build, h2]
  simp only [Site.program, h]

/-- On an optimal answer with an objective value `allow_infeasible` makes no difference. -/
theorem C27_same {iv : IVars} {p : Prob} (hp : s.program objective flags = .ok (iv, p)) (hs : (S p).status = "Optimal")
    (ho : (p.obj.value (p.valuesOf (S p))).isSome = true) (b : Bool) :
    s.optimize objective { flags with allowInfeasible := b } S = s.optimize objective flags S := by
  have key : ∀ b', s.optimize objective { flags with allowInfeasible := b' } S = s.optimize objective { flags with allowInfeasible := true } S := by
    intro b'
    cases b' with
    | true => rfl
    | false =>
      simp only [Site.optimize, program_allowInfeasible, hp, ok_bind, Prob.solve]
      have hst : ((S p).status == "Optimal") = true := by simp [hs]
      simp only [hst, ho, pyAssert, if_true, Bool.false_eq_true, if_false, ok_bind]
      cases p.noDuplicateVariables <;> rfl
  rw [key b, ← key flags.allowInfeasible]

/-! ### C28 -/

/-- The flag `fail_on_spill_asset_use` has no influence on the program given to the solver. -/
theorem program_failOnSpill (s : Site) (objective : Objective) (flags : Flags) (b : Bool) :
    s.program objective { flags with failOnSpill := b } = s.program objective flags := by
  have h : s.build { flags with failOnSpill := b } = s.build flags := by
    have h2 : ∀ is iv cs, s.buildLoop { flags with failOnSpill := b } is iv cs = s.buildLoop flags is iv cs := by
      intro is
      induction is with
      | nil => intros; rfl
      | cons i is ih =>
        intro iv cs
        simp only [Site.buildLoop, ih]
        rfl
    simp only [Site.build, h2]
  simp only [Site.program, h]

/-- With the flag a run raises exactly when it would have raised anyway or would have returned with `spill`; otherwise it returns the
same result. -/
theorem C28_fail_on_spill (s : Site) (objective : Objective) (flags : Flags) (S : Solver) :
    s.optimize objective { flags with failOnSpill := true } S =
      match s.optimize objective { flags with failOnSpill := false } S with
      | .error e => .error e
      | .ok r => if r.spill then .error (.value "Spill Occurred!") else .ok r := by
  simp only [Site.optimize, program_failOnSpill]
  cases hp : s.program objective flags with
  | error e => rfl
  | ok x =>
    obtain ⟨iv, p⟩ := x
    simp only [ok_bind]
    cases hs : p.solve S flags.allowInfeasible with
    | error e => rfl
    | ok y =>
      obtain ⟨status, vals⟩ := y
      simp only [ok_bind, extractResults]
      cases h1 : extractTable s iv vals with
      | error e => rfl
      | ok t =>
        simp only [ok_bind]
        cases h2 : checkArrayLengths t with
        | error e => rfl
        | ok n =>
          simp only [ok_bind]
          cases h3 : addTotals t n with
          | error e => rfl
          | ok t' =>
            simp only [ok_bind]
            have fin : ∀ (flag : Bool), (warnSpills t' { flags with failOnSpill := true } >>= fun sp =>
                (Except.ok (ε := Err) { results := t', feasible := status.feasible, spill := sp, status := status })) =
              match (warnSpills t' { flags with failOnSpill := false } >>= fun sp =>
                (Except.ok (ε := Err) ({ results := t', feasible := status.feasible, spill := sp, status := status } : SimResult))) with
              | .error e => .error e
              | .ok r => if r.spill then .error (.value "Spill Occurred!") else .ok r := by
              intro _
              unfold warnSpills
              simp only [Bool.and_false, Bool.false_eq_true, if_false, Bool.and_true, ok_bind]
              by_cases hd : |Defaults.epsilon| < (List.map (fun c : String × List ℚ => c.2.sum) (List.filter (fun c => isSpillColumn c.1) t')).sum
              · simp only [hd, decide_true, if_true]; rfl
              · simp only [hd, decide_false, Bool.false_eq_true, if_false, ok_bind]
            cases h4 : status.feasible with
            | false =>
              simp only [h4] at fin
              simpa using fin true
            | true =>
              simp only [h4] at fin
              simp only [if_true]
              cases h5 : validateSchema t' with
              | error e => rfl
              | ok _ =>
                simp only [ok_bind]
                cases h6 : checkResults t' (s.assets.any Asset.isValve) with
                | error e => rfl
                | ok _ =>
                  simpa using fin true

end

/-! ### Examples -/

/-- Too little import capacity: the spill asset generates 3. -/
def demoSpill : Demo where
  assets := [.spill ⟨"spill"⟩]
  raw := { electricityPrices := prices [10], electricLoad := prices [5] }
  importLimit := 2
  kwargs := [("export_charge", .seq [7, 8])]
  answer := [ (.site "import_power_mw" 0, 2), (.site "import_power_bin" 0, 1), (.asset "spill" "electric_generation_mwh" 0, 3) ]

set_option maxRecDepth 10000 in
theorem demoSpill_test : demoSpill.test (fun s r => decide (s.assets = [.spill ⟨"spill"⟩]) && decide (s.data.n = 1) &&
    decide (s.data.custom = [("export_charge", [7])]) && r.spill) = true := by
  decide +kernel

/-- A run with a Spill asset and custom data that spills: C15, C23, C24, C26, C28 and C31 apply to it. -/
example : ∃ s r V, demoSpill.site = .ok s ∧ Run s (.str "price") {} (checkSolver (tab demoSpill.answer)) r V ∧
    (∀ a ∈ s.assets, a.WellNamed) ∧ s.PlainNames ∧ s.data.n = 1 ∧ r.spill = true ∧
    s.optimize (.str "price") { failOnSpill := true } (checkSolver (tab demoSpill.answer)) = .error (.value "Spill Occurred!") := by
  obtain ⟨s, r, V, hs, h, ht⟩ := Demo.run demoSpill_test
  simp only [Bool.and_eq_true, decide_eq_true_eq] at ht
  obtain ⟨⟨⟨h1, h2⟩, h3⟩, h4⟩ := ht
  refine ⟨s, r, V, hs, h, ?_, ⟨?_, ?_⟩, h2, h4, ?_⟩
  · rw [h1]; decide +kernel
  · rw [h1]; decide +kernel
  · rw [h3]; decide +kernel
  · have := C28_fail_on_spill s (.str "price") {} (checkSolver (tab demoSpill.answer))
    have hr : s.optimize (.str "price") { ({} : Flags) with failOnSpill := false } (checkSolver (tab demoSpill.answer)) = .ok r := h.returned
    rw [hr] at this
    simpa [h4] using this

/-- EVs: C23 and C24 apply. -/
example : ∃ s r V, Run s (.str "price") {} (checkSolver (tab demoEvs.answer)) r V ∧ (∀ a ∈ s.assets, a.WellNamed) ∧ s.PlainNames ∧
    s.data.n = 2 := by
  obtain ⟨s, r, V, hs, h, ht⟩ := Demo.run demoEvs_test
  simp only [Bool.and_eq_true, decide_eq_true_eq] at ht
  refine ⟨s, r, V, h, ?_, ⟨?_, ?_⟩, ht.1.2⟩
  · rw [ht.1.1]; decide +kernel
  · rw [ht.1.1]; decide +kernel
  · have : s.data.custom = [] := by
      have := (site_new hs).custom
      simpa [customData, demoEvs, eq_comm] using this
    rw [this]; simp

/-- A site without Spill and EVs: C15 says its flag is false. -/
example : ∃ s r V, Run s (.str "price") {} (checkSolver (tab demoBattery.answer)) r V ∧
    (∀ a ∈ s.assets, pyIn "spill" a.name = false ∧ ∀ c, a ≠ .evs c) ∧ ∀ c ∈ s.data.custom, pyIn "spill" c.1 = false := by
  obtain ⟨s, r, V, hs, h, ht⟩ := Demo.run demoBattery_test
  simp only [Bool.and_eq_true, decide_eq_true_eq] at ht
  refine ⟨s, r, V, h, ?_, ?_⟩
  · rw [ht.1.1]
    intro a ha
    simp only [List.mem_singleton] at ha
    subst ha
    exact ⟨by decide +kernel, by simp⟩
  · have : s.data.custom = [] := by
      have := (site_new hs).custom
      simpa [customData, demoBattery, eq_comm] using this
    rw [this]; simp

/-- C27: an infeasible answer raises without the flag and is returned, marked infeasible, with it. -/
example : (match demoSpill.site with
    | .error _ => false
    | .ok s => match s.optimize (.str "price") {} (checkSolver (tab [])), s.optimize (.str "price") { allowInfeasible := true } (checkSolver (tab [])) with
      | .error _, .ok r => !r.feasible && r.status.status == "Infeasible"
      | _, _ => false) = true := by decide +kernel

end EPL
