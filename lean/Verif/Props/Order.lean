/-
C70: the order of the columns.  C71: debug_asset.
-/
import Verif.Props.PlotEvs

namespace EPL

variable {s : Site} {objective objective' : Objective} {flags flags' : Flags} {S S' : Solver} {r r' : SimResult}

/-- The columns of the results come in one order: the site with its interval data and custom data, then class by class the assets in the order
of the list (spills, batteries, CHPs, boilers, valves, EVs with chargers, charge events, states of charge, the spill chargers of all EVs, heat
pumps, renewable generators), then the totals, then the balance of the site (unless custom data of that name came before). -/
theorem C70_order (hc : s.Constructed) (h : s.optimize objective flags S = .ok r) (hw : ∀ a ∈ s.assets, a.WellNamed) :
    r.results.columns = s.columnOrder ++
      (if "electricity_balance_mwh" ∈ s.data.custom.map Prod.fst then [] else ["site-electricity_balance_mwh"]) := by
  rw [results_columns hc h hw]
  congr 1
  refine if_congr ?_ rfl rfl
  have hno : ∀ k ∈ s.assets.flatMap Asset.keys, k ≠ "site-electricity_balance_mwh" := by
    rintro k hk rfl
    obtain ⟨a, ha, hk⟩ := List.mem_flatMap.1 hk
    exact keys_not_total (hw a ha) hk (by decide +kernel)
  have hdoc : ∀ a ∈ s.assets, "site-electricity_balance_mwh" ∉ a.documentedColumns := by
    intro a ha hk
    exact hno _ (List.mem_flatMap.2 ⟨a, ha, (mem_keys_documented (hw a ha) _).2 hk⟩) rfl
  have hof : ∀ p : Asset → Bool, "site-electricity_balance_mwh" ∉ s.columnsOf p := by
    intro p hk
    obtain ⟨a, ha, hk⟩ := List.mem_flatMap.1 hk
    exact hdoc a (List.mem_filter.1 ha).1 hk
  have hev : ∀ c ∈ s.fleets, "site-electricity_balance_mwh" ∉ c.chargerColumns ++ c.eventColumns ++ c.socColumns ++ c.spillColumns := by
    intro c hcm hk
    have hcm := mem_fleets.1 hcm
    refine hno _ (List.mem_flatMap.2 ⟨_, hcm, ?_⟩) rfl
    have hwc := hw _ hcm
    have e : (Asset.evs c).keys = c.chargerColumns ++ c.eventColumns ++ c.socColumns ++ c.spillColumns := by
      have hx : ∀ (σ : Assign) (a : EvsArray), ((evChargerCells c a c.chargers σ).map Prod.fst ++ (evEventCells c a σ).map Prod.fst ++
          (evSocCells c a σ).map Prod.fst ++ (evChargerCells c a c.spillChargers σ).map Prod.fst) = (Asset.evs c).keys := by
        intro σ a
        simp only [Asset.keys, hwc.1, if_true, evChargerCells, evEventCells, evSocCells, List.map_append, List.map_flatMap, List.map_map,
          Function.comp_def]
        rw [zipIdx_flatMap_fst c.chargers (fun ch => evCols.map (fun attr => c.name ++ "-" ++ ch.name ++ "-" ++ attr)),
          zipIdx_flatMap_fst c.events (fun ch => evEventCols.map (fun attr => c.name ++ "-" ++ ch.name ++ "-" ++ attr)),
          zipIdx_flatMap_fst c.spillChargers (fun ch => evCols.map (fun attr => c.name ++ "-" ++ ch.name ++ "-" ++ attr))]
      have := hx (fun _ => 0) (c.array 0 s.freq flags)
      rw [← this, charger_keys hwc, event_keys hwc, soc_keys, spill_keys hwc]
    rw [e]
    exact hk
  unfold Site.rowOrder
  simp only [List.mem_append]
  constructor
  · rintro ((((((((((h | h) | h) | h) | h) | h) | h) | h) | h) | h) | h)
    · exact absurd h (by decide +kernel)
    · obtain ⟨f, hf, he⟩ := List.mem_map.1 h
      refine List.mem_map.2 ⟨f, hf, ?_⟩
      rw [str_eq_iff] at he ⊢
      simpa [String.toList_append] using he
    · exact absurd h (hof _)
    · exact absurd h (hof _)
    · exact absurd h (hof _)
    · exact absurd h (hof _)
    · exact absurd h (hof _)
    · obtain ⟨c, hcm, h⟩ := List.mem_flatMap.1 h
      exact absurd (List.mem_append_left _ h) (hev c hcm)
    · obtain ⟨c, hcm, h⟩ := List.mem_flatMap.1 h
      exact absurd (List.mem_append_right _ h) (hev c hcm)
    · exact absurd h (hof _)
    · exact absurd h (hof _)
  · intro h
    obtain ⟨f, hf, he⟩ := List.mem_map.1 h
    refine .inl (.inl (.inl (.inl (.inl (.inl (.inl (.inl (.inl (.inr (List.mem_map.2 ⟨f, hf, ?_⟩))))))))))
    rw [he]; rfl

/-- Results of one site have the same columns in the same order, whatever the objective, the flags and the solver. -/
theorem C70_same (hc : s.Constructed) (hw : ∀ a ∈ s.assets, a.WellNamed) (h : s.optimize objective flags S = .ok r)
    (h' : s.optimize objective' flags' S' = .ok r') : r.results.columns = r'.results.columns := by
  rw [C70_order hc h hw, C70_order hc h' hw]

/-! ### debug.py -/

theorem in_prefix {w k : String} (h : w.toList <+: k.toList) : pyIn w k = true := by
  rw [pyIn_iff]
  exact h.isInfix

/-- Every column of an asset contains its name. -/
theorem documented_name {a : Asset} {k : String} (hk : k ∈ a.documentedColumns) : pyIn a.name k = true := by
  obtain ⟨pre, q, rfl, -, h⟩ := documented_quantity hk
  apply in_prefix
  rw [toList_dash]
  rcases h with ⟨rfl, -⟩ | ⟨c, rfl, hp⟩
  · exact List.prefix_append _ _
  · rw [String.toList_append] at hp
    exact ((List.prefix_append _ _).trans hp).trans (List.prefix_append _ _)

theorem debug_columns (t : Table) (name : String) : (debugAsset t name).columns = t.columns.filter (pyIn name) := by
  unfold debugAsset Table.columns
  rw [List.filter_map]
  rfl

/-- `debug_asset` gives columns of the results with their numbers, in their order: all whose name contains the given name, so all columns of
the asset of that name. -/
theorem C71_asset (hc : s.Constructed) (h : s.optimize objective flags S = .ok r) (hw : ∀ a ∈ s.assets, a.WellNamed) (name : String) :
    (debugAsset r.results name).Sublist r.results ∧
    (∀ a ∈ s.assets, a.name = name → ∀ k ∈ a.documentedColumns, k ∈ (debugAsset r.results name).columns) ∧
    (∀ k ∈ (debugAsset r.results name).columns, pyIn name k = true) ∧
    ∀ k, pyIn name k = true → (debugAsset r.results name).lookup k = r.results.lookup k := by
  have H := C23_columns hc h hw
  refine ⟨List.filter_sublist, ?_, ?_, ?_⟩
  · rintro a ha rfl k hk
    rw [debug_columns, List.mem_filter]
    exact ⟨(H.2.2.2 k).2 (.inr (.inr (.inr ⟨a, ha, hk⟩))), documented_name hk⟩
  · intro k hk
    rw [debug_columns] at hk
    exact (List.mem_filter.1 hk).2
  · intro k hk
    unfold debugAsset
    generalize r.results = t
    induction t with
    | nil => rfl
    | cons c t ih =>
      obtain ⟨k0, col⟩ := c
      by_cases hp : pyIn name k0 = true
      · rw [List.filter_cons_of_pos (p := fun c : String × List ℚ => pyIn name c.1) (a := (k0, col)) hp]
        by_cases he : k = k0
        · subst he; rw [lookup_self, lookup_self]
        · rw [lookup_ne he, lookup_ne he, ih]
      · rw [List.filter_cons_of_neg (p := fun c : String × List ℚ => pyIn name c.1) (a := (k0, col)) hp]
        have he : k ≠ k0 := by rintro rfl; exact hp hk
        rw [lookup_ne he, ih]

/-- If the name of an asset occurs in no other column, `debug_asset` gives exactly the columns of the asset. -/
theorem C71_exact (hc : s.Constructed) (h : s.optimize objective flags S = .ok r) (hw : ∀ a ∈ s.assets, a.WellNamed) {a : Asset}
    (ha : a ∈ s.assets) (h1 : ∀ k ∈ siteColumns ++ totalColumns, pyIn a.name k = false) (h2 : ∀ f ∈ s.data.custom, pyIn a.name ("site-" ++ f.1) = false)
    (h3 : ∀ b ∈ s.assets, b ≠ a → ∀ k ∈ b.documentedColumns, pyIn a.name k = false) (k : String) :
    k ∈ (debugAsset r.results a.name).columns ↔ k ∈ a.documentedColumns := by
  constructor
  · intro hk
    rw [debug_columns, List.mem_filter, (C23_columns hc h hw).2.2.2] at hk
    obtain ⟨hk | hk | ⟨f, hf, rfl⟩ | ⟨b, hb, hk⟩, hp⟩ := hk
    · rw [h1 k (List.mem_append_left _ hk)] at hp; cases hp
    · rw [h1 k (List.mem_append_right _ hk)] at hp; cases hp
    · rw [h2 f hf] at hp; cases hp
    · by_cases he : b = a
      · exact he ▸ hk
      · rw [h3 b hb he k hk] at hp; cases hp
  · exact (C71_asset hc h hw a.name).2.1 a ha rfl k

/-- For a spill the columns of `debug_asset` are never its own only: the total of the EV spills contains the word. -/
theorem C71_spill (hc : s.Constructed) (h : s.optimize objective flags S = .ok r) (hw : ∀ a ∈ s.assets, a.WellNamed) :
    "total-spills_mwh" ∈ (debugAsset r.results "spill").columns := by
  rw [debug_columns, List.mem_filter, (C23_columns hc h hw).2.2.2]
  exact ⟨.inr (.inl (by decide +kernel)), by decide +kernel⟩

/-- `debug_simulation` never raises on results: it shows import, export and the carbon intensity, then the columns whose names contain each
of five words, all with the numbers of the results.  `debug_balances` never raises on feasible results. -/
theorem C71_debug (hc : s.Constructed) (h : s.optimize objective flags S = .ok r) (hw : ∀ a ∈ s.assets, a.WellNamed) :
    (∃ imported exported carbon, r.results.lookup "site-import_power_mwh" = some imported ∧
      r.results.lookup "site-export_power_mwh" = some exported ∧ r.results.lookup "site-electricity_carbon_intensities" = some carbon ∧
      debugSimulation r.results = .ok ([("site-import_power_mwh", imported), ("site-export_power_mwh", exported),
        ("site-electricity_carbon_intensities", carbon)] ::
        ["electric_charge_mwh", "electric_discharge_mwh", "initial_soc_mwh", "final_soc_mwh", "electric_loss_mwh"].map
          (fun word => r.results.filter (fun column => pyIn word column.1)))) ∧
    (r.feasible = true → debugBalances r.results = .ok ()) := by
  have H := C23_columns hc h hw
  obtain ⟨V, hV⟩ := exists_reads H.2.1 H.2.2.1
  obtain ⟨hf, hs⟩ := result_frame hc h hw hV
  constructor
  · have l1 := frame_lookup hf (hs "site-import_power_mwh" (by decide +kernel))
    have l2 := frame_lookup hf (hs "site-export_power_mwh" (by decide +kernel))
    have l3 := frame_lookup hf (hs "site-electricity_carbon_intensities" (by decide +kernel))
    refine ⟨_, _, _, l1, l2, l3, ?_⟩
    unfold debugSimulation
    simp only [mapE, get_ok.2 l1, get_ok.2 l2, get_ok.2 l3, ok_bind]
    rfl
  · intro hfe
    obtain ⟨p, hr⟩ := optimize_ran h
    have := (hr.checks hfe).2
    unfold checkResults at this
    simp only [bind_ok] at this
    obtain ⟨⟨⟩, h1, ⟨⟩, h2, ⟨⟩, h3, -⟩ := this
    unfold debugBalances
    rw [h1, ok_bind, h2, ok_bind, h3]

/-- `debug_asset` on a stand-alone battery of the default name: its seven columns. -/
theorem C71_battery {c : BatteryCfg} {args : SiteArgs} {withSpill : Bool} (hs : standaloneBattery c args withSpill = .ok (some s))
    (hn : c.name = "battery") (h : optimizeStandalone (some s) objective flags S = .ok r)
    (hcu : ∀ f ∈ s.data.custom, pyIn "battery" f.1 = false) :
    (debugAsset r.results "battery").columns = ["battery-electric_charge_mwh", "battery-electric_charge_binary",
      "battery-electric_discharge_mwh", "battery-electric_discharge_binary", "battery-electric_loss_mwh",
      "battery-electric_initial_charge_mwh", "battery-electric_final_charge_mwh"] := by
  have hwn : (Asset.battery c).WellNamed := by
    show pyIn "battery" c.name = true
    rw [hn]; decide +kernel
  obtain ⟨hc, hp, hw⟩ := holds_plain (C58_battery hs) (by simp) hwn (by cases withSpill <;> decide +kernel)
  have hcus : ∀ f ∈ s.data.custom, pyIn "battery" ("site-" ++ f.1) = false := fun f hf =>
    in_site ⟨'b', "attery".toList, by decide +kernel, by decide⟩ (hcu f hf)
  rw [debug_columns, C70_order hc h hw]
  have off : ∀ p : Asset → Bool, p (.battery c) = false → (s.columnsOf p).filter (pyIn "battery") = [] := by
    intro p hpb
    rw [List.filter_eq_nil_iff]
    intro k hk
    obtain ⟨a, ha, hk'⟩ := List.mem_flatMap.1 hk
    clear hk
    obtain ⟨ha, hpa⟩ := List.mem_filter.1 ha
    have := hp.mem_iff.1 ha
    rcases List.mem_cons.1 this with rfl | hm
    · rw [hpb] at hpa; cases hpa
    · have : a = .spill { name := "spill" } := by cases withSpill <;> simpa using hm
      subst this
      revert k
      decide +kernel
  have hon : s.columnsOf Asset.isBattery = (Asset.battery c).documentedColumns := by
    unfold Site.columnsOf
    have h1 : (s.assets.filter Asset.isBattery).Perm [.battery c] := by
      refine (hp.filter _).trans (List.Perm.of_eq ?_)
      cases withSpill <;> rfl
    rw [List.perm_singleton.1 h1]
    simp
  have hfl : s.fleets = [] := by
    have h1 : s.fleets.Perm [] := by
      unfold Site.fleets
      refine (hp.filterMap _).trans (List.Perm.of_eq ?_)
      cases withSpill <;> rfl
    exact h1.eq_nil
  have hcf : (s.data.custom.map (fun f => "site-" ++ f.1)).filter (pyIn "battery") = [] := by
    rw [List.filter_eq_nil_iff]
    intro k hk
    obtain ⟨f, hf, rfl⟩ := List.mem_map.1 hk
    simp [hcus f hf]
  have n4 : ∀ b : Prop, ∀ _ : Decidable b, (if b then [] else ["site-electricity_balance_mwh"] : List String).filter (pyIn "battery") = [] := by
    intro b _
    split <;> decide +kernel
  have n5 : ["site-import_power_mwh", "site-export_power_mwh", "site-electricity_prices", "site-export_electricity_prices",
    "site-electricity_carbon_intensities", "site-gas_prices", "site-electric_load_mwh", "site-high_temperature_load_mwh",
    "site-low_temperature_load_mwh", "site-low_temperature_generation_mwh"].filter (pyIn "battery") = [] := by decide +kernel
  have n6 : totalColumns.filter (pyIn "battery") = [] := by decide +kernel
  unfold Site.columnOrder
  simp only [List.filter_append]
  rw [hcf, n4, n5, n6, off Asset.isSpill rfl, off Asset.isChp rfl, off Asset.isBoiler rfl, off Asset.isValve rfl,
    off Asset.isHeatPump rfl, off Asset.isRenewable rfl, hon, hfl]
  simp only [Asset.documentedColumns, hn]
  decide +kernel

/-! ### The hypotheses are met -/

/-- The order of the columns of `demoHeat`, and `debug_asset` on its heat pump. -/
example : ∃ (s : Site) (r : SimResult) (V : String → Nat → ℚ), Run s (.str "price") {} (checkSolver (tab demoHeat.answer)) r V ∧
    r.results.columns.drop 10 = ["spill-electric_generation_mwh", "spill-electric_load_mwh", "spill-high_temperature_generation_mwh",
      "spill-low_temperature_generation_mwh", "spill-high_temperature_load_mwh", "spill-low_temperature_load_mwh", "spill-gas_consumption_mwh",
      "chp-electric_generation_mwh", "chp-gas_consumption_mwh", "chp-high_temperature_generation_mwh", "chp-low_temperature_generation_mwh",
      "boiler-high_temperature_generation_mwh", "boiler-gas_consumption_mwh", "valve-high_temperature_load_mwh",
      "valve-low_temperature_generation_mwh", "heat-pump-electric_load_mwh", "heat-pump-low_temperature_load_mwh",
      "heat-pump-high_temperature_generation_mwh", "solar-electric_generation_mwh"] ++ totalColumns ++ ["site-electricity_balance_mwh"] ∧
    ∀ k, k ∈ (debugAsset r.results "heat-pump").columns ↔ k ∈ ["heat-pump-electric_load_mwh", "heat-pump-low_temperature_load_mwh",
      "heat-pump-high_temperature_generation_mwh"] := by
  obtain ⟨s, r, V, hs, h, ht⟩ := Demo.run demoHeat_test
  simp only [Bool.and_eq_true, decide_eq_true_eq] at ht
  obtain ⟨⟨h1, h2⟩, -⟩ := ht
  have hc : s.Constructed := ⟨_, _, _, _, _, _, _, hs⟩
  have hw : ∀ a ∈ s.assets, a.WellNamed := by rw [h1]; decide +kernel
  have hcu : s.data.custom = [] := by
    have := (site_new hs).custom
    simpa [customData, demoHeat, eq_comm] using this
  refine ⟨s, r, V, h, ?_, fun k => ?_⟩
  · rw [C70_order hc h.returned hw, Site.columnOrder, Site.columnsOf, Site.columnsOf, Site.columnsOf, Site.columnsOf, Site.columnsOf,
      Site.columnsOf, Site.columnsOf, Site.fleets, h1, hcu]
    decide +kernel
  · have := C71_exact hc h.returned hw (a := .heatPump demoHeatPumpCfg) (by rw [h1]; simp) (by decide +kernel) (by rw [hcu]; simp) (by
      rw [h1]; decide +kernel) k
    exact this

end EPL
