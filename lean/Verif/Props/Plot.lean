/-
C69: plots.
-/
import Verif.Proofs.Plot
import Verif.Proofs.ColumnNames
import Verif.Props.Standalone

namespace EPL

theorem starts_iff {c p : String} : pyStartsWith c p = true ↔ p.toList <+: c.toList := by
  simp only [pyStartsWith, decide_eq_true_eq]

variable {t t' : Table} {n : Nat} {V : String → Nat → ℚ} {ds : List Drawn}

/-- The table after the first two statements of `plot_battery` and `plot_chp`. -/
theorem balance_steps (hf : t.Frame n V) (hs : ∀ k ∈ siteColumns, k ∈ t.columns) {l : List PlotStep} :
    runSteps (balanceSteps ++ l) t = (t', .ok ds) ↔
      ∃ es, runSteps l ((t.set "Index" ((List.range n).map (fun i : Nat => (i : ℚ)))).set "import-export-balance"
          ((List.range n).map (fun i => V "site-import_power_mwh" i - V "site-export_power_mwh" i))) = (t', .ok es) ∧
        ds = line 0 "import-export-balance" n (fun i => V "site-import_power_mwh" i - V "site-export_power_mwh" i) :: es := by
  have h1 := frame_lookup hf (hs "site-import_power_mwh" (by decide))
  have h2 := frame_lookup hf (hs "site-export_power_mwh" (by decide))
  have hr := plotted_rows hf (hs "site-import_power_mwh" (by decide))
  unfold balanceSteps
  simp only [List.cons_append, List.nil_append, run_put, run_column, arange_eq hr, Except.ok.injEq, exists_eq_left', difference_ok,
    lookup_set, h1, h2, Option.some.injEq, zipWith_maps, reduceIte, String.reduceEq]
  constructor
  · rintro ⟨v, ⟨x, y, rfl, rfl, rfl⟩, ys, xs, es, rfl, rfl, h, rfl⟩
    refine ⟨es, ?_, ?_⟩
    · rw [← h, zipWith_maps]
    · rw [zipWith_maps]; rfl
  · rintro ⟨es, h, rfl⟩
    refine ⟨_, ⟨_, _, rfl, rfl, rfl⟩, _, _, es, rfl, rfl, ?_, ?_⟩
    · rw [← h, zipWith_maps]
    · rw [zipWith_maps]; rfl

theorem plotBattery_run (hf : t.Frame n V) (hs : ∀ k ∈ siteColumns, k ∈ t.columns) :
    runSteps plotBattery t = (t', .ok ds) ↔
      ∃ a b, findColumn t "battery-" "-electric_charge_mwh" = .ok a ∧ findColumn t "battery-" "-electric_discharge_mwh" = .ok b ∧
        a ∈ t.columns ∧ b ∈ t.columns ∧ a ≠ "Index" ∧ a ≠ "import-export-balance" ∧ b ≠ "Index" ∧ b ≠ "import-export-balance" ∧
        "battery-electric_final_charge_mwh" ∈ t.columns ∧
        t' = ((t.set "Index" ((List.range n).map (fun i : Nat => (i : ℚ)))).set "import-export-balance"
          ((List.range n).map (fun i => V "site-import_power_mwh" i - V "site-export_power_mwh" i))).set "net-battery-charge"
          ((List.range n).map (fun i => V a i - V b i)) ∧
        ds = [ line 0 "import-export-balance" n (fun i => V "site-import_power_mwh" i - V "site-export_power_mwh" i),
          line 1 "net-battery-charge" n (fun i => V a i - V b i),
          line 2 "battery-electric_final_charge_mwh" n (V "battery-electric_final_charge_mwh"),
          line 3 "site-electricity_prices" n (V "site-electricity_prices"),
          line 4 "site-electricity_carbon_intensities" n (V "site-electricity_carbon_intensities") ] := by
  have h3 := frame_lookup hf (hs "site-electricity_prices" (by decide))
  have h4 := frame_lookup hf (hs "site-electricity_carbon_intensities" (by decide))
  have hb1 : (pyStartsWith "Index" "battery-") = false := by decide +kernel
  have hb2 : (pyStartsWith "import-export-balance" "battery-") = false := by decide +kernel
  have hfc : ∀ u w stop, findColumn ((t.set "Index" u).set "import-export-balance" w) "battery-" stop = findColumn t "battery-" stop := by
    intro u w stop
    rw [findColumn_set (by rw [hb2]; rfl), findColumn_set (by rw [hb1]; rfl)]
  have hcol : ∀ stop c, findColumn t "battery-" stop = .ok c → c ∈ t.columns ∧ c ≠ "Index" ∧ c ≠ "import-export-balance" := by
    intro stop c h
    have hm : c ∈ t.columns.filter (fun c => pyStartsWith c "battery-" && pyEndsWith c stop) := by
      unfold findColumn at h
      split at h
      · rename_i x d hd
        rw [Except.ok.injEq] at h
        rw [hd, h]; simp
      · cases h
    rw [List.mem_filter, Bool.and_eq_true] at hm
    refine ⟨hm.1, ?_, ?_⟩ <;> rintro rfl
    · rw [hb1] at hm; simp at hm
    · rw [hb2] at hm; simp at hm
  unfold plotBattery
  rw [balance_steps hf hs]
  simp only [run_put, run_column, run_nil, bind_ok, hfc, difference_ok]
  simp only [lookup_set, h3, h4, reduceIte, String.reduceEq, Option.some.injEq]
  constructor
  · rintro ⟨es, ⟨v, ⟨a, ha, b, hb, x, y, hx, hy, rfl⟩, _, _, _, rfl, rfl, ⟨ys, _, _, hys, rfl, ⟨_, _, _, rfl, rfl, ⟨_, _, _, rfl, rfl,
      ⟨rfl, rfl⟩, rfl⟩, rfl⟩, rfl⟩, rfl⟩, rfl⟩
    obtain ⟨a1, a2, a3⟩ := hcol _ _ ha
    obtain ⟨b1, b2, b3⟩ := hcol _ _ hb
    rw [if_neg a3, if_neg a2, frame_lookup hf a1, Option.some.injEq] at hx
    rw [if_neg b3, if_neg b2, frame_lookup hf b1, Option.some.injEq] at hy
    subst hx; subst hy
    have hk : "battery-electric_final_charge_mwh" ∈ t.columns := (lookup_isSome_iff _ _).1 (by rw [hys]; rfl)
    rw [frame_lookup hf hk, Option.some.injEq] at hys
    subst hys
    refine ⟨a, b, ha, hb, a1, b1, a2, a3, b2, b3, hk, ?_, ?_⟩
    · rw [zipWith_maps]
    · rw [zipWith_maps]; rfl
  · rintro ⟨a, b, ha, hb, a1, b1, a2, a3, b2, b3, hk, rfl, rfl⟩
    refine ⟨_, ⟨_, ⟨a, ha, b, hb, (List.range n).map (V a), (List.range n).map (V b), ?_, ?_, rfl⟩, _, _, _, rfl, rfl,
      ⟨(List.range n).map (V "battery-electric_final_charge_mwh"), _, _, frame_lookup hf hk, rfl, ⟨_, _, _, rfl, rfl, ⟨_, _, _, rfl, rfl,
      ⟨?_, rfl⟩, rfl⟩, rfl⟩, rfl⟩, rfl⟩, ?_⟩
    · rw [if_neg a3, if_neg a2, frame_lookup hf a1]
    · rw [if_neg b3, if_neg b2, frame_lookup hf b1]
    · rw [zipWith_maps]
    · rw [zipWith_maps]; rfl

variable {s : Site} {objective : Objective} {flags : Flags} {S : Solver} {r : SimResult}

theorem result_frame (hc : s.Constructed) (h : s.optimize objective flags S = .ok r) (hw : ∀ a ∈ s.assets, a.WellNamed)
    (hV : r.results.Reads s.data.n V) : r.results.Frame s.data.n V ∧ ∀ k ∈ siteColumns, k ∈ r.results.columns := by
  have H := C23_columns hc h hw
  exact ⟨⟨H.2.1, hV⟩, fun k hk => (H.2.2.2 k).2 (.inl hk)⟩

/-- A column whose first part is neither "site" nor "total" belongs to an asset. -/
theorem asset_column (hc : s.Constructed) (h : s.optimize objective flags S = .ok r) (hw : ∀ a ∈ s.assets, a.WellNamed) {k : String}
    (hk : k ∈ r.results.columns) (h1 : pyStartsWith k "site-" = false) (h2 : pyStartsWith k "total-" = false) :
    ∃ a ∈ s.assets, k ∈ a.documentedColumns := by
  have hs : ∀ k ∈ siteColumns, pyStartsWith k "site-" = true := by decide +kernel
  have ht : ∀ k ∈ totalColumns, pyStartsWith k "total-" = true := by decide +kernel
  rcases ((C23_columns hc h hw).2.2.2 k).1 hk with hk | hk | ⟨f, hf, rfl⟩ | hk
  · rw [hs k hk] at h1; cases h1
  · rw [ht k hk] at h2; cases h2
  · have := starts_dash "site" f.1
    rw [show "site-" ++ f.1 = "site" ++ "-" ++ f.1 from rfl, show "site-" = "site" ++ "-" from rfl, this] at h1
    cases h1
  · exact hk

/-- Which assets have a column called `<pre>-<q>`. -/
theorem column_owner {a : Asset} {pre q : String} (hq : NoDash q) (h : pre ++ "-" ++ q ∈ a.documentedColumns) :
    q ∈ a.quantityNames ∧ ((pre = a.name ∧ ∀ c, a ≠ .evs c) ∨ ∃ c, a = .evs c ∧ (c.name ++ "-").toList <+: pre.toList) := by
  obtain ⟨pre', q', he, hq', h'⟩ := documented_quantity h
  obtain ⟨rfl, rfl⟩ := dash_inj hq (quantityNames_noDash hq') he
  exact ⟨hq', h'⟩

theorem battery_prefix {name : String} (h : "battery-".toList <+: name.toList) : name ≠ "battery" := by
  rintro rfl
  revert h
  decide +kernel

theorem battery_start {name l : List Char} (h : ¬ "battery-".toList <+: name) (h1 : "battery-".toList <+: l) (h2 : name ++ ['-'] <+: l) :
    name = "battery".toList := by
  have he : "battery-".toList = "battery".toList ++ ['-'] := by decide +kernel
  rw [he] at h h1
  refine (dash_prefix h ?_ h1 h2).symm
  rintro ⟨u, hu⟩
  have : '-' ∈ "battery".toList := by rw [← hu]; simp
  revert this
  decide +kernel

theorem only_battery (hc : s.Constructed) (h : s.optimize objective flags S = .ok r) (hw : ∀ a ∈ s.assets, a.WellNamed)
    (hp : s.PlotsBattery) {q : String} (hq : NoDash q) (hq1 : q ∈ batteryCols)
    (hq2 : ∀ a : Asset, q ∈ a.quantityNames → (∃ c, a = .battery c) ∨ ∃ c, a = .evs c) :
    findColumn r.results "battery-" ("-" ++ q) = .ok ("battery-" ++ q) := by
  obtain ⟨⟨c, hcm, hcn⟩, hp1, hp2⟩ := hp
  have H := C23_columns hc h hw
  rw [findColumn_ok H.2.2.1]
  have he : "battery-" ++ q = "battery" ++ "-" ++ q := rfl
  refine ⟨?_, ?_, ?_, ?_⟩
  · rw [H.2.2.2]
    refine .inr (.inr (.inr ⟨_, hcm, ?_⟩))
    simp only [Asset.documentedColumns, hcn]
    exact List.mem_map.2 ⟨q, hq1, rfl⟩
  · rw [he]; exact starts_dash "battery" q
  · rw [he]; exact (ends_exact hq hq).2 rfl
  · intro d hd h1 h2
    have h1' : "battery-".toList <+: d.toList := starts_iff.1 h1
    have hne : ∀ x : String, (¬ x.toList <+: "battery-".toList) → (¬ "battery-".toList <+: x.toList) → pyStartsWith d x = false := by
      intro x hx hx'
      simp only [pyStartsWith, decide_eq_false_iff_not]
      intro h3
      rcases prefix_total h1' h3 with h4 | h4
      · exact hx' h4
      · exact hx h4
    obtain ⟨a, ha, hda⟩ := asset_column hc h hw hd (hne _ (by decide +kernel) (by decide +kernel))
      (hne _ (by decide +kernel) (by decide +kernel))
    obtain ⟨pre, q', rfl, hq', hpre⟩ := documented_quantity hda
    have := (ends_exact hq (quantityNames_noDash hq')).1 h2
    subst this
    rcases hq2 a hq' with ⟨c', rfl⟩ | ⟨c', rfl⟩
    · rcases hpre with ⟨rfl, _⟩ | ⟨c'', he', _⟩
      · have := battery_start (hp1 _ ha) h1' (by rw [toList_dash]; exact ⟨q'.toList, by simp [Asset.name]⟩)
        rw [he]
        simp only [Asset.name, str_eq_iff.2 this]
      · cases he'
    · rcases hpre with ⟨_, he'⟩ | ⟨c'', he', hpre⟩
      · exact absurd rfl (he' c')
      · cases he'
        have := battery_start (hp2 _ ha) h1' (by
          rw [toList_dash]
          rw [String.toList_append] at hpre
          exact hpre.trans (List.prefix_append _ _))
        have hn := (hw _ ha).1
        rw [str_eq_iff.2 this] at hn
        exact absurd hn (by decide +kernel)

/-- The battery plot: when it returns, and what it shows. -/
theorem C69_battery (hc : s.Constructed) (h : s.optimize objective flags S = .ok r) (hw : ∀ a ∈ s.assets, a.WellNamed)
    (hV : r.results.Reads s.data.n V) :
    (s.PlotsBattery → (runSteps plotBattery r.results).2 = .ok (batteryPicture V s.data.n)) ∧
    ((∃ ds, (runSteps plotBattery r.results).2 = .ok ds) → s.PlotsBattery) := by
  have H := C23_columns hc h hw
  obtain ⟨hf, hs⟩ := result_frame hc h hw hV
  have q1 : ∀ a : Asset, "electric_charge_mwh" ∈ a.quantityNames → (∃ c, a = .battery c) ∨ ∃ c, a = .evs c := by
    intro a
    cases a <;> simp only [Asset.quantityNames] <;> first | (intro _; simp; done) | exact fun h => absurd h (by decide +kernel)
  have q2 : ∀ a : Asset, "electric_discharge_mwh" ∈ a.quantityNames → (∃ c, a = .battery c) ∨ ∃ c, a = .evs c := by
    intro a
    cases a <;> simp only [Asset.quantityNames] <;> first | (intro _; simp; done) | exact fun h => absurd h (by decide +kernel)
  constructor
  · intro hp
    have e1 := only_battery hc h hw hp (q := "electric_charge_mwh") (by decide) (by decide) q1
    have e2 := only_battery hc h hw hp (q := "electric_discharge_mwh") (by decide) (by decide) q2
    have m1 := (findColumn_ok H.2.2.1).1 e1
    have m2 := (findColumn_ok H.2.2.1).1 e2
    have m3 : "battery-electric_final_charge_mwh" ∈ r.results.columns := by
      obtain ⟨⟨c, hcm, hcn⟩, _⟩ := hp
      rw [H.2.2.2]
      refine .inr (.inr (.inr ⟨_, hcm, ?_⟩))
      simp only [Asset.documentedColumns, hcn]
      decide +kernel
    rw [(plotBattery_run hf hs).2 ⟨_, _, e1, e2, m1.1, m2.1, by decide, by decide, by decide, by decide, m3, rfl, rfl⟩]
    rfl
  · rintro ⟨ds, hds⟩
    obtain ⟨a, b, ha, hb, -, -, -, -, -, -, hk, -⟩ := (plotBattery_run (t' := (runSteps plotBattery r.results).1) (ds := ds) hf hs).1
      (by rw [← hds])
    obtain ⟨x, hx, hxk⟩ := asset_column hc h hw hk (by decide +kernel) (by decide +kernel)
    obtain ⟨hq, ho⟩ := column_owner (pre := "battery") (q := "electric_final_charge_mwh") (by decide) hxk
    have hxb : ∃ c, x = .battery c := by
      revert hq
      cases x <;> simp only [Asset.quantityNames] <;> first | (intro _; simp; done) | exact fun h => absurd h (by decide +kernel)
    obtain ⟨c, rfl⟩ := hxb
    have hcn : c.name = "battery" := by
      rcases ho with ⟨e, _⟩ | ⟨c', e, _⟩
      · exact e.symm
      · cases e
    have hin : "battery-electric_charge_mwh" ∈ r.results.columns := by
      rw [H.2.2.2]
      refine .inr (.inr (.inr ⟨_, hx, ?_⟩))
      simp only [Asset.documentedColumns, hcn]
      decide +kernel
    have hu := ((findColumn_ok H.2.2.1).1 ha).2.2.2
    have hu' : ∀ pre : String, "battery-".toList <+: (pre ++ "-" ++ "electric_charge_mwh").toList →
        pre ++ "-" ++ "electric_charge_mwh" ∈ r.results.columns → pre = "battery" := by
      intro pre h1 h2
      have e1 := hu _ h2 (starts_iff.2 h1) ((ends_exact (by decide) (by decide)).2 rfl)
      have e2 := hu _ hin (by decide +kernel) (by decide +kernel)
      exact (dash_inj (by decide) (by decide) (e1.trans e2.symm : pre ++ "-" ++ "electric_charge_mwh" = "battery" ++ "-" ++ "electric_charge_mwh")).1
    refine ⟨⟨c, hx, hcn⟩, ?_, ?_⟩
    · intro c' hc' hpre
      refine battery_prefix hpre (hu' c'.name (by rw [toList_dash]; exact hpre.trans (List.prefix_append _ _)) ?_)
      rw [H.2.2.2]
      refine .inr (.inr (.inr ⟨_, hc', ?_⟩))
      simp [Asset.documentedColumns]
    · intro c' hc' hpre
      have hpre' : "battery-".toList <+: (c'.name ++ "-charger-spill-" ++ c'.name).toList := by
        rw [String.toList_append, String.toList_append, List.append_assoc]
        exact hpre.trans (List.prefix_append _ _)
      have := hu' (c'.name ++ "-charger-spill-" ++ c'.name) (by rw [toList_dash]; exact hpre'.trans (List.prefix_append _ _)) (by
        rw [H.2.2.2]
        refine .inr (.inr (.inr ⟨_, hc', ?_⟩))
        simp [Asset.documentedColumns])
      exact battery_prefix hpre' this

theorem plotChp_run (hf : t.Frame n V) (hs : ∀ k ∈ siteColumns, k ∈ t.columns) :
    runSteps plotChp t = (t', .ok ds) ↔
      "boiler-high_temperature_generation_mwh" ∈ t.columns ∧ "spill-low_temperature_load_mwh" ∈ t.columns ∧
        t' = (t.set "Index" ((List.range n).map (fun i : Nat => (i : ℚ)))).set "import-export-balance"
          ((List.range n).map (fun i => V "site-import_power_mwh" i - V "site-export_power_mwh" i)) ∧
        ds = chpPicture V n := by
  have h3 := frame_lookup hf (hs "site-electricity_prices" (by decide))
  have h4 := frame_lookup hf (hs "site-electricity_carbon_intensities" (by decide))
  unfold plotChp
  rw [balance_steps hf hs]
  simp only [run_column, run_nil, lookup_set, h3, h4, reduceIte, String.reduceEq, Option.some.injEq]
  constructor
  · rintro ⟨es, ⟨ys, _, _, hys, rfl, ⟨zs, _, _, hzs, rfl, ⟨_, _, _, rfl, rfl, ⟨_, _, _, rfl, rfl, ⟨rfl, rfl⟩, rfl⟩, rfl⟩, rfl⟩, rfl⟩, rfl⟩
    have hk : "boiler-high_temperature_generation_mwh" ∈ t.columns := (lookup_isSome_iff _ _).1 (by rw [hys]; rfl)
    have hk' : "spill-low_temperature_load_mwh" ∈ t.columns := (lookup_isSome_iff _ _).1 (by rw [hzs]; rfl)
    rw [frame_lookup hf hk, Option.some.injEq] at hys
    rw [frame_lookup hf hk', Option.some.injEq] at hzs
    subst hys; subst hzs
    exact ⟨hk, hk', rfl, rfl⟩
  · rintro ⟨hk, hk', rfl, rfl⟩
    exact ⟨_, ⟨_, _, _, frame_lookup hf hk, rfl, ⟨_, _, _, frame_lookup hf hk', rfl, ⟨_, _, _, rfl, rfl, ⟨_, _, _, rfl, rfl, ⟨rfl, rfl⟩, rfl⟩,
      rfl⟩, rfl⟩, rfl⟩, rfl⟩

/-- The CHP plot: it returns exactly when there is a boiler and a spill column to draw. -/
theorem C69_chp (hc : s.Constructed) (h : s.optimize objective flags S = .ok r) (hw : ∀ a ∈ s.assets, a.WellNamed)
    (hV : r.results.Reads s.data.n V) :
    ("boiler-high_temperature_generation_mwh" ∈ r.results.columns ∧ "spill-low_temperature_load_mwh" ∈ r.results.columns →
      (runSteps plotChp r.results).2 = .ok (chpPicture V s.data.n)) ∧
    ((∃ ds, (runSteps plotChp r.results).2 = .ok ds) →
      "boiler-high_temperature_generation_mwh" ∈ r.results.columns ∧ "spill-low_temperature_load_mwh" ∈ r.results.columns) := by
  obtain ⟨hf, hs⟩ := result_frame hc h hw hV
  constructor
  · rintro ⟨h1, h2⟩
    rw [(plotChp_run hf hs).2 ⟨h1, h2, rfl, rfl⟩]
  · rintro ⟨ds, hds⟩
    obtain ⟨h1, h2, -⟩ := (plotChp_run (t' := (runSteps plotChp r.results).1) (ds := ds) hf hs).1 (by rw [← hds])
    exact ⟨h1, h2⟩

/-! ### Rounding -/

theorem rint_near (q : ℚ) : |(rint q : ℚ) - q| ≤ 1 / 2 := by
  have h1 := Int.floor_le q
  have h2 := Int.lt_floor_add_one q
  unfold rint
  split
  · rw [abs_le]; constructor <;> linarith
  · split
    · push_cast; rw [abs_le]; constructor <;> linarith
    · split
      · rw [abs_le]; constructor <;> linarith
      · push_cast; rw [abs_le]; constructor <;> linarith

theorem rint_int (k : ℤ) : rint k = k := by simp [rint]

theorem round4_near (q : ℚ) : |round4 q - q| ≤ 1 / 20000 := by
  have := rint_near (q * 10000)
  unfold round4
  rw [abs_le] at *
  constructor <;> linarith [this.1, this.2]

theorem round4_idem (q : ℚ) : round4 (round4 q) = round4 q := by
  unfold round4
  rw [div_mul_cancel₀ _ (by norm_num : (10000 : ℚ) ≠ 0), rint_int]

theorem foldl_add (f : Nat → ℚ) : List.zipWith (· + ·) (List.replicate n 0) ((List.range n).map f) = (List.range n).map f := by
  apply List.ext_getElem?
  intro i
  by_cases hi : i < n <;> simp [List.getElem?_zipWith, hi]

theorem replicate_range (q : ℚ) : List.replicate n q = (List.range n).map (fun _ => q) := by simp

/-- The results after the heat pump plot. -/
def heatPumpAfter (t : Table) (name : String) (V : String → Nat → ℚ) (n : Nat) : Table :=
  (roundedColumns name).foldl (fun t k => t.set k ((List.range n).map (fun i => round4 (V k i))))
    (t.set "index" ((List.range n).map (fun i : Nat => (i : ℚ))))

theorem plotHeatPump_run {name : String} (h1 : name ≠ "site") (h2 : name ≠ "spill") (hf : t.Frame n V)
    (hs : ∀ k ∈ siteColumns, k ∈ t.columns) (hg : name ++ "-high_temperature_generation_mwh" ∈ t.columns)
    (hr : ∀ k ∈ roundedColumns name, k ∈ t.columns) :
    runSteps (plotHeatPump name) t = (heatPumpAfter t name V n, .ok (heatPumpPicture name V (fun k i => round4 (V k i)) n)) := by
  have l1 := frame_lookup hf (hs "site-electricity_prices" (by decide))
  have l2 := frame_lookup hf (hs "site-electricity_carbon_intensities" (by decide))
  have l3 := frame_lookup hf (hs "site-high_temperature_load_mwh" (by decide))
  have l4 := frame_lookup hf hg
  have l5 := frame_lookup hf (hr "spill-low_temperature_load_mwh" (by simp [roundedColumns]))
  have l6 := frame_lookup hf (hr "site-low_temperature_load_mwh" (by simp [roundedColumns]))
  have l7 := frame_lookup hf (hr (name ++ "-low_temperature_load_mwh") (by simp [roundedColumns]))
  have l8 := frame_lookup hf (hr "site-low_temperature_generation_mwh" (by simp [roundedColumns]))
  have l9 := frame_lookup hf (hr "spill-low_temperature_generation_mwh" (by simp [roundedColumns]))
  have l10 := frame_lookup hf (hr "valve-low_temperature_generation_mwh" (by simp [roundedColumns]))
  have hrow := plotted_rows hf (hs "site-electricity_prices" (by decide))
  have key : ∀ a q q' : String, NoDash q → NoDash q' → (name ≠ a ∨ q ≠ q') → name ++ ("-" ++ q) ≠ a ++ ("-" ++ q') := by
    intro a q q' hq hq' hne he
    have : name ++ "-" ++ q = a ++ "-" ++ q' := by rw [String.append_assoc, he, String.append_assoc]
    obtain ⟨e1, e2⟩ := dash_inj hq hq' this
    rcases hne with hne | hne
    · exact hne e1
    · exact hne e2
  have k1 : name ++ "-low_temperature_load_mwh" ≠ "spill-low_temperature_load_mwh" :=
    key "spill" "low_temperature_load_mwh" "low_temperature_load_mwh" (by decide) (by decide) (.inl h2)
  have k2 : name ++ "-low_temperature_load_mwh" ≠ "site-low_temperature_load_mwh" :=
    key "site" "low_temperature_load_mwh" "low_temperature_load_mwh" (by decide) (by decide) (.inl h1)
  have k3 : name ++ "-low_temperature_load_mwh" ≠ "site-low_temperature_generation_mwh" :=
    key "site" "low_temperature_load_mwh" "low_temperature_generation_mwh" (by decide) (by decide) (.inr (by decide))
  have k4 : name ++ "-low_temperature_load_mwh" ≠ "spill-low_temperature_generation_mwh" :=
    key "spill" "low_temperature_load_mwh" "low_temperature_generation_mwh" (by decide) (by decide) (.inr (by decide))
  have k5 : name ++ "-low_temperature_load_mwh" ≠ "valve-low_temperature_generation_mwh" :=
    key "valve" "low_temperature_load_mwh" "low_temperature_generation_mwh" (by decide) (by decide) (.inr (by decide))
  have k6 : name ++ "-low_temperature_load_mwh" ≠ "site-electricity_prices" :=
    key "site" "low_temperature_load_mwh" "electricity_prices" (by decide) (by decide) (.inr (by decide))
  have k7 : name ++ "-low_temperature_load_mwh" ≠ "site-electricity_carbon_intensities" :=
    key "site" "low_temperature_load_mwh" "electricity_carbon_intensities" (by decide) (by decide) (.inr (by decide))
  have hidx : ∀ q : String, name ++ ("-" ++ q) ≠ "index" := by
    intro q he
    have h3 := str_eq_iff.1 he
    have : '-' ∈ "index".toList := by rw [← h3]; simp [String.toList_append]
    revert this
    decide +kernel
  have k8 : name ++ "-low_temperature_load_mwh" ≠ "index" := hidx "low_temperature_load_mwh"
  have k9 : name ++ "-high_temperature_generation_mwh" ≠ "index" := hidx "high_temperature_generation_mwh"
  have e0 : ∀ f : Nat → ℚ, List.map round4 ((List.range n).map f) = (List.range n).map (fun i => round4 (f i)) := by
    intro f; rw [List.map_map]; rfl
  simp only [plotHeatPump, stackSteps, drawColumn, List.cons_append, List.nil_append, runSteps, arange_eq hrow, Table.get, lookup_set,
    l1, l2, l3, l4, l5, l6, l7, l8, l9, l10, reduceIte, String.reduceEq, k1, k2, k3, k4, k5, k6, k7, k8, k9, k1.symm, k2.symm,
    k3.symm, k4.symm, k5.symm, k6.symm, k7.symm, k8.symm, k9.symm, ok_bind, mapE, e0, List.foldl_cons, List.foldl_nil,
    foldl_add, zipWith_maps, List.length_map, List.length_range]
  simp only [heatPumpAfter, heatPumpPicture, roundedColumns, line, bars, List.foldl_cons, List.foldl_nil, replicate_range, List.map_map,
    Function.comp_def]

theorem rounded_needs {l : List PlotStep} {j : Nat} {col : String} {f : Table → Res (List ℚ)} (he : l[j]? = some (.put col f))
    (hf : f = fun t => do
      let y ← t.get col
      .ok (y.map round4)) (hw : some col ∉ (l.take j).map PlotStep.writes) (h : runSteps l t = (t', .ok ds)) : col ∈ t.columns := by
  have hl : l = l.take j ++ .put col f :: l.drop (j + 1) := by
    obtain ⟨hj, he⟩ := List.getElem?_eq_some_iff.1 he
    rw [← he, List.cons_getElem_drop_succ, List.take_append_drop]
  rw [hl] at h
  obtain ⟨t1, h1, v, hv⟩ := run_needs h
  rw [hf] at hv
  simp only [bind_ok, get_ok] at hv
  obtain ⟨y, hy, -⟩ := hv
  rw [h1 col hw] at hy
  exact (lookup_isSome_iff t col).1 (by rw [hy]; rfl)

theorem plotHeatPump_needs {name : String} (h1 : name ≠ "site") (h2 : name ≠ "spill") (h : runSteps (plotHeatPump name) t = (t', .ok ds)) :
    name ++ "-high_temperature_generation_mwh" ∈ t.columns ∧ ∀ k ∈ roundedColumns name, k ∈ t.columns := by
  have key : ∀ a q q' : String, NoDash q → NoDash q' → (name ≠ a ∨ q ≠ q') → name ++ ("-" ++ q) ≠ a ++ ("-" ++ q') := by
    intro a q q' hq hq' hne he
    have : name ++ "-" ++ q = a ++ "-" ++ q' := by rw [String.append_assoc, he, String.append_assoc]
    obtain ⟨e1, e2⟩ := dash_inj hq hq' this
    rcases hne with hne | hne
    · exact hne e1
    · exact hne e2
  have k1 : name ++ "-low_temperature_load_mwh" ≠ "spill-low_temperature_load_mwh" :=
    key "spill" "low_temperature_load_mwh" "low_temperature_load_mwh" (by decide) (by decide) (.inl h2)
  have k2 : name ++ "-low_temperature_load_mwh" ≠ "site-low_temperature_load_mwh" :=
    key "site" "low_temperature_load_mwh" "low_temperature_load_mwh" (by decide) (by decide) (.inl h1)
  have k3 : name ++ "-low_temperature_load_mwh" ≠ "site-low_temperature_generation_mwh" :=
    key "site" "low_temperature_load_mwh" "low_temperature_generation_mwh" (by decide) (by decide) (.inr (by decide))
  have k4 : name ++ "-low_temperature_load_mwh" ≠ "spill-low_temperature_generation_mwh" :=
    key "spill" "low_temperature_load_mwh" "low_temperature_generation_mwh" (by decide) (by decide) (.inr (by decide))
  have k5 : name ++ "-low_temperature_load_mwh" ≠ "valve-low_temperature_generation_mwh" :=
    key "valve" "low_temperature_load_mwh" "low_temperature_generation_mwh" (by decide) (by decide) (.inr (by decide))
  have hidx : ∀ q : String, name ++ ("-" ++ q) ≠ "index" := by
    intro q he
    have h3 := str_eq_iff.1 he
    have : '-' ∈ "index".toList := by rw [← h3]; simp [String.toList_append]
    revert this
    decide +kernel
  have k8 : name ++ "-low_temperature_load_mwh" ≠ "index" := hidx "low_temperature_load_mwh"
  have k9 : name ++ "-high_temperature_generation_mwh" ≠ "index" := hidx "high_temperature_generation_mwh"
  constructor
  · obtain ⟨t1, e1, v, hv⟩ := run_needs (l1 := [.put "index" (fun t => .ok (arange t)), drawColumn 0 "index" "site-high_temperature_load_mwh"])
      (x := drawColumn 0 "index" (name ++ "-high_temperature_generation_mwh")) (by
        simp only [plotHeatPump, List.cons_append, List.nil_append] at h
        exact h)
    simp only [bind_ok, get_ok] at hv
    obtain ⟨y, hy, -⟩ := hv
    rw [e1 _ (by simp [PlotStep.writes, drawColumn, k9])] at hy
    exact (lookup_isSome_iff t _).1 (by rw [hy]; rfl)
  · intro k hk
    simp only [roundedColumns, List.mem_cons, List.not_mem_nil, or_false] at hk
    rcases hk with rfl | rfl | rfl | rfl | rfl | rfl
    · exact rounded_needs (j := 3) rfl rfl (by simp [plotHeatPump, stackSteps, PlotStep.writes, drawColumn]) h
    · exact rounded_needs (j := 5) rfl rfl (by simp [plotHeatPump, stackSteps, PlotStep.writes, drawColumn]) h
    · exact rounded_needs (j := 7) rfl rfl (by simp [plotHeatPump, stackSteps, PlotStep.writes, drawColumn, k1, k2, k8]) h
    · exact rounded_needs (j := 9) rfl rfl (by simp [plotHeatPump, stackSteps, PlotStep.writes, drawColumn, k3.symm]) h
    · exact rounded_needs (j := 11) rfl rfl (by simp [plotHeatPump, stackSteps, PlotStep.writes, drawColumn, k4.symm]) h
    · exact rounded_needs (j := 13) rfl rfl (by simp [plotHeatPump, stackSteps, PlotStep.writes, drawColumn, k5.symm]) h

/-- The heat pump plot: it returns exactly when all the columns it draws exist. -/
theorem C69_heatPump (hc : s.Constructed) (h : s.optimize objective flags S = .ok r) (hw : ∀ a ∈ s.assets, a.WellNamed)
    (hV : r.results.Reads s.data.n V) {name : String} (h1 : name ≠ "site") (h2 : name ≠ "spill") :
    (name ++ "-high_temperature_generation_mwh" ∈ r.results.columns ∧ (∀ k ∈ roundedColumns name, k ∈ r.results.columns) →
      (runSteps (plotHeatPump name) r.results).2 = .ok (heatPumpPicture name V (fun k i => round4 (V k i)) s.data.n)) ∧
    ((∃ ds, (runSteps (plotHeatPump name) r.results).2 = .ok ds) →
      name ++ "-high_temperature_generation_mwh" ∈ r.results.columns ∧ ∀ k ∈ roundedColumns name, k ∈ r.results.columns) := by
  obtain ⟨hf, hs⟩ := result_frame hc h hw hV
  constructor
  · rintro ⟨h3, h4⟩
    rw [plotHeatPump_run h1 h2 hf hs h3 h4]
  · rintro ⟨ds, hds⟩
    exact plotHeatPump_needs (t' := (runSteps (plotHeatPump name) r.results).1) (ds := ds) h1 h2 (by rw [← hds])

/-! ### What is left behind -/

theorem not_plot_column (hc : s.Constructed) (h : s.optimize objective flags S = .ok r) (hw : ∀ a ∈ s.assets, a.WellNamed) {k : String}
    (hk : k ∈ ["Index", "index", "import-export-balance", "net-battery-charge"]) : k ∉ r.results.columns := by
  intro hm
  have hst : ∀ k ∈ ["Index", "index", "import-export-balance", "net-battery-charge"],
      pyStartsWith k "site-" = false ∧ pyStartsWith k "total-" = false := by decide +kernel
  obtain ⟨a, ha, hka⟩ := asset_column hc h hw hm (hst k hk).1 (hst k hk).2
  obtain ⟨pre, q, rfl, hq, -⟩ := documented_quantity hka
  have hqe : ∀ q ∈ a.quantityNames, pyEndsWith "import-export-balance" q = false ∧ pyEndsWith "net-battery-charge" q = false ∧
      pyEndsWith "Index" q = false ∧ pyEndsWith "index" q = false := by
    cases a <;> (simp only [Asset.quantityNames]; decide +kernel)
  obtain ⟨e1, e2, e3, e4⟩ := hqe q hq
  have he := ends_self pre q
  simp only [List.mem_cons, List.not_mem_nil, or_false] at hk
  rcases hk with hk | hk | hk | hk <;> rw [hk] at he
  · rw [e3] at he; cases he
  · rw [e4] at he; cases he
  · rw [e1] at he; cases he
  · rw [e2] at he; cases he

/-- No column of the results is changed by the battery plot, whether it returns or raises. -/
theorem C69_battery_keeps (hc : s.Constructed) (h : s.optimize objective flags S = .ok r) (hw : ∀ a ∈ s.assets, a.WellNamed) :
    (∀ k ∈ r.results.columns, (runSteps plotBattery r.results).1.lookup k = r.results.lookup k) ∧
    (s.PlotsBattery → r.results.ExtendedBy (runSteps plotBattery r.results).1 ["Index", "import-export-balance", "net-battery-charge"]) := by
  have H := C23_columns hc h hw
  have keep : ∀ k ∈ r.results.columns, (runSteps plotBattery r.results).1.lookup k = r.results.lookup k := by
    intro k hk
    apply runSteps_lookup
    simp only [plotBattery, balanceSteps, drawColumn, List.map_append, List.map_cons, List.map_nil, PlotStep.writes, List.mem_append,
      List.mem_cons, Option.some.injEq, reduceCtorEq, List.not_mem_nil, or_false, false_or]
    rintro ((rfl | rfl) | rfl)
    · exact not_plot_column hc h hw (by simp) hk
    · exact not_plot_column hc h hw (by simp) hk
    · exact not_plot_column hc h hw (by simp) hk
  refine ⟨keep, fun hp => ⟨?_, keep⟩⟩
  obtain ⟨V, hV⟩ := exists_reads H.2.1 H.2.2.1
  obtain ⟨hf, hs⟩ := result_frame hc h hw hV
  have hr := (C69_battery hc h hw hV).1 hp
  obtain ⟨a, b, -, -, -, -, -, -, -, -, -, ht, -⟩ := (plotBattery_run (t' := (runSteps plotBattery r.results).1)
    (ds := batteryPicture V s.data.n) hf hs).1 (by rw [← hr])
  have n1 := not_plot_column hc h hw (k := "Index") (by simp)
  have n2 := not_plot_column hc h hw (k := "import-export-balance") (by simp)
  have n3 := not_plot_column hc h hw (k := "net-battery-charge") (by simp)
  rw [ht]
  simp [columns_set, n1, n2, n3]

/-- No column of the results is changed by the CHP plot, whether it returns or raises; both new columns are there in either case. -/
theorem C69_chp_keeps (hc : s.Constructed) (h : s.optimize objective flags S = .ok r) (hw : ∀ a ∈ s.assets, a.WellNamed) :
    (∀ k ∈ r.results.columns, (runSteps plotChp r.results).1.lookup k = r.results.lookup k) ∧
    ((∃ ds, (runSteps plotChp r.results).2 = .ok ds) →
      r.results.ExtendedBy (runSteps plotChp r.results).1 ["Index", "import-export-balance"]) := by
  have H := C23_columns hc h hw
  have keep : ∀ k ∈ r.results.columns, (runSteps plotChp r.results).1.lookup k = r.results.lookup k := by
    intro k hk
    apply runSteps_lookup
    simp only [plotChp, balanceSteps, drawColumn, List.map_append, List.map_cons, List.map_nil, PlotStep.writes, List.mem_append,
      List.mem_cons, Option.some.injEq, reduceCtorEq, List.not_mem_nil, or_false]
    rintro (rfl | rfl)
    · exact not_plot_column hc h hw (by simp) hk
    · exact not_plot_column hc h hw (by simp) hk
  refine ⟨keep, fun ⟨ds, hds⟩ => ⟨?_, keep⟩⟩
  obtain ⟨V, hV⟩ := exists_reads H.2.1 H.2.2.1
  obtain ⟨hf, hs⟩ := result_frame hc h hw hV
  obtain ⟨-, -, ht, -⟩ := (plotChp_run (t' := (runSteps plotChp r.results).1) (ds := ds) hf hs).1 (by rw [← hds])
  have n1 := not_plot_column hc h hw (k := "Index") (by simp)
  have n2 := not_plot_column hc h hw (k := "import-export-balance") (by simp)
  rw [ht]
  simp [columns_set, n1, n2]

theorem heatPump_writes {name k : String} (hk : k ≠ "index") (hk' : k ∉ roundedColumns name) :
    some k ∉ (plotHeatPump name).map PlotStep.writes := by
  simp only [roundedColumns, List.mem_cons, List.not_mem_nil, or_false, not_or] at hk'
  simp [plotHeatPump, stackSteps, drawColumn, PlotStep.writes, hk, hk']

/-- The heat pump plot changes at most six columns (each number by at most 0.00005) and adds `index`; again also if it raises. -/
theorem C69_heatPump_keeps (hc : s.Constructed) (h : s.optimize objective flags S = .ok r) (hw : ∀ a ∈ s.assets, a.WellNamed)
    {name : String} :
    (∀ k ∈ r.results.columns, k ∉ roundedColumns name →
      (runSteps (plotHeatPump name) r.results).1.lookup k = r.results.lookup k) := by
  intro k hk hk'
  refine runSteps_lookup _ _ (heatPump_writes ?_ hk')
  rintro rfl
  exact not_plot_column hc h hw (by simp) hk

theorem foldl_set_columns (l : List String) (f : String → List ℚ) (t : Table) (h : ∀ k ∈ l, k ∈ t.columns) :
    (l.foldl (fun t k => t.set k (f k)) t).columns = t.columns := by
  induction l generalizing t with
  | nil => rfl
  | cons k l ih =>
    have h1 : (t.set k (f k)).columns = t.columns := by rw [columns_set, if_pos (h k (by simp))]
    rw [List.foldl_cons, ih _ (fun k' hk' => by rw [h1]; exact h k' (by simp [hk'])), h1]

theorem foldl_set_lookup (l : List String) (f : String → List ℚ) (t : Table) (k : String) :
    (l.foldl (fun t k => t.set k (f k)) t).lookup k = if k ∈ l then some (f k) else t.lookup k := by
  induction l generalizing t with
  | nil => simp
  | cons k' l ih =>
    rw [List.foldl_cons, ih, lookup_set]
    by_cases h1 : k ∈ l
    · simp [h1]
    · by_cases h2 : k = k'
      · subst h2; simp
      · simp [h1, h2]

/-- When the heat pump plot returns, `index` is new, the six columns hold numbers rounded to four decimals, and nothing else changed. -/
theorem C69_heatPump_rounds (hc : s.Constructed) (h : s.optimize objective flags S = .ok r) (hw : ∀ a ∈ s.assets, a.WellNamed)
    (hV : r.results.Reads s.data.n V) {name : String} (h1 : name ≠ "site") (h2 : name ≠ "spill")
    (hret : ∃ ds, (runSteps (plotHeatPump name) r.results).2 = .ok ds) :
    (runSteps (plotHeatPump name) r.results).1.columns = r.results.columns ++ ["index"] ∧
    ∀ k ∈ r.results.columns, ∀ i < s.data.n, ∃ q, (runSteps (plotHeatPump name) r.results).1.cell k i = some q ∧
      (k ∉ roundedColumns name → q = V k i) ∧ (k ∈ roundedColumns name → (∃ m : ℤ, q = m / 10000) ∧ |q - V k i| ≤ 5 / 100000) := by
  obtain ⟨hf, hs⟩ := result_frame hc h hw hV
  obtain ⟨h3, h4⟩ := (C69_heatPump hc h hw hV h1 h2).2 hret
  have n1 := not_plot_column hc h hw (k := "index") (by simp)
  rw [plotHeatPump_run h1 h2 hf hs h3 h4]
  constructor
  · unfold heatPumpAfter
    rw [foldl_set_columns, columns_set, if_neg n1]
    intro k hk
    rw [columns_set, if_neg n1]
    exact List.mem_append_left _ (h4 k hk)
  · intro k hk i hi
    have hne : k ≠ "index" := fun he => n1 (he ▸ hk)
    simp only [Table.cell, heatPumpAfter]
    rw [foldl_set_lookup, lookup_set, if_neg hne, frame_lookup hf hk]
    by_cases hr : k ∈ roundedColumns name
    · rw [if_pos hr]
      refine ⟨round4 (V k i), by simp [hi], fun h => absurd hr h, fun _ => ⟨⟨_, rfl⟩, ?_⟩⟩
      have := round4_near (V k i)
      norm_num at this ⊢
      exact this
    · rw [if_neg hr]
      exact ⟨V k i, by simp [hi], fun _ => rfl, fun h => absurd h hr⟩

theorem getAccounts_congr {t t' p p' : Table} (h : ∀ k ∈ accountColumns, t.lookup k = t'.lookup k)
    (hp : ∀ k ∈ accountColumns, p.lookup k = p'.lookup k) (validate : Bool) :
    getAccounts t (some p) none validate = getAccounts t' (some p') none validate := by
  have g : ∀ k ∈ accountColumns, t.get k = t'.get k := fun k hk => by unfold Table.get; rw [h k hk]
  have g' : ∀ k ∈ accountColumns, p.get k = p'.get k := fun k hk => by unfold Table.get; rw [hp k hk]
  have c : ∀ {t t' : Table}, (∀ k ∈ accountColumns, t.get k = t'.get k) → checkResults t false = checkResults t' false := by
    intro t t' g
    simp only [checkResults, checkElectricityBalance, checkHeatBalance, Bool.false_eq_true, if_false]
    rw [g "site-import_power_mwh" (by decide), g "site-export_power_mwh" (by decide), g "total-electric_generation_mwh" (by decide),
      g "total-electric_load_mwh" (by decide), g "total-electric_discharge_mwh" (by decide), g "total-electric_charge_mwh" (by decide),
      g "total-electric_loss_mwh" (by decide), g "total-spills_mwh" (by decide), g "total-high_temperature_generation_mwh" (by decide),
      g "total-high_temperature_load_mwh" (by decide), g "total-low_temperature_generation_mwh" (by decide),
      g "total-low_temperature_load_mwh" (by decide)]
  simp only [getAccounts, Option.getD_some, getOneElectricityAccount, getOneGasAccount, customCost]
  rw [c g, c g', g "site-import_power_mwh" (by decide), g "site-export_power_mwh" (by decide), g "total-gas_consumption_mwh" (by decide),
    g' "site-electricity_prices" (by decide), g' "site-electricity_carbon_intensities" (by decide), g' "site-gas_prices" (by decide)]

theorem getAccounts_self (t : Table) (validate : Bool) : getAccounts t none none validate = getAccounts t (some t) none validate := rfl

/-- The four plots of a results table. -/
inductive Plot where
  | battery
  | chp
  | heatPump (name : String)

/-- The results after a plot, whether it returned or raised. -/
def Plot.after : Plot → Table → Table
  | .battery, t => (runSteps plotBattery t).1
  | .chp, t => (runSteps plotChp t).1
  | .heatPump name, t => (runSteps (plotHeatPump name) t).1

theorem after_accounts (p : Plot) (hp : p ≠ .heatPump "total") (t : Table) : ∀ k ∈ accountColumns, (p.after t).lookup k = t.lookup k := by
  intro k hk
  cases p with
  | battery =>
    have : ∀ k ∈ accountColumns, some k ∉ plotBattery.map PlotStep.writes := by
      have e : plotBattery.map PlotStep.writes = [some "Index", some "import-export-balance", none, some "net-battery-charge", none, none,
        none, none] := rfl
      rw [e]; decide +kernel
    exact runSteps_lookup _ _ (this k hk)
  | chp =>
    have : ∀ k ∈ accountColumns, some k ∉ plotChp.map PlotStep.writes := by
      have e : plotChp.map PlotStep.writes = [some "Index", some "import-export-balance", none, none, none, none, none] := rfl
      rw [e]; decide +kernel
    exact runSteps_lookup _ _ (this k hk)
  | heatPump name =>
    have hne : ∀ k ∈ accountColumns, k ≠ "index" ∧ k ∉ ["spill-low_temperature_load_mwh", "site-low_temperature_load_mwh",
      "site-low_temperature_generation_mwh", "spill-low_temperature_generation_mwh", "valve-low_temperature_generation_mwh"] ∧
      (pyEndsWith k "-low_temperature_load_mwh" = true → k = "total" ++ "-" ++ "low_temperature_load_mwh") := by decide +kernel
    obtain ⟨e1, e2, e3⟩ := hne k hk
    refine runSteps_lookup _ _ (heatPump_writes e1 ?_)
    simp only [List.mem_cons, List.not_mem_nil, or_false, not_or] at e2
    simp only [roundedColumns, List.mem_cons, List.not_mem_nil, or_false, not_or]
    refine ⟨e2.1, e2.2.1, ?_, e2.2.2.1, e2.2.2.2.1, e2.2.2.2.2⟩
    rintro rfl
    have he : name ++ "-low_temperature_load_mwh" = name ++ "-" ++ "low_temperature_load_mwh" := by
      rw [String.append_assoc]; rfl
    have h3 := e3 (by rw [he]; exact (ends_exact (by decide) (by decide)).2 rfl)
    rw [he] at h3
    exact hp (by rw [(dash_inj (by decide) (by decide) h3).1])

/-- Plotting does not change the accounts: whatever was plotted, of the results and of the results that give the prices, and whether the
plots returned or raised, `get_accounts` gives what it gave before (or raises what it raised before). -/
theorem C69_accounts (plots plots' : List Plot) (h : ∀ p ∈ plots ++ plots', p ≠ .heatPump "total") (t prices : Table) (validate : Bool) :
    getAccounts (plots.foldl (fun t p => p.after t) t) (some (plots'.foldl (fun t p => p.after t) prices)) none validate =
      getAccounts t (some prices) none validate ∧
    getAccounts (plots.foldl (fun t p => p.after t) t) none none validate = getAccounts t none none validate := by
  have key : ∀ (l : List Plot), (∀ p ∈ l, p ≠ .heatPump "total") → ∀ t : Table, ∀ k ∈ accountColumns,
      (l.foldl (fun t p => p.after t) t).lookup k = t.lookup k := by
    intro l hl
    induction l with
    | nil => intro t k _; rfl
    | cons p l ih =>
      intro t k hk
      rw [List.foldl_cons, ih (fun p hp => hl p (by simp [hp])) _ k hk, after_accounts p (hl p (by simp)) t k hk]
  have k1 := key plots (fun p hp => h p (List.mem_append_left _ hp))
  have k2 := key plots' (fun p hp => h p (List.mem_append_right _ hp))
  exact ⟨getAccounts_congr (k1 t) (k2 prices) _, by rw [getAccounts_self, getAccounts_self]; exact getAccounts_congr (k1 t) (k1 t) _⟩

/-! ### Stand-alone assets -/

theorem holds_plain {a : Asset} {others : List Asset} {args : SiteArgs} {freqMins : ℚ} (hh : Holds s a others args freqMins)
    (hr : ∀ c, a ≠ .renewable c) (ha : a.WellNamed) (ho : ∀ b ∈ others, b.WellNamed) :
    s.Constructed ∧ s.assets.Perm (a :: others) ∧ ∀ b ∈ s.assets, b.WellNamed := by
  obtain ⟨l, _, hl⟩ := hh.built
  obtain ⟨b, hb, hp⟩ := hh.assets
  have : b = a := by
    cases a with
    | renewable c => exact absurd rfl (hr c)
    | _ => exact hb
  subst this
  refine ⟨⟨_, _, _, _, _, _, _, hl⟩, hp, fun x hx => ?_⟩
  rcases List.mem_cons.1 (hp.mem_iff.1 hx) with rfl | hx
  · exact ha
  · exact ho x hx

/-- `Battery.plot` on the results of a stand-alone battery returns exactly when the battery has its default name. -/
theorem C69_alone_battery {c : BatteryCfg} {args : SiteArgs} {withSpill : Bool} (hs : standaloneBattery c args withSpill = .ok (some s))
    (hn : (Asset.battery c).WellNamed) (h : optimizeStandalone (some s) objective flags S = .ok r) :
    (∃ ds, (runSteps plotBattery r.results).2 = .ok ds) ↔ c.name = "battery" := by
  obtain ⟨hc, hp, hw⟩ := holds_plain (C58_battery hs) (by simp) hn (by cases withSpill <;> decide +kernel)
  have H := C23_columns hc h hw
  obtain ⟨V, hV⟩ := exists_reads H.2.1 H.2.2.1
  have hB := C69_battery hc h hw hV
  have mem : ∀ x, x ∈ s.assets → x = .battery c ∨ x = .spill { name := "spill" } := by
    intro x hx
    rcases List.mem_cons.1 (hp.mem_iff.1 hx) with rfl | hx
    · exact .inl rfl
    · cases withSpill <;> simp at hx
      exact .inr hx
  constructor
  · intro hds
    obtain ⟨⟨c', hc', hcn⟩, _⟩ := hB.2 hds
    rcases mem _ hc' with he | he
    · cases he; exact hcn
    · cases he
  · intro hcn
    refine ⟨_, hB.1 ⟨⟨c, hp.mem_iff.2 (by simp), hcn⟩, ?_, ?_⟩⟩
    · intro c' hc' hpre
      rcases mem _ hc' with he | he
      · cases he; exact battery_prefix hpre hcn
      · cases he
    · intro c' hc'
      rcases mem _ hc' with he | he <;> cases he

/-- `CHP.plot` on the results of a stand-alone CHP returns exactly when a spill was asked for. -/
theorem C69_alone_chp {c : ChpCfg} {args : SiteArgs} {withSpill : Bool} (hs : standaloneChp c args withSpill = .ok (some s))
    (hn : (Asset.chp c).WellNamed) (h : optimizeStandalone (some s) objective flags S = .ok r) :
    (∃ ds, (runSteps plotChp r.results).2 = .ok ds) ↔ withSpill = true := by
  obtain ⟨hc, hp, hw⟩ := holds_plain (C58_chp hs) (by simp) hn (by cases withSpill <;> decide +kernel)
  have H := C23_columns hc h hw
  obtain ⟨V, hV⟩ := exists_reads H.2.1 H.2.2.1
  have hB := C69_chp hc h hw hV
  constructor
  · intro hds
    obtain ⟨-, h2⟩ := hB.2 hds
    obtain ⟨x, hx, hxk⟩ := asset_column hc h hw h2 (by decide +kernel) (by decide +kernel)
    obtain ⟨hq, -⟩ := column_owner (pre := "spill") (q := "low_temperature_load_mwh") (by decide) hxk
    cases withSpill with
    | true => rfl
    | false =>
      have := List.mem_cons.1 (hp.mem_iff.1 hx)
      simp only [List.append_nil, Bool.false_eq_true, if_false, List.mem_cons, List.not_mem_nil, or_false] at this
      rcases this with rfl | rfl | rfl <;> exact absurd hq (by simp only [Asset.quantityNames]; decide +kernel)
  · rintro rfl
    refine ⟨_, hB.1 ⟨?_, ?_⟩⟩
    · rw [H.2.2.2]
      exact .inr (.inr (.inr ⟨.boiler defaultBoiler, hp.mem_iff.2 (by simp), by decide +kernel⟩))
    · rw [H.2.2.2]
      exact .inr (.inr (.inr ⟨.spill { name := "spill" }, hp.mem_iff.2 (by simp), by decide +kernel⟩))

/-- `HeatPump.plot` on the results of a stand-alone heat pump returns exactly when a spill was asked for and the valve was not left out. -/
theorem C69_alone_heatPump {c : HeatPumpCfg} {args : SiteArgs} {withSpill : Bool} (hs : standaloneHeatPump c args withSpill = .ok (some s))
    (hn : c.name ≠ "total") (h1 : c.name ≠ "site") (h2 : c.name ≠ "spill") (h : optimizeStandalone (some s) objective flags S = .ok r) :
    (∃ ds, (runSteps (plotHeatPump c.name) r.results).2 = .ok ds) ↔ withSpill = true ∧ c.includeValve = true := by
  obtain ⟨hc, hp, hw⟩ := holds_plain (C58_heatPump hs) (by simp) hn (by cases withSpill <;> cases c.includeValve <;> decide +kernel)
  have H := C23_columns hc h hw
  obtain ⟨V, hV⟩ := exists_reads H.2.1 H.2.2.1
  have hB := C69_heatPump hc h hw hV h1 h2
  constructor
  · intro hds
    obtain ⟨-, h3⟩ := hB.2 hds
    have mem : ∀ x, x ∈ s.assets → x = .heatPump c ∨ x = .boiler defaultBoiler ∨ (withSpill = true ∧ x = .spill { name := "spill" }) ∨
        (c.includeValve = true ∧ x = .valve defaultValve) := by
      intro x hx
      have := hp.mem_iff.1 hx
      revert this
      cases withSpill <;> cases c.includeValve <;> simp <;> tauto
    constructor
    · obtain ⟨x, hx, hxk⟩ := asset_column hc h hw (h3 "spill-low_temperature_generation_mwh" (by simp [roundedColumns])) (by decide +kernel)
        (by decide +kernel)
      obtain ⟨hq, ho⟩ := column_owner (pre := "spill") (q := "low_temperature_generation_mwh") (by decide) hxk
      rcases mem x hx with rfl | rfl | ⟨hs, -⟩ | ⟨-, rfl⟩
      · exact absurd hq (by simp only [Asset.quantityNames]; decide +kernel)
      · exact absurd hq (by simp only [Asset.quantityNames]; decide +kernel)
      · exact hs
      · rcases ho with ⟨he, -⟩ | ⟨c', he, -⟩
        · exact absurd he (by decide +kernel)
        · cases he
    · obtain ⟨x, hx, hxk⟩ := asset_column hc h hw (h3 "valve-low_temperature_generation_mwh" (by simp [roundedColumns])) (by decide +kernel)
        (by decide +kernel)
      obtain ⟨hq, ho⟩ := column_owner (pre := "valve") (q := "low_temperature_generation_mwh") (by decide) hxk
      rcases mem x hx with rfl | rfl | ⟨-, rfl⟩ | ⟨hv, -⟩
      · exact absurd hq (by simp only [Asset.quantityNames]; decide +kernel)
      · exact absurd hq (by simp only [Asset.quantityNames]; decide +kernel)
      · rcases ho with ⟨he, -⟩ | ⟨c', he, -⟩
        · exact absurd he (by decide +kernel)
        · cases he
      · exact hv
  · rintro ⟨rfl, hv⟩
    rw [hv] at hp
    have col : ∀ k a, a ∈ s.assets → k ∈ a.documentedColumns → k ∈ r.results.columns := fun k a h1 h2 =>
      (H.2.2.2 k).2 (.inr (.inr (.inr ⟨a, h1, h2⟩)))
    refine ⟨_, hB.1 ⟨col _ (.heatPump c) (hp.mem_iff.2 (by simp)) ?_, ?_⟩⟩
    · simp only [Asset.documentedColumns, List.map_cons, List.map_nil, List.mem_cons]
      exact .inr (.inr (.inl (by rw [String.append_assoc]; rfl)))
    · intro k hk
      simp only [roundedColumns, List.mem_cons, List.not_mem_nil, or_false] at hk
      rcases hk with rfl | rfl | rfl | rfl | rfl | rfl
      · exact col _ (.spill { name := "spill" }) (hp.mem_iff.2 (by simp)) (by decide +kernel)
      · exact (H.2.2.2 _).2 (.inl (by decide +kernel))
      · refine col _ (.heatPump c) (hp.mem_iff.2 (by simp)) ?_
        simp only [Asset.documentedColumns, List.map_cons, List.map_nil, List.mem_cons]
        exact .inr (.inl (by rw [String.append_assoc]; rfl))
      · exact (H.2.2.2 _).2 (.inl (by decide +kernel))
      · exact col _ (.spill { name := "spill" }) (hp.mem_iff.2 (by simp)) (by decide +kernel)
      · exact col _ (.valve defaultValve) (hp.mem_iff.2 (by simp)) (by decide +kernel)

/-- The two stacks of the heat pump plot are equally high, up to the rounding of the six numbers. -/
theorem C69_stacks {c : HeatPumpCfg} {args : SiteArgs} (hs : standaloneHeatPump c args true = .ok (some s)) (hv : c.includeValve = true)
    (hn : c.name ≠ "total") (h : Run s objective flags S r V) {i : Nat} (hi : i < s.data.n) :
    |(round4 (V "spill-low_temperature_load_mwh" i) + round4 (V "site-low_temperature_load_mwh" i) +
        round4 (V (c.name ++ "-low_temperature_load_mwh") i)) -
      (round4 (V "site-low_temperature_generation_mwh" i) + round4 (V "spill-low_temperature_generation_mwh" i) +
        round4 (V "valve-low_temperature_generation_mwh" i))| ≤ 3 / 10000 := by
  obtain ⟨hc, hp, hw⟩ := holds_plain (C58_heatPump hs) (by simp) hn (by rw [hv]; decide +kernel)
  rw [hv] at hp
  have hb := C03_low_temperature_balance h hw hi
  have sum : ∀ q, s.assetSum V q i = (([Asset.heatPump c, .boiler defaultBoiler, .spill { name := "spill" }, .valve defaultValve]).map
      (fun a => rowSum V (a.reports q) i)).sum := fun q => (hp.map _).sum_eq
  rw [sum, sum] at hb
  have e : c.name ++ "-" ++ "low_temperature_load_mwh" = c.name ++ "-low_temperature_load_mwh" := by rw [String.append_assoc]; rfl
  have r1 : (Asset.heatPump c).reports "low_temperature_generation_mwh" = [] := by
    simp [Asset.reports, Asset.flows]
  have r2 : (Asset.heatPump c).reports "low_temperature_load_mwh" = [c.name ++ "-low_temperature_load_mwh"] := by
    unfold Asset.reports
    rw [if_pos (by simp [Asset.flows])]
    simp only [Asset.units, List.map_cons, List.map_nil, Asset.name, e]
  have r3 : (Asset.boiler defaultBoiler).reports "low_temperature_generation_mwh" = [] := by decide +kernel
  have r4 : (Asset.boiler defaultBoiler).reports "low_temperature_load_mwh" = [] := by decide +kernel
  have r5 : (Asset.spill { name := "spill" }).reports "low_temperature_generation_mwh" = ["spill-low_temperature_generation_mwh"] := by
    decide +kernel
  have r6 : (Asset.spill { name := "spill" }).reports "low_temperature_load_mwh" = ["spill-low_temperature_load_mwh"] := by decide +kernel
  have r7 : (Asset.valve defaultValve).reports "low_temperature_generation_mwh" = ["valve-low_temperature_generation_mwh"] := by
    decide +kernel
  have r8 : (Asset.valve defaultValve).reports "low_temperature_load_mwh" = [] := by decide +kernel
  simp only [List.map_cons, List.map_nil, List.sum_cons, List.sum_nil, r1, r2, r3, r4, r5, r6, r7, r8, rowSum] at hb
  have n1 := abs_le.1 (round4_near (V "spill-low_temperature_load_mwh" i))
  have n2 := abs_le.1 (round4_near (V "site-low_temperature_load_mwh" i))
  have n3 := abs_le.1 (round4_near (V (c.name ++ "-low_temperature_load_mwh") i))
  have n4 := abs_le.1 (round4_near (V "site-low_temperature_generation_mwh" i))
  have n5 := abs_le.1 (round4_near (V "spill-low_temperature_generation_mwh" i))
  have n6 := abs_le.1 (round4_near (V "valve-low_temperature_generation_mwh" i))
  rw [abs_le]
  constructor <;> linarith [n1.1, n1.2, n2.1, n2.2, n3.1, n3.2, n4.1, n4.2, n5.1, n5.2, n6.1, n6.2]

/-! ### Plotting twice -/

theorem mem_set {t : Table} {k : String} {v : List ℚ} {c : String × List ℚ} (h : c ∈ t.set k v) : c ∈ t ∨ c = (k, v) := by
  induction t with
  | nil => simp only [Table.set, List.mem_singleton] at h; exact .inr h
  | cons d t ih =>
    obtain ⟨k0, col⟩ := d
    simp only [Table.set] at h
    split at h
    · rename_i he
      rcases List.mem_cons.1 h with h | h
      · exact .inr (by rw [h, he])
      · exact .inl (by simp [h])
    · rcases List.mem_cons.1 h with h | h
      · exact .inl (by simp [h])
      · rcases ih h with h | h
        · exact .inl (by simp [h])
        · exact .inr h

theorem frame_set (hf : t.Frame n V) (k : String) (f : Nat → ℚ) : (t.set k ((List.range n).map f)).Frame n (Function.update V k f) := by
  constructor
  · intro c hc
    rcases mem_set hc with hc | rfl
    · exact hf.rows c hc
    · simp
  · intro k' hk' i hi
    unfold Table.cell
    rw [lookup_set]
    by_cases he : k' = k
    · subst he; simp [hi]
    · rw [if_neg he, Function.update_of_ne he]
      refine hf.reads k' ?_ i hi
      rw [columns_set] at hk'
      split at hk'
      · exact hk'
      · rcases List.mem_append.1 hk' with h | h
        · exact h
        · exact absurd (List.mem_singleton.1 h) he

theorem columns_set_sub {t : Table} {k k' : String} {v : List ℚ} (h : k ∈ t.columns) : k ∈ (t.set k' v).columns := by
  rw [columns_set]; split
  · exact h
  · exact List.mem_append_left _ h

/-- A battery plot that returned can be repeated: the same picture, and the results stay as they are. -/
theorem C69_again_battery (hf : t.Frame n V) (hs : ∀ k ∈ siteColumns, k ∈ t.columns) (h : runSteps plotBattery t = (t', .ok ds)) :
    runSteps plotBattery t' = (t', .ok ds) := by
  obtain ⟨a, b, ha, hb, a1, b1, a2, a3, b2, b3, hk, rfl, rfl⟩ := (plotBattery_run hf hs).1 h
  have hb3 : ∀ k ∈ ["Index", "import-export-balance", "net-battery-charge"], pyStartsWith k "battery-" = false := by decide +kernel
  have nb : ∀ stop c, findColumn t "battery-" stop = .ok c → c ≠ "net-battery-charge" := by
    intro stop c h
    have hm : c ∈ t.columns.filter (fun c => pyStartsWith c "battery-" && pyEndsWith c stop) := by
      unfold findColumn at h
      split at h
      · rename_i x d hd
        rw [Except.ok.injEq] at h
        rw [hd, h]; simp
      · cases h
    rw [List.mem_filter, Bool.and_eq_true] at hm
    rintro rfl
    rw [hb3 _ (by simp)] at hm; simp at hm
  have a4 := nb _ _ ha
  have b4 := nb _ _ hb
  have hf' := frame_set (frame_set (frame_set hf "Index" (fun i : Nat => (i : ℚ))) "import-export-balance"
    (fun i => V "site-import_power_mwh" i - V "site-export_power_mwh" i)) "net-battery-charge" (fun i => V a i - V b i)
  obtain ⟨W, hWe, hW⟩ : ∃ W, W = Function.update (Function.update (Function.update V "Index" (fun i : Nat => (i : ℚ))) "import-export-balance"
      (fun i => V "site-import_power_mwh" i - V "site-export_power_mwh" i)) "net-battery-charge" (fun i => V a i - V b i) ∧
      ∀ k, k ≠ "Index" → k ≠ "import-export-balance" → k ≠ "net-battery-charge" → W k = V k :=
    ⟨_, rfl, fun k k1 k2 k3 => by rw [Function.update_of_ne k3, Function.update_of_ne k2, Function.update_of_ne k1]⟩
  rw [← hWe] at hf'
  rw [plotBattery_run hf' (fun k hk => columns_set_sub (columns_set_sub (columns_set_sub (hs k hk))))]
  refine ⟨a, b, ?_, ?_, columns_set_sub (columns_set_sub (columns_set_sub a1)), columns_set_sub (columns_set_sub (columns_set_sub b1)),
    a2, a3, b2, b3, columns_set_sub (columns_set_sub (columns_set_sub hk)), ?_, ?_⟩
  · rw [findColumn_set (by rw [hb3 _ (by simp)]; rfl), findColumn_set (by rw [hb3 _ (by simp)]; rfl),
      findColumn_set (by rw [hb3 _ (by simp)]; rfl), ha]
  · rw [findColumn_set (by rw [hb3 _ (by simp)]; rfl), findColumn_set (by rw [hb3 _ (by simp)]; rfl),
      findColumn_set (by rw [hb3 _ (by simp)]; rfl), hb]
  · rw [hW _ a2 a3 a4, hW _ b2 b3 b4, hW "site-import_power_mwh" (by decide) (by decide) (by decide),
      hW "site-export_power_mwh" (by decide) (by decide) (by decide)]
    conv_rhs => rw [set_self (k := "Index") (by simp [lookup_set]), set_self (k := "import-export-balance") (by simp [lookup_set]),
      set_self (k := "net-battery-charge") (by simp [lookup_set])]
  · rw [hW _ a2 a3 a4, hW _ b2 b3 b4, hW "site-import_power_mwh" (by decide) (by decide) (by decide),
      hW "site-export_power_mwh" (by decide) (by decide) (by decide), hW "battery-electric_final_charge_mwh" (by decide) (by decide) (by decide),
      hW "site-electricity_prices" (by decide) (by decide) (by decide),
      hW "site-electricity_carbon_intensities" (by decide) (by decide) (by decide)]

/-- A CHP plot that returned can be repeated. -/
theorem C69_again_chp (hf : t.Frame n V) (hs : ∀ k ∈ siteColumns, k ∈ t.columns) (h : runSteps plotChp t = (t', .ok ds)) :
    runSteps plotChp t' = (t', .ok ds) := by
  obtain ⟨h1, h2, rfl, rfl⟩ := (plotChp_run hf hs).1 h
  have hf' := frame_set (frame_set hf "Index" (fun i : Nat => (i : ℚ))) "import-export-balance"
    (fun i => V "site-import_power_mwh" i - V "site-export_power_mwh" i)
  obtain ⟨W, hWe, hW⟩ : ∃ W, W = Function.update (Function.update V "Index" (fun i : Nat => (i : ℚ))) "import-export-balance"
      (fun i => V "site-import_power_mwh" i - V "site-export_power_mwh" i) ∧ ∀ k, k ≠ "Index" → k ≠ "import-export-balance" → W k = V k :=
    ⟨_, rfl, fun k k1 k2 => by rw [Function.update_of_ne k2, Function.update_of_ne k1]⟩
  rw [← hWe] at hf'
  rw [plotChp_run hf' (fun k hk => columns_set_sub (columns_set_sub (hs k hk)))]
  refine ⟨columns_set_sub (columns_set_sub h1), columns_set_sub (columns_set_sub h2), ?_, ?_⟩
  · rw [hW "site-import_power_mwh" (by decide) (by decide), hW "site-export_power_mwh" (by decide) (by decide)]
    conv_rhs => rw [set_self (k := "Index") (by simp [lookup_set]), set_self (k := "import-export-balance") (by simp [lookup_set])]
  · unfold chpPicture
    rw [hW "site-import_power_mwh" (by decide) (by decide), hW "site-export_power_mwh" (by decide) (by decide),
      hW "boiler-high_temperature_generation_mwh" (by decide) (by decide), hW "spill-low_temperature_load_mwh" (by decide) (by decide),
      hW "site-electricity_prices" (by decide) (by decide), hW "site-electricity_carbon_intensities" (by decide) (by decide)]

theorem foldl_frame (l : List String) (W : String → Nat → ℚ) (hf : t.Frame n V) :
    (l.foldl (fun t k => t.set k ((List.range n).map (W k))) t).Frame n (fun k => if k ∈ l then W k else V k) := by
  induction l generalizing t V with
  | nil => simpa using hf
  | cons k l ih =>
    rw [List.foldl_cons]
    have := ih (frame_set hf k (W k))
    convert this using 2 with k'
    by_cases h1 : k' ∈ l
    · simp [h1]
    · by_cases h2 : k' = k
      · subst h2; simp
      · simp [h1, h2, Function.update_of_ne h2]

theorem foldl_set_self (l : List String) (f : String → List ℚ) (t : Table) (h : ∀ k ∈ l, t.lookup k = some (f k)) :
    l.foldl (fun t k => t.set k (f k)) t = t := by
  induction l with
  | nil => rfl
  | cons k l ih => rw [List.foldl_cons, set_self (h k (by simp)), ih fun k' hk' => h k' (by simp [hk'])]

/-- A heat pump plot that returned can be repeated: the rounded numbers stay as they are. -/
theorem C69_again_heatPump (hf : t.Frame n V) (hs : ∀ k ∈ siteColumns, k ∈ t.columns) {name : String} (h1 : name ≠ "site")
    (h2 : name ≠ "spill") (h : ∃ ds, (runSteps (plotHeatPump name) t).2 = .ok ds) :
    (runSteps (plotHeatPump name) (runSteps (plotHeatPump name) t).1).1 = (runSteps (plotHeatPump name) t).1 ∧
    ∃ ds, (runSteps (plotHeatPump name) (runSteps (plotHeatPump name) t).1).2 = .ok ds ∧
      (runSteps (plotHeatPump name) t).2 = .ok ds := by
  obtain ⟨ds, hds⟩ := h
  obtain ⟨h3, h4⟩ := plotHeatPump_needs (t' := (runSteps (plotHeatPump name) t).1) (ds := ds) h1 h2 (by rw [← hds])
  rw [plotHeatPump_run h1 h2 hf hs h3 h4]
  have cols : ∀ {k}, k ∈ t.columns → k ∈ (heatPumpAfter t name V n).columns := by
    intro k hk
    unfold heatPumpAfter
    rw [foldl_set_columns _ _ _ (fun k hk => columns_set_sub (h4 k hk))]
    exact columns_set_sub hk
  have hidx : ∀ k ∈ roundedColumns name, k ≠ "index" := by
    intro k hk he
    have : '-' ∈ k.toList := by
      simp only [roundedColumns, List.mem_cons, List.not_mem_nil, or_false] at hk
      rcases hk with rfl | rfl | rfl | rfl | rfl | rfl <;> first | decide | simp [String.toList_append]
    rw [he] at this
    revert this
    decide +kernel
  have hf' := foldl_frame (roundedColumns name) (fun k i => round4 (V k i)) (frame_set hf "index" (fun i : Nat => (i : ℚ)))
  rw [show ((roundedColumns name).foldl (fun t k => t.set k ((List.range n).map (fun i => round4 (V k i))))
    (t.set "index" ((List.range n).map (fun i : Nat => (i : ℚ))))) = heatPumpAfter t name V n from rfl] at hf'
  rw [plotHeatPump_run h1 h2 hf' (fun k hk => cols (hs k hk)) (cols h3) (fun k hk => cols (h4 k hk))]
  have hk1 : name ++ "-high_temperature_generation_mwh" ∉ roundedColumns name := by
    intro hk
    have he : name ++ "-high_temperature_generation_mwh" = name ++ "-" ++ "high_temperature_generation_mwh" := by
      rw [String.append_assoc]; rfl
    have key : ∀ pre q : String, NoDash q → "high_temperature_generation_mwh" ≠ q →
        name ++ "-high_temperature_generation_mwh" ≠ pre ++ "-" ++ q := by
      intro pre q hq hne h
      rw [he] at h
      exact hne (dash_inj (by decide) hq h).2
    simp only [roundedColumns, List.mem_cons, List.not_mem_nil, or_false] at hk
    rcases hk with hk | hk | hk | hk | hk | hk
    · exact key "spill" "low_temperature_load_mwh" (by decide) (by decide) hk
    · exact key "site" "low_temperature_load_mwh" (by decide) (by decide) hk
    · exact key name "low_temperature_load_mwh" (by decide) (by decide) (hk.trans (by rw [String.append_assoc]; rfl))
    · exact key "site" "low_temperature_generation_mwh" (by decide) (by decide) hk
    · exact key "spill" "low_temperature_generation_mwh" (by decide) (by decide) hk
    · exact key "valve" "low_temperature_generation_mwh" (by decide) (by decide) hk
  have hk2 : name ++ "-high_temperature_generation_mwh" ≠ "index" := by
    intro he
    have : '-' ∈ "index".toList := by rw [← he]; simp [String.toList_append]
    revert this
    decide +kernel
  have hother : ∀ k ∈ ["site-high_temperature_load_mwh", "site-electricity_prices", "site-electricity_carbon_intensities"],
      k ∉ roundedColumns name ∧ k ≠ "index" := by
    intro k hk
    refine ⟨?_, by rintro rfl; revert hk; decide +kernel⟩
    intro hm
    simp only [roundedColumns, List.mem_cons, List.not_mem_nil, or_false] at hm
    simp only [List.mem_cons, List.not_mem_nil, or_false] at hk
    have he : name ++ "-low_temperature_load_mwh" = name ++ "-" ++ "low_temperature_load_mwh" := by rw [String.append_assoc]; rfl
    have hx : pyEndsWith (name ++ "-low_temperature_load_mwh") "-low_temperature_load_mwh" = true := by
      rw [he]; exact (ends_exact (by decide) (by decide)).2 rfl
    rcases hk with rfl | rfl | rfl <;> rcases hm with hm | hm | hm | hm | hm | hm <;>
      first | exact absurd hm (by decide) | (rw [← hm] at hx; exact absurd hx (by decide +kernel))
  constructor
  · unfold heatPumpAfter
    rw [set_self (k := "index")]
    · apply foldl_set_self
      intro k hk
      rw [foldl_set_lookup, if_pos hk]
      simp [hk, round4_idem]
    · rw [foldl_set_lookup, if_neg (fun h => hidx _ h rfl), lookup_set, if_pos rfl]
  · refine ⟨_, rfl, ?_⟩
    have hr : ∀ k ∈ roundedColumns name, (fun i => round4 ((if k ∈ roundedColumns name then fun i => round4 (V k i) else
        Function.update V "index" (fun i : Nat => (i : ℚ)) k) i)) = fun i => round4 (V k i) := by
      intro k hk
      simp only [if_pos hk, round4_idem]
    have ho : ∀ k, k ∉ roundedColumns name → k ≠ "index" → (if k ∈ roundedColumns name then fun i => round4 (V k i) else
        Function.update V "index" (fun i : Nat => (i : ℚ)) k) = V k := by
      intro k hk hk'
      rw [if_neg hk, Function.update_of_ne hk']
    simp only [heatPumpPicture]
    have m1 := hr "spill-low_temperature_load_mwh" (by simp [roundedColumns])
    have m2 := hr "site-low_temperature_load_mwh" (by simp [roundedColumns])
    have m3 := hr (name ++ "-low_temperature_load_mwh") (by simp [roundedColumns])
    have m4 := hr "site-low_temperature_generation_mwh" (by simp [roundedColumns])
    have m5 := hr "spill-low_temperature_generation_mwh" (by simp [roundedColumns])
    have m6 := hr "valve-low_temperature_generation_mwh" (by simp [roundedColumns])
    rw [ho _ (hother _ (by simp)).1 (hother _ (by simp)).2, ho _ hk1 hk2, ho _ (hother "site-electricity_prices" (by simp)).1
      (hother _ (by simp)).2, ho _ (hother "site-electricity_carbon_intensities" (by simp)).1 (hother _ (by simp)).2, m1, m2, m3, m4, m5, m6]
    have e1 := congrFun m1
    have e2 := congrFun m2
    have e4 := congrFun m4
    have e5 := congrFun m5
    simp only [e1, e2, e4, e5]

/-! ### The hypotheses are met -/

/-- The battery of `demoBattery` is drawn: charged 2, then discharged 1; the results gain three columns. -/
example : ∃ (s : Site) (r : SimResult) (V : String → Nat → ℚ), Run s (.str "price") {} (checkSolver (tab demoBattery.answer)) r V ∧
    s.PlotsBattery ∧ (runSteps plotBattery r.results).2 = .ok (batteryPicture V 2) ∧
    r.results.ExtendedBy (runSteps plotBattery r.results).1 ["Index", "import-export-balance", "net-battery-charge"] := by
  obtain ⟨s, r, V, hs, h, ht⟩ := Demo.run demoBattery_test
  simp only [Bool.and_eq_true, decide_eq_true_eq] at ht
  obtain ⟨⟨h1, h2⟩, -⟩ := ht
  have hc : s.Constructed := ⟨_, _, _, _, _, _, _, hs⟩
  have hw : ∀ a ∈ s.assets, a.WellNamed := by rw [h1]; decide +kernel
  have hp : s.PlotsBattery := by
    unfold Site.PlotsBattery
    rw [h1]
    refine ⟨⟨demoBatteryCfg, by simp, rfl⟩, ?_, ?_⟩
    · intro c hcm
      simp only [List.mem_singleton, Asset.battery.injEq] at hcm
      rw [hcm]; decide +kernel
    · intro c hcm
      simp at hcm
  exact ⟨s, r, V, h, hp, h2 ▸ (C69_battery hc h.returned hw h.reads).1 hp, (C69_battery_keeps hc h.returned hw).2 hp⟩

/-- On the site of `demoHeat` the CHP plot and the heat pump plot are drawn; the battery plot raises. -/
example : ∃ (s : Site) (r : SimResult) (V : String → Nat → ℚ), Run s (.str "price") {} (checkSolver (tab demoHeat.answer)) r V ∧
    (runSteps plotChp r.results).2 = .ok (chpPicture V 1) ∧
    (runSteps (plotHeatPump "heat-pump") r.results).2 = .ok (heatPumpPicture "heat-pump" V (fun k i => round4 (V k i)) 1) ∧
    ¬ ∃ ds, (runSteps plotBattery r.results).2 = .ok ds := by
  obtain ⟨s, r, V, hs, h, ht⟩ := Demo.run demoHeat_test
  simp only [Bool.and_eq_true, decide_eq_true_eq] at ht
  obtain ⟨⟨h1, h2⟩, -⟩ := ht
  have hc : s.Constructed := ⟨_, _, _, _, _, _, _, hs⟩
  have hw : ∀ a ∈ s.assets, a.WellNamed := by rw [h1]; decide +kernel
  have col : ∀ k, (siteColumns.contains k || s.assets.any (fun a => a.documentedColumns.contains k)) = true → k ∈ r.results.columns := by
    intro k hk
    rw [Bool.or_eq_true, List.any_eq_true] at hk
    rw [(C23_columns hc h.returned hw).2.2.2]
    rcases hk with hk | ⟨a, ha, hk⟩
    · exact .inl (by simpa using hk)
    · exact .inr (.inr (.inr ⟨a, ha, by simpa using hk⟩))
  rw [h1] at col
  have hch : "boiler-high_temperature_generation_mwh" ∈ r.results.columns ∧ "spill-low_temperature_load_mwh" ∈ r.results.columns :=
    ⟨col _ (by decide +kernel), col _ (by decide +kernel)⟩
  have hhp : ∀ k ∈ roundedColumns "heat-pump", k ∈ r.results.columns := by
    have : ∀ k ∈ roundedColumns "heat-pump", (siteColumns.contains k || List.any [.chp demoChpCfg, .boiler defaultBoiler, .heatPump demoHeatPumpCfg,
      .renewable demoRenewableCfg, .spill ⟨"spill"⟩, .valve defaultValve] (fun a : Asset => a.documentedColumns.contains k)) = true := by
      decide +kernel
    exact fun k hk => col k (this k hk)
  refine ⟨s, r, V, h, h2 ▸ (C69_chp hc h.returned hw h.reads).1 hch,
    h2 ▸ (C69_heatPump hc h.returned hw h.reads (by decide) (by decide)).1 ⟨col _ (by decide +kernel), hhp⟩, ?_⟩
  intro hds
  obtain ⟨⟨c, hcm, -⟩, -⟩ := (C69_battery hc h.returned hw h.reads).2 hds
  rw [h1] at hcm
  simp at hcm

end EPL
