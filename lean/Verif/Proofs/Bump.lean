/-
Small changes of a valid dispatch: adding energies to some columns.
-/
import Verif.Spec.Margin
import Verif.Spec.Names
import Verif.Spec.Returns
import Verif.Proofs.DispatchEdit

namespace EPL

/-- Energies for one column and nothing for the others. -/
def bump (k0 : String) (f : Nat → ℚ) : String → Nat → ℚ := fun k i => if k = k0 then f i else 0

theorem bump_at (k0 : String) (f : Nat → ℚ) (i : Nat) : bump k0 f k0 i = f i := if_pos rfl

theorem bump_off {k0 k : String} (f : Nat → ℚ) (i : Nat) (h : k ≠ k0) : bump k0 f k i = 0 := if_neg h

theorem rowSum_add (V W : String → Nat → ℚ) (l : List String) (i : Nat) : rowSum (V + W) l i = rowSum V l i + rowSum W l i := by
  unfold rowSum
  rw [← list_sum_add]
  rfl

theorem rowSum_off {k0 : String} {f : Nat → ℚ} {l : List String} (h : k0 ∉ l) (i : Nat) : rowSum (bump k0 f) l i = 0 :=
  list_sum_zero fun _ hk => bump_off f i (fun e => h (e ▸ hk))

theorem sum_owner {α : Type} {l : List α} {a : α} {g : α → ℚ} (hn : l.Nodup) (ha : a ∈ l) (h : ∀ b ∈ l, b ≠ a → g b = 0) : (l.map g).sum = g a := by
  induction l with
  | nil => simp at ha
  | cons b l ih =>
    rw [List.nodup_cons] at hn
    rw [List.map_cons, List.sum_cons]
    rcases List.mem_cons.1 ha with rfl | ha
    · rw [list_sum_zero fun c hc => h c (List.mem_cons_of_mem _ hc) (fun e => hn.1 (e ▸ hc)), add_zero]
    · rw [ih hn.2 ha (fun c hc => h c (List.mem_cons_of_mem _ hc)), h b List.mem_cons_self (fun e => hn.1 (e ▸ ha)), zero_add]

section
variable {s : Site} {flags : Flags} {V d : String → Nat → ℚ} {f : Nat → ℚ} {k0 : String}

theorem assetSum_add (V W : String → Nat → ℚ) (q : String) (i : Nat) : s.assetSum (V + W) q i = s.assetSum V q i + s.assetSum W q i := by
  unfold Site.assetSum
  simp only [rowSum_add, list_sum_add]

theorem assets_nodup (hc : s.ClearNames) : s.assets.Nodup := List.Nodup.of_map _ hc.solver

/-- A column belongs to one asset only. -/
theorem column_asset (hc : s.ClearNames) {a b : Asset} (ha : a ∈ s.assets) (hb : b ∈ s.assets) (hne : b ≠ a) {k : String}
    (hk : k ∈ a.documentedColumns) : k ∉ b.documentedColumns := by
  intro hkb
  have h := columns_distinct hc
  unfold Site.columnNames at h
  rw [List.nodup_append] at h
  have h := h.2.1
  rw [List.nodup_flatMap] at h
  have hp : s.assets.Pairwise (fun a b => ∀ k, k ∈ a.documentedColumns → k ∈ b.documentedColumns → False) := h.2.imp fun d k h1 h2 => d h1 h2
  have key : ∀ l : List Asset, l.Pairwise (fun a b => ∀ k, k ∈ a.documentedColumns → k ∈ b.documentedColumns → False) → a ∈ l → b ∈ l → False := by
    intro l hl
    induction l with
    | nil => intro h; simp at h
    | cons c l ih =>
      rw [List.pairwise_cons] at hl
      intro h1 h2
      rcases List.mem_cons.1 h1 with e1 | e1
      · rcases List.mem_cons.1 h2 with e2 | e2
        · exact hne (e2.trans e1.symm)
        · exact hl.1 _ e2 k (e1 ▸ hk) hkb
      · rcases List.mem_cons.1 h2 with e2 | e2
        · exact hl.1 _ e1 k (e2 ▸ hkb) hk
        · exact ih hl.2 e1 e2
  exact key _ hp ha hb

theorem site_column (hc : s.ClearNames) {k : String} (hk : k ∈ siteColumns) {a : Asset} (ha : a ∈ s.assets) : k ∉ a.documentedColumns := by
  intro hm
  have h := columns_distinct hc
  unfold Site.columnNames at h
  rw [List.nodup_append] at h
  exact h.2.2 k (List.mem_append_left _ hk) k (List.mem_flatMap.2 ⟨a, ha, hm⟩) rfl

/-- A sum over the assets sees the change of one column once. -/
theorem bump_owner (hc : s.ClearNames) {a : Asset} (ha : a ∈ s.assets) (hk : k0 ∈ a.documentedColumns) {g : Asset → List String}
    (hg : ∀ b ∈ s.assets, ∀ k ∈ g b, k ∈ b.documentedColumns) (i : Nat) :
    (s.assets.map (fun b => rowSum (bump k0 f) (g b) i)).sum = rowSum (bump k0 f) (g a) i :=
  sum_owner (assets_nodup hc) ha fun b hb hne => rowSum_off (fun h => column_asset hc ha hb hne hk (hg b hb _ h)) i

theorem bump_none (hc : s.ClearNames) (hk : k0 ∈ siteColumns) {g : Asset → List String}
    (hg : ∀ b ∈ s.assets, ∀ k ∈ g b, k ∈ b.documentedColumns) (i : Nat) : (s.assets.map (fun b => rowSum (bump k0 f) (g b) i)).sum = 0 :=
  list_sum_zero fun b hb => rowSum_off (fun h => site_column hc hk hb (hg b hb _ h)) i

/-- The change of one column of an asset of one unit, seen in the sum of a flow. -/
theorem bump_flow (hc : s.ClearNames) (hw : ∀ a ∈ s.assets, a.WellNamed) {a : Asset} (ha : a ∈ s.assets) {attr : String}
    (hk : a.name ++ "-" ++ attr ∈ a.documentedColumns) (hu : a.units = [a.name]) (q : String) (i : Nat) :
    s.assetSum (bump (a.name ++ "-" ++ attr) f) q i = if q = attr ∧ attr ∈ a.flows then f i else 0 := by
  unfold Site.assetSum
  rw [bump_owner hc ha hk (fun b hb k h => reports_documented (hw b hb) h)]
  unfold Asset.reports
  by_cases hq : q ∈ a.flows
  · rw [if_pos hq, hu]
    show bump _ f _ i + 0 = _
    rw [add_zero]
    by_cases e : q = attr
    · subst e
      rw [bump_at, if_pos ⟨rfl, hq⟩]
    · rw [if_neg (fun h => e h.1), bump_off]
      intro h
      rw [str_eq_iff] at h
      simp only [String.toList_append, List.append_cancel_left_eq] at h
      exact e (str_eq_iff.2 h)
  · rw [if_neg hq, if_neg (fun h : q = attr ∧ attr ∈ a.flows => hq (by rw [h.1]; exact h.2))]
    rfl

/-- The site columns are no flows of assets. -/
theorem bump_grid (hc : s.ClearNames) (hw : ∀ a ∈ s.assets, a.WellNamed) (hk : k0 ∈ siteColumns) (q : String) (i : Nat) :
    s.assetSum (bump k0 f) q i = 0 := by
  unfold Site.assetSum
  exact bump_none hc hk (fun b hb k h => reports_documented (hw b hb) h) i

/-- The penalised energy of interval `i`. -/
def Site.spillAt (s : Site) (V : String → Nat → ℚ) (i : Nat) : ℚ := (s.assets.map (fun a => rowSum V a.penalised i)).sum

theorem spillAt_add (V W : String → Nat → ℚ) (i : Nat) : s.spillAt (V + W) i = s.spillAt V i + s.spillAt W i := by
  unfold Site.spillAt
  simp only [rowSum_add, list_sum_add]

theorem bump_spill (hc : s.ClearNames) (hw : ∀ a ∈ s.assets, a.WellNamed) {a : Asset} (ha : a ∈ s.assets) (hk : k0 ∈ a.documentedColumns) (i : Nat) :
    s.spillAt (bump k0 f) i = rowSum (bump k0 f) a.penalised i := by
  unfold Site.spillAt
  exact bump_owner hc ha hk (fun b hb k h => penalised_documented (hw b hb) h) i

theorem bump_spill_grid (hc : s.ClearNames) (hw : ∀ a ∈ s.assets, a.WellNamed) (hk : k0 ∈ siteColumns) (i : Nat) : s.spillAt (bump k0 f) i = 0 := by
  unfold Site.spillAt
  exact bump_none hc hk (fun b hb k h => penalised_documented (hw b hb) h) i

/-- The columns of the site other than imports and exports. -/
def echoColumns : List String :=
  ["site-electricity_prices", "site-export_electricity_prices", "site-electricity_carbon_intensities", "site-gas_prices", "site-electric_load_mwh",
    "site-high_temperature_load_mwh", "site-low_temperature_load_mwh", "site-low_temperature_generation_mwh"]

/-- When a change of a valid dispatch is a valid dispatch. -/
theorem dispatch_add (h : s.Dispatch flags V) (echo : ∀ k ∈ echoColumns, ∀ i, d k i = 0)
    (imports : ∀ i < s.data.n, 0 ≤ V "site-import_power_mwh" i + d "site-import_power_mwh" i ∧
      V "site-import_power_mwh" i + d "site-import_power_mwh" i ≤ s.importLimit * s.freqMins / 60)
    (exports : ∀ i < s.data.n, 0 ≤ V "site-export_power_mwh" i + d "site-export_power_mwh" i ∧
      V "site-export_power_mwh" i + d "site-export_power_mwh" i ≤ s.exportLimit * s.freqMins / 60)
    (oneWay : ∀ i < s.data.n, V "site-import_power_mwh" i + d "site-import_power_mwh" i = 0 ∨ V "site-export_power_mwh" i + d "site-export_power_mwh" i = 0)
    (electricity : ∀ i < s.data.n, d "site-import_power_mwh" i + s.assetSum d "electric_generation_mwh" i + s.assetSum d "electric_discharge_mwh" i =
      d "site-export_power_mwh" i + s.assetSum d "electric_load_mwh" i + s.assetSum d "electric_charge_mwh" i)
    (high : ∀ i < s.data.n, s.assetSum d "high_temperature_generation_mwh" i = s.assetSum d "high_temperature_load_mwh" i)
    (low : ∀ i < s.data.n, s.assetSum d "low_temperature_generation_mwh" i = s.assetSum d "low_temperature_load_mwh" i)
    (assets : ∀ a ∈ s.assets, (∀ k ∈ a.documentedColumns, d k = 0) ∨ a.Plays s flags (V + d)) : s.Dispatch flags (V + d) := by
  have e : ∀ k ∈ echoColumns, ∀ i, (V + d) k i = V k i := fun k hk i => by
    show V k i + d k i = _
    rw [echo k hk, add_zero]
  refine ⟨⟨fun i hi => ?_, fun i hi => ?_⟩, imports, exports, oneWay, fun i hi => ?_, fun i hi => ?_, fun i hi => ?_, fun a ha => ?_⟩
  · rw [e _ (by simp [echoColumns]), e _ (by simp [echoColumns]), e _ (by simp [echoColumns]), e _ (by simp [echoColumns])]
    exact h.inputs.prices i hi
  · rw [e _ (by simp [echoColumns]), e _ (by simp [echoColumns]), e _ (by simp [echoColumns]), e _ (by simp [echoColumns])]
    exact h.inputs.loads i hi
  · rw [e "site-electric_load_mwh" (by simp [echoColumns])]
    simp only [assetSum_add, Pi.add_apply]
    have := h.electricity i hi
    have := electricity i hi
    linarith
  · rw [e "site-high_temperature_load_mwh" (by simp [echoColumns])]
    simp only [assetSum_add]
    have := h.high i hi
    have := high i hi
    linarith
  · rw [e "site-low_temperature_load_mwh" (by simp [echoColumns]), e "site-low_temperature_generation_mwh" (by simp [echoColumns])]
    simp only [assetSum_add]
    have := h.low i hi
    have := low i hi
    linarith
  · rcases assets a ha with h0 | hp
    · refine plays_congr rfl rfl (fun k hk => ?_) (h.assets a ha)
      show _ = V k + d k
      rw [h0 k hk, add_zero]
    · exact hp

/-- The cost of the change. -/
theorem readCost_add (h : s.Dispatch flags V) (echo : ∀ k ∈ echoColumns, ∀ i, d k i = 0) :
    s.readCost (V + d) = s.readCost V + s.sumIntervals (fun i => d "site-import_power_mwh" i * s.data.electricityPrices.getD i 0 -
      d "site-export_power_mwh" i * s.data.exportElectricityPrices.getD i 0 + s.assetSum d "gas_consumption_mwh" i * s.data.gasPrices.getD i 0) := by
  unfold Site.readCost Site.sumIntervals
  rw [← list_sum_add]
  refine list_sum_congr fun i hi => ?_
  obtain ⟨p1, p2, p3, p4⟩ := h.inputs.prices i (List.mem_range.1 hi)
  rw [assetSum_add]
  simp only [Pi.add_apply]
  rw [echo "site-electricity_prices" (by simp [echoColumns]), echo "site-export_electricity_prices" (by simp [echoColumns]),
    echo "site-gas_prices" (by simp [echoColumns]), p1, p2, p4]
  ring

theorem readEmissions_add (h : s.Dispatch flags V) (echo : ∀ k ∈ echoColumns, ∀ i, d k i = 0) :
    s.readEmissions (V + d) = s.readEmissions V + s.sumIntervals (fun i => (d "site-import_power_mwh" i - d "site-export_power_mwh" i) *
      s.data.electricityCarbonIntensities.getD i 0 + s.assetSum d "gas_consumption_mwh" i * (185 / 1000)) := by
  unfold Site.readEmissions Site.sumIntervals
  rw [← list_sum_add]
  refine list_sum_congr fun i hi => ?_
  obtain ⟨p1, p2, p3, p4⟩ := h.inputs.prices i (List.mem_range.1 hi)
  rw [assetSum_add]
  simp only [Pi.add_apply]
  rw [echo "site-electricity_carbon_intensities" (by simp [echoColumns]), p3]
  ring

theorem readSpill_add : s.readSpill (V + d) = s.readSpill V + s.sumIntervals (s.spillAt d) := by
  unfold Site.readSpill Site.sumIntervals
  rw [← list_sum_add]
  exact list_sum_congr fun i _ => spillAt_add V d i

end

end EPL
