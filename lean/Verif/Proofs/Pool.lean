/-
The table of two sites behind one meter.
-/
import Verif.Spec.Pool
import Verif.Proofs.DispatchEdit
import Verif.Spec.Names
import Verif.Spec.Returns

namespace EPL

/-- The columns of the assets from their own tables, loads added, imports and exports netted. -/
def poolTable (t : Site) (V V' : String → Nat → ℚ) : String → Nat → ℚ := fun k i =>
  if k ∈ t.assets.flatMap Asset.documentedColumns then V' k i
  else if k = "site-import_power_mwh" then
    max (V "site-import_power_mwh" i + V' "site-import_power_mwh" i - V "site-export_power_mwh" i - V' "site-export_power_mwh" i) 0
  else if k = "site-export_power_mwh" then
    max (V "site-export_power_mwh" i + V' "site-export_power_mwh" i - V "site-import_power_mwh" i - V' "site-import_power_mwh" i) 0
  else if k ∈ ["site-electric_load_mwh", "site-high_temperature_load_mwh", "site-low_temperature_load_mwh", "site-low_temperature_generation_mwh"] then
    V k i + V' k i
  else V k i

theorem addEach_getD {a b : List ℚ} {i : Nat} (ha : i < a.length) (hb : i < b.length) : (addEach a b).getD i 0 = a.getD i 0 + b.getD i 0 := by
  unfold addEach
  simp [List.getD_eq_getElem?_getD, List.getElem?_eq_getElem, ha, hb, List.getElem?_zipWith]

section
variable {s t : Site} {flags : Flags} {V V' : String → Nat → ℚ}

theorem pool_sites (hc : (s.pooled t).ClearNames) : ∀ k ∈ siteColumns, k ∉ s.assets.flatMap Asset.documentedColumns ∧
    k ∉ t.assets.flatMap Asset.documentedColumns := by
  have h := columns_distinct hc
  unfold Site.columnNames at h
  rw [List.nodup_append] at h
  intro k hk
  have := h.2.2 k (List.mem_append_left _ hk)
  constructor
  · intro hm
    exact this k (by simp only [Site.pooled, List.flatMap_append]; exact List.mem_append_left _ hm) rfl
  · intro hm
    exact this k (by simp only [Site.pooled, List.flatMap_append]; exact List.mem_append_right _ hm) rfl

theorem pool_other (hc : (s.pooled t).ClearNames) {k : String} (hk : k ∈ s.assets.flatMap Asset.documentedColumns) :
    k ∉ t.assets.flatMap Asset.documentedColumns := by
  have h := columns_distinct hc
  unfold Site.columnNames at h
  rw [List.nodup_append] at h
  have h := h.2.1
  simp only [Site.pooled, List.flatMap_append] at h
  rw [List.nodup_append] at h
  intro hm
  exact h.2.2 k hk k hm rfl

theorem pool_left (hc : (s.pooled t).ClearNames) {a : Asset} (ha : a ∈ s.assets) : ∀ k ∈ a.documentedColumns, V k = poolTable t V V' k := by
  intro k hk
  have hm : k ∈ s.assets.flatMap Asset.documentedColumns := List.mem_flatMap.2 ⟨a, ha, hk⟩
  have hs : k ∉ siteColumns := fun h => (pool_sites hc k h).1 hm
  simp only [siteColumns, List.mem_cons, List.not_mem_nil, or_false, not_or] at hs
  funext i
  unfold poolTable
  rw [if_neg (pool_other hc hm), if_neg hs.1, if_neg hs.2.1, if_neg (by simp only [List.mem_cons, List.not_mem_nil, or_false]; tauto)]

theorem pool_right {a : Asset} (ha : a ∈ t.assets) : ∀ k ∈ a.documentedColumns, V' k = poolTable t V V' k := by
  intro k hk
  funext i
  unfold poolTable
  rw [if_pos (List.mem_flatMap.2 ⟨a, ha, hk⟩)]

theorem pool_sum (hc : (s.pooled t).ClearNames) (hw : ∀ a ∈ s.assets, a.WellNamed) (hw' : ∀ a ∈ t.assets, a.WellNamed) (q : String) (i : Nat) :
    (s.pooled t).assetSum (poolTable t V V') q i = s.assetSum V q i + t.assetSum V' q i := by
  unfold Site.assetSum
  simp only [Site.pooled, List.map_append, List.sum_append]
  congr 1
  · exact list_sum_congr fun a ha => rowSum_congr (fun k hk => (pool_left hc ha k (reports_documented (hw a ha) hk)).symm) i
  · exact list_sum_congr fun a ha => rowSum_congr (fun k hk => (pool_right ha k (reports_documented (hw' a ha) hk)).symm) i

/-- The netted import and export. -/
theorem net_parts (x y : ℚ) : max (x - y) 0 - max (y - x) 0 = x - y ∧ (max (x - y) 0 = 0 ∨ max (y - x) 0 = 0) := by
  rcases le_total x y with h | h
  · rw [max_eq_right (sub_nonpos.2 h), max_eq_left (sub_nonneg.2 h)]
    exact ⟨by ring, .inl rfl⟩
  · rw [max_eq_left (sub_nonneg.2 h), max_eq_right (sub_nonpos.2 h)]
    exact ⟨by ring, .inr rfl⟩

/-- Netting never costs more when selling brings less than buying costs. -/
theorem net_cost {a b c d p e : ℚ} (ha : 0 ≤ a) (hb : 0 ≤ b) (hc : 0 ≤ c) (hd : 0 ≤ d) (h : e ≤ p) :
    max (a + b - c - d) 0 * p - max (c + d - a - b) 0 * e ≤ (a * p - c * e) + (b * p - d * e) := by
  have h1 : 0 ≤ (c + d) * (p - e) := mul_nonneg (add_nonneg hc hd) (sub_nonneg.2 h)
  have h2 : 0 ≤ (a + b) * (p - e) := mul_nonneg (add_nonneg ha hb) (sub_nonneg.2 h)
  rcases le_total 0 (a + b - c - d) with h0 | h0
  · rw [max_eq_left h0, max_eq_right (by linarith)]
    nlinarith
  · rw [max_eq_right h0, max_eq_left (by linarith)]
    nlinarith

theorem pool_dispatch (hal : s.Alike t) (hrow : ∀ i < s.data.n, s.data.HasRow i) (hrow' : ∀ i < t.data.n, t.data.HasRow i)
    (hc : (s.pooled t).ClearNames) (hw : ∀ a ∈ s.assets, a.WellNamed) (hw' : ∀ a ∈ t.assets, a.WellNamed)
    (h : s.Dispatch flags V) (h' : t.Dispatch flags V') : (s.pooled t).Dispatch flags (poolTable t V V') := by
  have site := fun k (hk : k ∈ siteColumns) => (pool_sites hc k hk).2
  have hn := hal.intervals
  have im : ∀ i, poolTable t V V' "site-import_power_mwh" i =
      max (V "site-import_power_mwh" i + V' "site-import_power_mwh" i - V "site-export_power_mwh" i - V' "site-export_power_mwh" i) 0 := fun i => by
    unfold poolTable
    rw [if_neg (site _ (by simp [siteColumns])), if_pos rfl]
  have ex : ∀ i, poolTable t V V' "site-export_power_mwh" i =
      max (V "site-export_power_mwh" i + V' "site-export_power_mwh" i - V "site-import_power_mwh" i - V' "site-import_power_mwh" i) 0 := fun i => by
    unfold poolTable
    rw [if_neg (site _ (by simp [siteColumns])), if_neg (by decide), if_pos rfl]
  have ld : ∀ k ∈ ["site-electric_load_mwh", "site-high_temperature_load_mwh", "site-low_temperature_load_mwh", "site-low_temperature_generation_mwh"],
      ∀ i, poolTable t V V' k i = V k i + V' k i := fun k hk i => by
    unfold poolTable
    have hk' : k ∈ siteColumns ∧ k ≠ "site-import_power_mwh" ∧ k ≠ "site-export_power_mwh" := by
      simp only [List.mem_cons, List.not_mem_nil, or_false] at hk
      rcases hk with rfl | rfl | rfl | rfl <;> decide
    rw [if_neg (site _ hk'.1), if_neg hk'.2.1, if_neg hk'.2.2, if_pos hk]
  have pr : ∀ k ∈ ["site-electricity_prices", "site-export_electricity_prices", "site-electricity_carbon_intensities", "site-gas_prices"],
      ∀ i, poolTable t V V' k i = V k i := fun k hk i => by
    unfold poolTable
    have hk' : k ∈ siteColumns ∧ k ≠ "site-import_power_mwh" ∧ k ≠ "site-export_power_mwh" ∧
        k ∉ ["site-electric_load_mwh", "site-high_temperature_load_mwh", "site-low_temperature_load_mwh", "site-low_temperature_generation_mwh"] := by
      simp only [List.mem_cons, List.not_mem_nil, or_false] at hk
      rcases hk with rfl | rfl | rfl | rfl <;> decide
    rw [if_neg (site _ hk'.1), if_neg hk'.2.1, if_neg hk'.2.2.1, if_neg hk'.2.2.2]
  have net : ∀ i, poolTable t V V' "site-import_power_mwh" i - poolTable t V V' "site-export_power_mwh" i =
      V "site-import_power_mwh" i + V' "site-import_power_mwh" i - (V "site-export_power_mwh" i + V' "site-export_power_mwh" i) ∧
      (poolTable t V V' "site-import_power_mwh" i = 0 ∨ poolTable t V V' "site-export_power_mwh" i = 0) := fun i => by
    have := net_parts (V "site-import_power_mwh" i + V' "site-import_power_mwh" i) (V "site-export_power_mwh" i + V' "site-export_power_mwh" i)
    rw [im, ex, sub_sub (V "site-import_power_mwh" i + V' "site-import_power_mwh" i), sub_sub (V "site-export_power_mwh" i + V' "site-export_power_mwh" i)]
    exact this
  refine ⟨⟨fun i hi => ?_, fun i hi => ?_⟩, fun i hi => ?_, fun i hi => ?_, fun i hi => (net i).2, fun i hi => ?_, fun i hi => ?_, fun i hi => ?_,
    fun a ha => ?_⟩
  · rw [pr _ (by simp), pr _ (by simp), pr _ (by simp), pr _ (by simp)]
    exact h.inputs.prices i hi
  · replace hi : i < s.data.n := hi
    have hi' : i < t.data.n := hn ▸ hi
    rw [ld _ (by simp), ld _ (by simp), ld _ (by simp), ld _ (by simp)]
    obtain ⟨a1, a2, a3, a4⟩ := h.inputs.loads i hi
    obtain ⟨b1, b2, b3, b4⟩ := h'.inputs.loads i hi'
    obtain ⟨r1, r2, r3, r4⟩ := hrow i hi
    obtain ⟨q1, q2, q3, q4⟩ := hrow' i hi'
    rw [a1, a2, a3, a4, b1, b2, b3, b4]
    exact ⟨(addEach_getD r1 q1).symm, (addEach_getD r2 q2).symm, (addEach_getD r3 q3).symm, (addEach_getD r4 q4).symm⟩
  · replace hi : i < s.data.n := hi
    have hi' : i < t.data.n := hn ▸ hi
    have a := h.imports i hi
    have b := h'.imports i hi'
    have c := h.exports i hi
    have d := h'.exports i hi'
    rw [im]
    refine ⟨le_max_right _ _, ?_⟩
    show _ ≤ (s.importLimit + t.importLimit) * s.freqMins / 60
    have e : (s.importLimit + t.importLimit) * s.freqMins / 60 = s.importLimit * s.freqMins / 60 + t.importLimit * t.freqMins / 60 := by
      rw [hal.freq]; ring
    rw [e]
    exact max_le (by linarith [a.2, b.2, c.1, d.1]) (by linarith [a.1, a.2, b.1, b.2])
  · replace hi : i < s.data.n := hi
    have hi' : i < t.data.n := hn ▸ hi
    have a := h.imports i hi
    have b := h'.imports i hi'
    have c := h.exports i hi
    have d := h'.exports i hi'
    rw [ex]
    refine ⟨le_max_right _ _, ?_⟩
    show _ ≤ (s.exportLimit + t.exportLimit) * s.freqMins / 60
    have e : (s.exportLimit + t.exportLimit) * s.freqMins / 60 = s.exportLimit * s.freqMins / 60 + t.exportLimit * t.freqMins / 60 := by
      rw [hal.freq]; ring
    rw [e]
    exact max_le (by linarith [a.1, b.1, c.2, d.2]) (by linarith [c.1, c.2, d.1, d.2])
  · replace hi : i < s.data.n := hi
    have a := h.electricity i hi
    have b := h'.electricity i (hn ▸ hi)
    rw [pool_sum hc hw hw', pool_sum hc hw hw', pool_sum hc hw hw', pool_sum hc hw hw', ld "site-electric_load_mwh" (by simp)]
    have := (net i).1
    linarith
  · replace hi : i < s.data.n := hi
    have a := h.high i hi
    have b := h'.high i (hn ▸ hi)
    rw [pool_sum hc hw hw', pool_sum hc hw hw', ld _ (by simp)]
    linarith
  · replace hi : i < s.data.n := hi
    have a := h.low i hi
    have b := h'.low i (hn ▸ hi)
    rw [pool_sum hc hw hw', pool_sum hc hw hw', ld _ (by simp), ld _ (by simp)]
    linarith
  · rcases List.mem_append.1 (show a ∈ s.assets ++ t.assets from ha) with ha | ha
    · exact plays_congr (s := s) (t := s.pooled t) rfl rfl (pool_left hc ha) (h.assets a ha)
    · exact plays_congr (s := t) (t := s.pooled t) hn hal.freq (pool_right ha) (h'.assets a ha)

theorem pool_values (hal : s.Alike t) (hc : (s.pooled t).ClearNames) (hw : ∀ a ∈ s.assets, a.WellNamed) (hw' : ∀ a ∈ t.assets, a.WellNamed)
    (h : s.Dispatch flags V) (h' : t.Dispatch flags V') :
    (s.NoArbitrage → (s.pooled t).readCost (poolTable t V V') ≤ s.readCost V + t.readCost V') ∧
    (s.pooled t).readEmissions (poolTable t V V') = s.readEmissions V + t.readEmissions V' ∧
    (s.pooled t).readSpill (poolTable t V V') = s.readSpill V + t.readSpill V' := by
  have site := fun k (hk : k ∈ siteColumns) => (pool_sites hc k hk).2
  have hn := hal.intervals
  have im : ∀ i, poolTable t V V' "site-import_power_mwh" i =
      max (V "site-import_power_mwh" i + V' "site-import_power_mwh" i - V "site-export_power_mwh" i - V' "site-export_power_mwh" i) 0 := fun i => by
    unfold poolTable
    rw [if_neg (site _ (by simp [siteColumns])), if_pos rfl]
  have ex : ∀ i, poolTable t V V' "site-export_power_mwh" i =
      max (V "site-export_power_mwh" i + V' "site-export_power_mwh" i - V "site-import_power_mwh" i - V' "site-import_power_mwh" i) 0 := fun i => by
    unfold poolTable
    rw [if_neg (site _ (by simp [siteColumns])), if_neg (by decide), if_pos rfl]
  have pr : ∀ k ∈ ["site-electricity_prices", "site-export_electricity_prices", "site-electricity_carbon_intensities", "site-gas_prices"],
      ∀ i, poolTable t V V' k i = V k i := fun k hk i => by
    unfold poolTable
    have hk' : k ∈ siteColumns ∧ k ≠ "site-import_power_mwh" ∧ k ≠ "site-export_power_mwh" ∧
        k ∉ ["site-electric_load_mwh", "site-high_temperature_load_mwh", "site-low_temperature_load_mwh", "site-low_temperature_generation_mwh"] := by
      simp only [List.mem_cons, List.not_mem_nil, or_false] at hk
      rcases hk with rfl | rfl | rfl | rfl <;> decide
    rw [if_neg (site _ hk'.1), if_neg hk'.2.1, if_neg hk'.2.2.1, if_neg hk'.2.2.2]
  unfold Site.readCost Site.readEmissions Site.readSpill Site.sumIntervals
  rw [hn]
  simp only [← list_sum_add]
  refine ⟨fun hp => List.sum_le_sum fun i hi => ?_, list_sum_congr fun i hi => ?_, list_sum_congr fun i hi => ?_⟩
  · replace hi : i < s.data.n := List.mem_range.1 hi
    have hi' : i < t.data.n := hn ▸ hi
    obtain ⟨a1, a2, a3, a4⟩ := h.inputs.prices i hi
    obtain ⟨b1, b2, b3, b4⟩ := h'.inputs.prices i hi'
    rw [im, ex, pr _ (by simp), pr _ (by simp), pr _ (by simp), pool_sum hc hw hw', a1, a2, a4, b1, b2, b4, hal.prices, hal.exportPrices, hal.gas]
    have := net_cost (h.imports i hi).1 (h'.imports i hi').1 (h.exports i hi).1 (h'.exports i hi').1 (hp i hi)
    linarith
  · replace hi : i < s.data.n := List.mem_range.1 hi
    have hi' : i < t.data.n := hn ▸ hi
    obtain ⟨a1, a2, a3, a4⟩ := h.inputs.prices i hi
    obtain ⟨b1, b2, b3, b4⟩ := h'.inputs.prices i hi'
    have := net_parts (V "site-import_power_mwh" i + V' "site-import_power_mwh" i) (V "site-export_power_mwh" i + V' "site-export_power_mwh" i)
    rw [im, ex, pr _ (by simp), pool_sum hc hw hw', a3, b3, hal.intensities, sub_sub (V "site-import_power_mwh" i + V' "site-import_power_mwh" i),
      sub_sub (V "site-export_power_mwh" i + V' "site-export_power_mwh" i), this.1]
    ring
  · show ((s.assets ++ t.assets).map _).sum = _
    rw [List.map_append, List.sum_append]
    congr 1
    · exact list_sum_congr fun a ha => rowSum_congr (fun k hk => (pool_left hc ha k (penalised_documented (hw a ha) hk)).symm) i
    · exact list_sum_congr fun a ha => rowSum_congr (fun k hk => (pool_right ha k (penalised_documented (hw' a ha) hk)).symm) i

end

end EPL
