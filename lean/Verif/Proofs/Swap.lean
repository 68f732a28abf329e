/-
Replacing some assets of a site by others: what happens to a dispatch and its cost.
-/
import Verif.Proofs.Margin
import Verif.Spec.Swap

namespace EPL

/-- A flow of some assets. -/
def flowOf (A : List Asset) (W : String → Nat → ℚ) (q : String) (i : Nat) : ℚ := (A.map (fun a => rowSum W (a.reports q) i)).sum

/-- The penalised energy of some assets. -/
def penaltyOf (A : List Asset) (W : String → Nat → ℚ) (i : Nat) : ℚ := (A.map (fun a => rowSum W a.penalised i)).sum

section
variable {s : Site} {flags : Flags} {W W' : String → Nat → ℚ} {l l' A B : List Asset}

theorem swap_flow (hs : s.assets.Perm (l ++ A)) (q : String) (i : Nat) : s.assetSum W q i = flowOf l W q i + flowOf A W q i := by
  unfold Site.assetSum flowOf
  rw [(hs.map _).sum_eq, List.map_append, List.sum_append]

theorem swap_penalty (hs : s.assets.Perm (l ++ A)) (i : Nat) : (s.assets.map (fun a => rowSum W a.penalised i)).sum = penaltyOf l W i + penaltyOf A W i := by
  unfold penaltyOf
  rw [(hs.map _).sum_eq, List.map_append, List.sum_append]

/-- The new table differs from the old one only in the columns of the new assets. -/
structure Swaps (l B : List Asset) (t : Site) (W W' : String → Nat → ℚ) : Prop where
  perm : t.assets.Perm (l ++ B)
  clear : t.ClearNames
  named : ∀ a ∈ t.assets, a.WellNamed
  off : ∀ k, (∀ b ∈ B, k ∉ b.documentedColumns) → W' k = W k

theorem swaps_site (h : Swaps l B s W W') {k : String} (hk : k ∈ siteColumns) : W' k = W k :=
  h.off k fun _ hb => site_column h.clear hk (h.perm.mem_iff.2 (List.mem_append_right _ hb))

theorem swaps_rest (h : Swaps l B s W W') {a : Asset} (ha : a ∈ l) {k : String} (hk : k ∈ a.documentedColumns) : W' k = W k := by
  refine h.off k fun b hb => column_asset h.clear (h.perm.mem_iff.2 (List.mem_append_left _ ha)) (h.perm.mem_iff.2 (List.mem_append_right _ hb)) ?_ hk
  rintro rfl
  have := (h.perm.nodup_iff.1 (assets_nodup h.clear))
  exact (List.nodup_append.1 this).2.2 b ha b hb rfl

theorem swaps_named (h : Swaps l B s W W') {a : Asset} (ha : a ∈ l) : a.WellNamed := h.named a (h.perm.mem_iff.2 (List.mem_append_left _ ha))

theorem swaps_flow (h : Swaps l B s W W') (q : String) (i : Nat) : flowOf l W' q i = flowOf l W q i :=
  list_sum_congr fun _ ha => list_sum_congr fun _ hk => by rw [swaps_rest h ha (reports_documented (swaps_named h ha) hk)]

theorem swaps_penalty (h : Swaps l B s W W') (i : Nat) : penaltyOf l W' i = penaltyOf l W i :=
  list_sum_congr fun _ ha => list_sum_congr fun _ hk => by rw [swaps_rest h ha (penalised_documented (swaps_named h ha) hk)]

/-- The new dispatch. -/
theorem swap_dispatch (hs : s.assets.Perm (l ++ A)) (ht : Swaps l B (s.withAssets l') W W') (h : s.Dispatch flags W)
    (hsum : ∀ q, q ≠ "gas_consumption_mwh" → ∀ i < s.data.n, flowOf B W' q i = flowOf A W q i) (hplay : ∀ b ∈ B, b.Plays s flags W') :
    (s.withAssets l').Dispatch flags W' := by
  have site : ∀ k ∈ siteColumns, W' k = W k := fun k hk => swaps_site ht hk
  have e1 := site "site-import_power_mwh" (by simp [siteColumns])
  have e2 := site "site-export_power_mwh" (by simp [siteColumns])
  have e3 := site "site-electricity_prices" (by simp [siteColumns])
  have e4 := site "site-export_electricity_prices" (by simp [siteColumns])
  have e5 := site "site-electricity_carbon_intensities" (by simp [siteColumns])
  have e6 := site "site-gas_prices" (by simp [siteColumns])
  have e7 := site "site-electric_load_mwh" (by simp [siteColumns])
  have e8 := site "site-high_temperature_load_mwh" (by simp [siteColumns])
  have e9 := site "site-low_temperature_load_mwh" (by simp [siteColumns])
  have e10 := site "site-low_temperature_generation_mwh" (by simp [siteColumns])
  have sum : ∀ q, q ≠ "gas_consumption_mwh" → ∀ i < s.data.n, (s.withAssets l').assetSum W' q i = s.assetSum W q i := fun q hq i hi => by
    rw [swap_flow ht.perm, swap_flow hs, swaps_flow ht, hsum q hq i hi]
  refine ⟨⟨fun i hi => ?_, fun i hi => ?_⟩, fun i hi => ?_, fun i hi => ?_, fun i hi => ?_, fun i hi => ?_, fun i hi => ?_, fun i hi => ?_, fun a ha => ?_⟩
  · rw [e3, e4, e5, e6]; exact h.inputs.prices i hi
  · rw [e7, e8, e9, e10]; exact h.inputs.loads i hi
  · rw [e1]; exact h.imports i hi
  · rw [e2]; exact h.exports i hi
  · rw [e1, e2]; exact h.oneWay i hi
  · rw [sum _ (by decide) i hi, sum _ (by decide) i hi, sum _ (by decide) i hi, sum _ (by decide) i hi, e1, e2, e7]; exact h.electricity i hi
  · rw [sum _ (by decide) i hi, sum _ (by decide) i hi, e8]; exact h.high i hi
  · rw [sum _ (by decide) i hi, sum _ (by decide) i hi, e9, e10]; exact h.low i hi
  · rcases List.mem_append.1 (ht.perm.mem_iff.1 ha) with hl | hb
    · exact plays_congr (s := s) rfl rfl (fun k hk => (swaps_rest ht hl hk).symm) (h.assets a (hs.mem_iff.2 (List.mem_append_left _ hl)))
    · exact plays_congr (s := s) rfl rfl (fun _ _ => rfl) (hplay a hb)

/-- The difference in gas costs. -/
theorem swap_cost (hs : s.assets.Perm (l ++ A)) (ht : Swaps l B (s.withAssets l') W W') (h : s.Dispatch flags W) :
    (s.withAssets l').readCost W' = s.readCost W + s.sumIntervals (fun i =>
      (flowOf B W' "gas_consumption_mwh" i - flowOf A W "gas_consumption_mwh" i) * s.data.gasPrices.getD i 0) := by
  have site : ∀ k ∈ siteColumns, W' k = W k := fun k hk => swaps_site ht hk
  unfold Site.readCost Site.sumIntervals
  rw [← list_sum_add]
  refine list_sum_congr fun i hi => ?_
  rw [swap_flow ht.perm, swap_flow hs, swaps_flow ht, site "site-import_power_mwh" (by simp [siteColumns]), site "site-export_power_mwh" (by simp [siteColumns]),
    site "site-electricity_prices" (by simp [siteColumns]), site "site-export_electricity_prices" (by simp [siteColumns]),
    site "site-gas_prices" (by simp [siteColumns]), (h.inputs.prices i (List.mem_range.1 hi)).2.2.2]
  ring

/-- The difference in emissions. -/
theorem swap_emissions (hs : s.assets.Perm (l ++ A)) (ht : Swaps l B (s.withAssets l') W W') :
    (s.withAssets l').readEmissions W' = s.readEmissions W + s.sumIntervals (fun i =>
      (flowOf B W' "gas_consumption_mwh" i - flowOf A W "gas_consumption_mwh" i) * (185 / 1000)) := by
  have site : ∀ k ∈ siteColumns, W' k = W k := fun k hk => swaps_site ht hk
  unfold Site.readEmissions Site.sumIntervals
  rw [← list_sum_add]
  refine list_sum_congr fun i hi => ?_
  rw [swap_flow ht.perm, swap_flow hs, swaps_flow ht, site "site-import_power_mwh" (by simp [siteColumns]), site "site-export_power_mwh" (by simp [siteColumns]),
    site "site-electricity_carbon_intensities" (by simp [siteColumns])]
  ring

/-- The penalised energy stays. -/
theorem swap_spill (hs : s.assets.Perm (l ++ A)) (ht : Swaps l B (s.withAssets l') W W') (hp : ∀ i < s.data.n, penaltyOf B W' i = penaltyOf A W i) :
    (s.withAssets l').readSpill W' = s.readSpill W := by
  unfold Site.readSpill Site.sumIntervals
  refine list_sum_congr fun i hi => ?_
  rw [swap_penalty ht.perm, swap_penalty hs, swaps_penalty ht, hp i (List.mem_range.1 hi)]

theorem list_nonpos {α : Type} {l : List α} {g : α → ℚ} (h : ∀ i ∈ l, g i ≤ 0) : (l.map g).sum ≤ 0 := by
  induction l with
  | nil => simp
  | cons a l ih =>
    rw [List.map_cons, List.sum_cons]
    have h1 := h a (by simp)
    have h2 := ih fun i hi => h i (List.mem_cons_of_mem _ hi)
    linarith

theorem sumIntervals_nonpos {g : Nat → ℚ} (h : ∀ i < s.data.n, g i ≤ 0) : s.sumIntervals g ≤ 0 :=
  list_nonpos fun i hi => h i (List.mem_range.1 hi)

/-- With no more gas the site costs no more. -/
theorem swap_cheaper (hs : s.assets.Perm (l ++ A)) (ht : Swaps l B (s.withAssets l') W W') (h : s.Dispatch flags W)
    (hp : ∀ i < s.data.n, penaltyOf B W' i = penaltyOf A W i)
    (hgas : ∀ i < s.data.n, flowOf B W' "gas_consumption_mwh" i ≤ flowOf A W "gas_consumption_mwh" i) (hpr : ∀ i < s.data.n, 0 ≤ s.data.gasPrices.getD i 0) :
    (s.withAssets l').readCost W' + spillPenalty * (s.withAssets l').readSpill W' ≤ s.readCost W + spillPenalty * s.readSpill W := by
  rw [swap_spill hs ht hp, swap_cost hs ht h]
  have := sumIntervals_nonpos (s := s) (g := fun i => (flowOf B W' "gas_consumption_mwh" i - flowOf A W "gas_consumption_mwh" i) * s.data.gasPrices.getD i 0)
    fun i hi => mul_nonpos_of_nonpos_of_nonneg (by linarith [hgas i hi]) (hpr i hi)
  linarith

/-- With the same gas it costs the same. -/
theorem swap_same (hs : s.assets.Perm (l ++ A)) (ht : Swaps l B (s.withAssets l') W W') (h : s.Dispatch flags W)
    (hp : ∀ i < s.data.n, penaltyOf B W' i = penaltyOf A W i)
    (hgas : ∀ i < s.data.n, flowOf B W' "gas_consumption_mwh" i = flowOf A W "gas_consumption_mwh" i) :
    (s.withAssets l').readCost W' + spillPenalty * (s.withAssets l').readSpill W' = s.readCost W + spillPenalty * s.readSpill W ∧
    (s.withAssets l').readEmissions W' + spillPenalty * (s.withAssets l').readSpill W' = s.readEmissions W + spillPenalty * s.readSpill W := by
  rw [swap_spill hs ht hp, swap_cost hs ht h, swap_emissions hs ht]
  constructor
  · have : s.sumIntervals (fun i => (flowOf B W' "gas_consumption_mwh" i - flowOf A W "gas_consumption_mwh" i) * s.data.gasPrices.getD i 0) = 0 :=
      list_sum_zero fun i hi => by rw [hgas i (List.mem_range.1 hi), sub_self, zero_mul]
    rw [this, add_zero]
  · have : s.sumIntervals (fun i => (flowOf B W' "gas_consumption_mwh" i - flowOf A W "gas_consumption_mwh" i) * (185 / 1000)) = 0 :=
      list_sum_zero fun i hi => by rw [hgas i (List.mem_range.1 hi), sub_self, zero_mul]
    rw [this, add_zero]

/-- With no more gas the site emits no more. -/
theorem swap_greener (hs : s.assets.Perm (l ++ A)) (ht : Swaps l B (s.withAssets l') W W')
    (hp : ∀ i < s.data.n, penaltyOf B W' i = penaltyOf A W i)
    (hgas : ∀ i < s.data.n, flowOf B W' "gas_consumption_mwh" i ≤ flowOf A W "gas_consumption_mwh" i) :
    (s.withAssets l').readEmissions W' + spillPenalty * (s.withAssets l').readSpill W' ≤ s.readEmissions W + spillPenalty * s.readSpill W := by
  rw [swap_spill hs ht hp, swap_emissions hs ht]
  have := sumIntervals_nonpos (s := s) (g := fun i => (flowOf B W' "gas_consumption_mwh" i - flowOf A W "gas_consumption_mwh" i) * (185 / 1000))
    fun i hi => mul_nonpos_of_nonpos_of_nonneg (by linarith [hgas i hi]) (by norm_num)
  linarith

end

/-! ### Tables with some columns replaced -/

/-- The table with another column. -/
def put (k : String) (f : Nat → ℚ) (W : String → Nat → ℚ) : String → Nat → ℚ := fun k' => if k' = k then f else W k'

theorem put_at (k : String) (f : Nat → ℚ) (W : String → Nat → ℚ) : put k f W k = f := if_pos rfl

theorem put_off {k k' : String} (f : Nat → ℚ) (W : String → Nat → ℚ) (h : k' ≠ k) : put k f W k' = W k' := if_neg h

end EPL
