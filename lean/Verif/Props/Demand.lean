/-
C77: how the optimum answers to prices: the law of demand, and averaged prices.
-/
import Verif.Props.Prices
import Verif.Spec.DemoDemand

namespace EPL

section
variable {s : Site} {flags : Flags} {S S' S'' : Solver} {r r' r'' : SimResult} {V V' V'' : String → Nat → ℚ} {q q' : Prices}

/-- The run of the site with prices seen from the site with other prices. -/
theorem other_prices {objective : Objective} (q : Prices) (h : Run s objective flags S r V) :
    ∃ q0, Run ((s.withPrices q).withPrices q0) objective flags S r V :=
  ⟨⟨s.data.electricityPrices, s.data.exportElectricityPrices, s.data.electricityCarbonIntensities, s.data.gasPrices⟩, h⟩

/-- One number of the sum that `C77_demand` is about. -/
theorem sum_one {n k : Nat} {g : Nat → ℚ} (hk : k < n) (h : ∀ i < n, i ≠ k → g i = 0) : ((List.range n).map g).sum = g k := by
  have e : ((List.range n).map g).sum = ((List.range n).map (fun i => if i = k then g k else 0)).sum := by
    apply list_sum_congr
    intro i hi
    rw [List.mem_range] at hi
    by_cases hik : i = k
    · rw [if_pos hik, hik]
    · rw [if_neg hik, h i hi hik]
  rw [e]
  clear e h
  induction n with
  | zero => omega
  | succ n ih =>
    rw [List.range_succ, List.map_append, List.sum_append]
    simp only [List.map_cons, List.map_nil, List.sum_cons, List.sum_nil, add_zero]
    by_cases hkn : k = n
    · subst hkn
      rw [if_pos rfl]
      have : ((List.range k).map (fun i => if i = k then g k else 0)).sum = ((List.range k).map (fun _ => (0 : ℚ))).sum := by
        apply list_sum_congr
        intro i hi
        rw [List.mem_range] at hi
        rw [if_neg (by omega)]
      rw [this]
      simp
    · rw [if_neg (Ne.symm hkn), add_zero]
      exact ih (by omega)

/-- C77: the law of demand.  Between two optima of the same plant under different prices, what is bought moves against its prices, in the sum over
imports, gas and (with the opposite sign) exports of all intervals. -/
theorem C77_demand (h : Run s (.str "price") flags S r V) (hS : S.Exact) (h' : Run (s.withPrices q) (.str "price") flags S' r' V') (hS' : S'.Exact)
    (hc : ∀ c ∈ s.constraints, c.PriceFree) (hg : ∀ a ∈ s.assets, a.GasTied) (hw : ∀ a ∈ s.assets, a.WellNamed) :
    s.sumIntervals (fun i =>
      (V' "site-import_power_mwh" i - V "site-import_power_mwh" i) * (V' "site-electricity_prices" i - V "site-electricity_prices" i)
      - (V' "site-export_power_mwh" i - V "site-export_power_mwh" i) * (V' "site-export_electricity_prices" i - V "site-export_electricity_prices" i)
      + (s.assetSum V' "gas_consumption_mwh" i - s.assetSum V "gas_consumption_mwh" i) * (V' "site-gas_prices" i - V "site-gas_prices" i)) ≤ 0 := by
  obtain ⟨q0, h2⟩ := other_prices q h
  have l1 := C62_foresight h' h2 hS hc hg hw
  have l2 := C62_foresight h h' hS' hc hg hw
  have e : ∀ W W', (s.withPrices q).readCostAt W W' = s.readCostAt W W' := fun _ _ => rfl
  have e' : ∀ W, (s.withPrices q).readSpill W = s.readSpill W := fun _ => rfl
  rw [e, e, e', e'] at l1
  have : s.sumIntervals (fun i =>
      (V' "site-import_power_mwh" i - V "site-import_power_mwh" i) * (V' "site-electricity_prices" i - V "site-electricity_prices" i)
      - (V' "site-export_power_mwh" i - V "site-export_power_mwh" i) * (V' "site-export_electricity_prices" i - V "site-export_electricity_prices" i)
      + (s.assetSum V' "gas_consumption_mwh" i - s.assetSum V "gas_consumption_mwh" i) * (V' "site-gas_prices" i - V "site-gas_prices" i)) =
      (s.readCostAt V' V' - s.readCostAt V V') - (s.readCostAt V' V - s.readCostAt V V) := by
    unfold Site.readCostAt Site.sumIntervals
    rw [← list_sum_sub, ← list_sum_sub, ← list_sum_sub]
    apply list_sum_congr
    intro i _
    ring
  rw [this]
  linarith

/-- C77: dearer imports in one interval, everything else equal: the site imports no more in that interval. -/
theorem C77_import (h : Run s (.str "price") flags S r V) (hS : S.Exact) (h' : Run (s.withPrices q) (.str "price") flags S' r' V') (hS' : S'.Exact)
    (hc : ∀ c ∈ s.constraints, c.PriceFree) (hg : ∀ a ∈ s.assets, a.GasTied) (hw : ∀ a ∈ s.assets, a.WellNamed) {k : Nat} (hk : k < s.data.n)
    (hlt : V "site-electricity_prices" k < V' "site-electricity_prices" k)
    (himp : ∀ i < s.data.n, i ≠ k → V' "site-electricity_prices" i = V "site-electricity_prices" i)
    (hexp : ∀ i < s.data.n, V' "site-export_electricity_prices" i = V "site-export_electricity_prices" i)
    (hgas : ∀ i < s.data.n, V' "site-gas_prices" i = V "site-gas_prices" i) : V' "site-import_power_mwh" k ≤ V "site-import_power_mwh" k := by
  have l := C77_demand h hS h' hS' hc hg hw
  unfold Site.sumIntervals at l
  rw [sum_one hk (fun i hi hik => by simp only [himp i hi hik, hexp i hi, hgas i hi, sub_self, mul_zero, add_zero])] at l
  simp only [hexp k hk, hgas k hk, sub_self, mul_zero, sub_zero, add_zero] at l
  by_contra hn
  rw [not_le] at hn
  have := mul_pos (sub_pos.2 hn) (sub_pos.2 hlt)
  linarith

/-- C77: better paid exports in one interval, everything else equal: the site exports no less in that interval. -/
theorem C77_export (h : Run s (.str "price") flags S r V) (hS : S.Exact) (h' : Run (s.withPrices q) (.str "price") flags S' r' V') (hS' : S'.Exact)
    (hc : ∀ c ∈ s.constraints, c.PriceFree) (hg : ∀ a ∈ s.assets, a.GasTied) (hw : ∀ a ∈ s.assets, a.WellNamed) {k : Nat} (hk : k < s.data.n)
    (hlt : V "site-export_electricity_prices" k < V' "site-export_electricity_prices" k)
    (hexp : ∀ i < s.data.n, i ≠ k → V' "site-export_electricity_prices" i = V "site-export_electricity_prices" i)
    (himp : ∀ i < s.data.n, V' "site-electricity_prices" i = V "site-electricity_prices" i)
    (hgas : ∀ i < s.data.n, V' "site-gas_prices" i = V "site-gas_prices" i) : V "site-export_power_mwh" k ≤ V' "site-export_power_mwh" k := by
  have l := C77_demand h hS h' hS' hc hg hw
  unfold Site.sumIntervals at l
  rw [sum_one hk (fun i hi hik => by simp only [himp i hi, hexp i hi hik, hgas i hi, sub_self, mul_zero, add_zero])] at l
  simp only [himp k hk, hgas k hk, sub_self, mul_zero, zero_sub, add_zero] at l
  by_contra hn
  rw [not_le] at hn
  have := mul_pos (sub_pos.2 hn) (sub_pos.2 hlt)
  linarith

/-- C77: dearer gas in one interval, everything else equal: the site burns no more gas in that interval. -/
theorem C77_gas (h : Run s (.str "price") flags S r V) (hS : S.Exact) (h' : Run (s.withPrices q) (.str "price") flags S' r' V') (hS' : S'.Exact)
    (hc : ∀ c ∈ s.constraints, c.PriceFree) (hg : ∀ a ∈ s.assets, a.GasTied) (hw : ∀ a ∈ s.assets, a.WellNamed) {k : Nat} (hk : k < s.data.n)
    (hlt : V "site-gas_prices" k < V' "site-gas_prices" k)
    (hgas : ∀ i < s.data.n, i ≠ k → V' "site-gas_prices" i = V "site-gas_prices" i)
    (himp : ∀ i < s.data.n, V' "site-electricity_prices" i = V "site-electricity_prices" i)
    (hexp : ∀ i < s.data.n, V' "site-export_electricity_prices" i = V "site-export_electricity_prices" i) :
    s.assetSum V' "gas_consumption_mwh" k ≤ s.assetSum V "gas_consumption_mwh" k := by
  have l := C77_demand h hS h' hS' hc hg hw
  unfold Site.sumIntervals at l
  rw [sum_one hk (fun i hi hik => by simp only [himp i hi, hexp i hi, hgas i hi hik, sub_self, mul_zero, add_zero])] at l
  simp only [himp k hk, hexp k hk, sub_self, mul_zero, zero_add] at l
  by_contra hn
  rw [not_le] at hn
  have := mul_pos (sub_pos.2 hn) (sub_pos.2 hlt)
  linarith

/-- C77: likewise for carbon: net imports move against the carbon intensities. -/
theorem C77_carbon (h : Run s (.str "carbon") flags S r V) (hS : S.Exact) (h' : Run (s.withPrices q) (.str "carbon") flags S' r' V') (hS' : S'.Exact)
    (hc : ∀ c ∈ s.constraints, c.PriceFree) (hg : ∀ a ∈ s.assets, a.GasTied) (hw : ∀ a ∈ s.assets, a.WellNamed) :
    s.sumIntervals (fun i =>
      ((V' "site-import_power_mwh" i - V' "site-export_power_mwh" i) - (V "site-import_power_mwh" i - V "site-export_power_mwh" i)) *
        (V' "site-electricity_carbon_intensities" i - V "site-electricity_carbon_intensities" i)) ≤ 0 := by
  obtain ⟨q0, h2⟩ := other_prices q h
  have l1 := C62_foresight_carbon h' h2 hS hc hg hw
  have l2 := C62_foresight_carbon h h' hS' hc hg hw
  have e : ∀ W W', (s.withPrices q).readEmissionsAt W W' = s.readEmissionsAt W W' := fun _ _ => rfl
  have e' : ∀ W, (s.withPrices q).readSpill W = s.readSpill W := fun _ => rfl
  rw [e, e, e', e'] at l1
  have : s.sumIntervals (fun i =>
      ((V' "site-import_power_mwh" i - V' "site-export_power_mwh" i) - (V "site-import_power_mwh" i - V "site-export_power_mwh" i)) *
        (V' "site-electricity_carbon_intensities" i - V "site-electricity_carbon_intensities" i)) =
      (s.readEmissionsAt V' V' - s.readEmissionsAt V V') - (s.readEmissionsAt V' V - s.readEmissionsAt V V) := by
    unfold Site.readEmissionsAt Site.sumIntervals
    rw [← list_sum_sub, ← list_sum_sub, ← list_sum_sub]
    apply list_sum_congr
    intro i _
    ring
  rw [this]
  linarith

/-- C77: averaged prices are never better than the average: if the prices of the third run are the average (with weights `1 - w` and `w`) of those of
the other two, its optimum is at least the average of theirs. -/
theorem C77_average {w : ℚ} (hw0 : 0 ≤ w) (hw1 : w ≤ 1)
    (h : Run s (.str "price") flags S r V) (hS : S.Exact) (h' : Run (s.withPrices q) (.str "price") flags S' r' V') (hS' : S'.Exact)
    (h'' : Run (s.withPrices q') (.str "price") flags S'' r'' V'')
    (hc : ∀ c ∈ s.constraints, c.PriceFree) (hg : ∀ a ∈ s.assets, a.GasTied) (hw : ∀ a ∈ s.assets, a.WellNamed)
    (himp : ∀ i < s.data.n, V'' "site-electricity_prices" i = (1 - w) * V "site-electricity_prices" i + w * V' "site-electricity_prices" i)
    (hexp : ∀ i < s.data.n, V'' "site-export_electricity_prices" i =
      (1 - w) * V "site-export_electricity_prices" i + w * V' "site-export_electricity_prices" i)
    (hgas : ∀ i < s.data.n, V'' "site-gas_prices" i = (1 - w) * V "site-gas_prices" i + w * V' "site-gas_prices" i) :
    (1 - w) * (s.readCost V + spillPenalty * s.readSpill V) + w * (s.readCost V' + spillPenalty * s.readSpill V') ≤
      s.readCost V'' + spillPenalty * s.readSpill V'' := by
  have h2 : Run ((s.withPrices q').withPrices
    ⟨s.data.electricityPrices, s.data.exportElectricityPrices, s.data.electricityCarbonIntensities, s.data.gasPrices⟩) (.str "price") flags S r V := h
  have h3 : Run ((s.withPrices q').withPrices q) (.str "price") flags S' r' V' := h'
  have l1 := C62_foresight h'' h2 hS hc hg hw
  have l2 := C62_foresight h'' h3 hS' hc hg hw
  have e : ∀ W W', (s.withPrices q').readCostAt W W' = s.readCostAt W W' := fun _ _ => rfl
  have e' : ∀ W, (s.withPrices q').readSpill W = s.readSpill W := fun _ => rfl
  rw [e, e, e', e'] at l1 l2
  have c1 : s.readCostAt V V = s.readCost V := rfl
  have c2 : s.readCostAt V' V' = s.readCost V' := rfl
  have c3 : s.readCost V'' = (1 - w) * s.readCostAt V'' V + w * s.readCostAt V'' V' := by
    unfold Site.readCost Site.readCostAt Site.sumIntervals
    rw [mul_comm (1 - w), mul_comm w, ← list_sum_mul_right, ← list_sum_mul_right, ← list_sum_add]
    apply list_sum_congr
    intro i hi
    rw [List.mem_range] at hi
    rw [himp i hi, hexp i hi, hgas i hi]
    ring
  rw [c3, ← c1, ← c2]
  have m1 := mul_le_mul_of_nonneg_left l1 (sub_nonneg.2 hw1)
  have m2 := mul_le_mul_of_nonneg_left l2 hw0
  linarith

end

/-! ### The hypotheses are met -/

theorem prices_read {e x c g : List ℚ} {o : Objective} {flags : Flags} {S : Solver} {r : SimResult} {V : String → Nat → ℚ}
    (h : Run (pricesSite e x c g) o flags S r V) : ∀ i < 2, V "site-electricity_prices" i = e.getD i 0 ∧
      V "site-export_electricity_prices" i = x.getD i 0 ∧ V "site-electricity_carbon_intensities" i = c.getD i 0 ∧ V "site-gas_prices" i = g.getD i 0 := by
  obtain ⟨p, σ, hco⟩ := h.core
  exact fun i hi => price_cells hco (i := i) hi

/-- C77: dearer imports in the first interval; and the average of two price series. -/
example : ∃ (s : Site) (q q' q'' : Prices) (S1 S2 S3 S4 : Solver) (r1 r2 r3 r4 : SimResult) (V1 V2 V3 V4 : String → Nat → ℚ),
    Run s (.str "price") {} S1 r1 V1 ∧ S1.Exact ∧ Run (s.withPrices q) (.str "price") {} S2 r2 V2 ∧ S2.Exact ∧
    Run (s.withPrices q') (.str "price") {} S3 r3 V3 ∧ S3.Exact ∧ Run (s.withPrices q'') (.str "price") {} S4 r4 V4 ∧
    (∀ c ∈ s.constraints, c.PriceFree) ∧ (∀ a ∈ s.assets, a.GasTied) ∧ (∀ a ∈ s.assets, a.WellNamed) ∧ 0 < s.data.n ∧
    V1 "site-electricity_prices" 0 < V2 "site-electricity_prices" 0 ∧
    (∀ i < s.data.n, i ≠ 0 → V2 "site-electricity_prices" i = V1 "site-electricity_prices" i) ∧
    (∀ i < s.data.n, V2 "site-export_electricity_prices" i = V1 "site-export_electricity_prices" i) ∧
    (∀ i < s.data.n, V2 "site-gas_prices" i = V1 "site-gas_prices" i) ∧
    (∀ i < s.data.n, V4 "site-electricity_prices" i = (1 - 1/2) * V1 "site-electricity_prices" i + 1/2 * V3 "site-electricity_prices" i) ∧
    (∀ i < s.data.n, V4 "site-export_electricity_prices" i =
      (1 - 1/2) * V1 "site-export_electricity_prices" i + 1/2 * V3 "site-export_electricity_prices" i) ∧
    (∀ i < s.data.n, V4 "site-gas_prices" i = (1 - 1/2) * V1 "site-gas_prices" i + 1/2 * V3 "site-gas_prices" i) ∧
    r1.status.objective = some 190 ∧ r2.status.objective = some 280 ∧ r3.status.objective = some 550 ∧ r4.status.objective = some 550 := by
  obtain ⟨s1, r1, V1, S1, hs1, hS1, h1, ht1⟩ := Demo.runOptimal demoPrices_forecast
  obtain ⟨s2, r2, V2, S2, hs2, hS2, h2, ht2⟩ := Demo.runOptimal demoPrices_dearer
  obtain ⟨s3, r3, V3, S3, hs3, hS3, h3, ht3⟩ := Demo.runOptimal demoPrices_actual
  obtain ⟨s4, r4, V4, S4, hs4, hS4, h4, ht4⟩ := Demo.runOptimal demoDemand_average
  simp only [pricesTest, Bool.and_eq_true, decide_eq_true_eq] at ht1 ht2 ht3 ht4
  have e1 := pricesSite_eq hs1 ht1.1.1 (by decide +kernel)
  have e2 := pricesSite_eq hs2 ht2.1.1 (by decide +kernel)
  have e3 := pricesSite_eq hs3 ht3.1.1 (by decide +kernel)
  have e4 := pricesSite_eq hs4 ht4.1.1 (by decide +kernel)
  subst e1 e2 e3 e4
  have p1 := prices_read h1
  have p2 := prices_read h2
  have p3 := prices_read h3
  have p4 := prices_read h4
  have two : ∀ {i : Nat}, i < 2 → i = 0 ∨ i = 1 := fun {i} hi => by omega
  refine ⟨pricesSite [10, 100] [10, 100] [9/10, 1/10] [20, 20], ⟨[20, 100], [10, 100], [9/10, 1/10], [20, 20]⟩,
    ⟨[100, 10], [100, 10], [9/10, 1/10], [20, 20]⟩, ⟨[55, 55], [55, 55], [9/10, 1/10], [20, 20]⟩,
    S1, S2, S3, S4, r1, r2, r3, r4, V1, V2, V3, V4, h1, hS1, h2, hS2, h3, hS3, h4, ?_, ?_, ?_, ?_, ?_, ?_, ?_, ?_, ?_, ?_, ?_,
    ht1.2, ht2.2, ht3.2, ht4.2⟩
  · intro c hc; simp [pricesSite] at hc
  · intro a ha; simp only [pricesSite, List.mem_singleton] at ha; subst ha; trivial
  · decide +kernel
  · decide
  · rw [(p1 0 (by omega)).1, (p2 0 (by omega)).1]; decide +kernel
  · intro i (hi : i < 2) h0
    obtain rfl : i = 1 := by omega
    rw [(p1 1 hi).1, (p2 1 hi).1]; rfl
  · intro i (hi : i < 2)
    rw [(p1 i hi).2.1, (p2 i hi).2.1]
  · intro i (hi : i < 2)
    rw [(p1 i hi).2.2.2, (p2 i hi).2.2.2]
  · intro i (hi : i < 2)
    rw [(p1 i hi).1, (p3 i hi).1, (p4 i hi).1]
    obtain rfl | rfl := two hi <;> decide +kernel
  · intro i (hi : i < 2)
    rw [(p1 i hi).2.1, (p3 i hi).2.1, (p4 i hi).2.1]
    obtain rfl | rfl := two hi <;> decide +kernel
  · intro i (hi : i < 2)
    rw [(p1 i hi).2.2.2, (p3 i hi).2.2.2, (p4 i hi).2.2.2]
    obtain rfl | rfl := two hi <;> decide +kernel

/-- C77: two series of carbon intensities. -/
example : ∃ (s : Site) (q : Prices) (S1 S2 : Solver) (r1 r2 : SimResult) (V1 V2 : String → Nat → ℚ),
    Run s (.str "carbon") {} S1 r1 V1 ∧ S1.Exact ∧ Run (s.withPrices q) (.str "carbon") {} S2 r2 V2 ∧ S2.Exact ∧
    (∀ c ∈ s.constraints, c.PriceFree) ∧ (∀ a ∈ s.assets, a.GasTied) ∧ (∀ a ∈ s.assets, a.WellNamed) ∧
    r1.status.objective = some 5 ∧ r2.status.objective = some (19/10) := by
  obtain ⟨s1, r1, V1, S1, hs1, hS1, h1, ht1⟩ := Demo.runOptimal demoPrices_carbon
  obtain ⟨s2, r2, V2, S2, hs2, hS2, h2, ht2⟩ := Demo.runOptimal demoDemand_clean
  simp only [pricesTest, Bool.and_eq_true, decide_eq_true_eq] at ht1 ht2
  have e1 := pricesSite_eq hs1 ht1.1.1 (by decide +kernel)
  have e2 := pricesSite_eq hs2 ht2.1.1 (by decide +kernel)
  subst e1 e2
  refine ⟨pricesSite [10, 100] [10, 100] [9/10, 1/10] [20, 20], ⟨[10, 100], [10, 100], [1/10, 1], [20, 20]⟩,
    S1, S2, r1, r2, V1, V2, h1, hS1, h2, hS2, ?_, ?_, ?_, ht1.2, ht2.2⟩
  · intro c hc; simp [pricesSite] at hc
  · intro a ha; simp only [pricesSite, List.mem_singleton] at ha; subst ha; trivial
  · decide +kernel

/-- The data of `demoBurn`. -/
def burnData (gas : ℚ) : SiteData :=
  { n := 1, electricityPrices := [10], exportElectricityPrices := [10], electricityCarbonIntensities := [1/10], gasPrices := [gas], electricLoad := [0],
    htLoad := [4], ltLoad := [0], ltGeneration := [0], custom := [] }

/-- The site of `demoBurn`. -/
def burnSite (gas : ℚ) : Site :=
  { assets := [.boiler defaultBoiler], data := burnData gas, freqMins := 60, importLimit := 10000, exportLimit := 10000, constraints := [] }

theorem burnSite_eq {gas : ℚ} {s : Site} (h : (demoBurn gas).site = .ok s)
    (ha : s.assets = [.boiler defaultBoiler]) (hd : (demoBurn gas).site.toOption.map Site.data = some (burnData gas)) :
    s = burnSite gas := by
  have n := site_new h
  rw [h] at hd
  replace hd : s.data = burnData gas := Option.some.inj hd
  obtain ⟨assets, data, f, il, el, cs⟩ := s
  have h1 := n.freq
  have h2 := n.importLimit
  have h3 := n.exportLimit
  have h4 := n.constraints
  simp only at ha hd h1 h2 h3 h4
  subst ha hd h1 h2 h3 h4
  rfl

/-- C77: dearer gas. -/
example : ∃ (s : Site) (q : Prices) (S1 S2 : Solver) (r1 r2 : SimResult) (V1 V2 : String → Nat → ℚ),
    Run s (.str "price") {} S1 r1 V1 ∧ S1.Exact ∧ Run (s.withPrices q) (.str "price") {} S2 r2 V2 ∧ S2.Exact ∧
    (∀ c ∈ s.constraints, c.PriceFree) ∧ (∀ a ∈ s.assets, a.GasTied) ∧ (∀ a ∈ s.assets, a.WellNamed) ∧ 0 < s.data.n ∧
    V1 "site-gas_prices" 0 < V2 "site-gas_prices" 0 ∧
    (∀ i < s.data.n, i ≠ 0 → V2 "site-gas_prices" i = V1 "site-gas_prices" i) ∧
    (∀ i < s.data.n, V2 "site-electricity_prices" i = V1 "site-electricity_prices" i) ∧
    (∀ i < s.data.n, V2 "site-export_electricity_prices" i = V1 "site-export_electricity_prices" i) ∧
    r1.status.objective = some 100 ∧ r2.status.objective = some 150 := by
  obtain ⟨s1, r1, V1, S1, hs1, hS1, h1, ht1⟩ := Demo.runOptimal demoBurn_cheap
  obtain ⟨s2, r2, V2, S2, hs2, hS2, h2, ht2⟩ := Demo.runOptimal demoBurn_dear
  simp only [burnTest, Bool.and_eq_true, decide_eq_true_eq] at ht1 ht2
  have e1 := burnSite_eq hs1 ht1.1 (by decide +kernel)
  have e2 := burnSite_eq hs2 ht2.1 (by decide +kernel)
  subst e1 e2
  obtain ⟨p, σ, hco⟩ := h1.core
  obtain ⟨p', σ', hco'⟩ := h2.core
  have c1 : ∀ i < 1, _ := fun i hi => price_cells hco (i := i) hi
  have c2 : ∀ i < 1, _ := fun i hi => price_cells hco' (i := i) hi
  refine ⟨burnSite 20, ⟨[10], [10], [1/10], [30]⟩, S1, S2, r1, r2, V1, V2, h1, hS1, h2, hS2, ?_, ?_, ?_, ?_, ?_, ?_, ?_, ?_, ht1.2, ht2.2⟩
  · intro c hc; simp [burnSite] at hc
  · intro a ha; simp only [burnSite, List.mem_singleton] at ha; subst ha; trivial
  · decide +kernel
  · decide
  · rw [(c1 0 (by omega)).2.2.2, (c2 0 (by omega)).2.2.2]; decide +kernel
  · intro i (hi : i < 1) h0; omega
  · intro i (hi : i < 1)
    rw [(c1 i hi).1, (c2 i hi).1]; rfl
  · intro i (hi : i < 1)
    rw [(c1 i hi).2.1, (c2 i hi).2.1]; rfl

end EPL
