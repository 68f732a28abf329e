/-
C61, C62, C63: the same plant for price and for carbon, under forecast and actual prices, and under higher prices.
-/
import Verif.Proofs.Prices
import Verif.Props.Accounts
import Verif.Props.Growth
import Verif.Spec.DemoPrices

namespace EPL

section
variable {s : Site} {objective : Objective} {flags : Flags} {S S' : Solver} {r r' : SimResult} {V V' : String → Nat → ℚ} {q : Prices}

theorem withPrices_self (s : Site) :
    s.withPrices ⟨s.data.electricityPrices, s.data.exportElectricityPrices, s.data.electricityCarbonIntensities, s.data.gasPrices⟩ = s := rfl

/-- The cost of the dispatch of one run at the prices of another one. -/
theorem cost_at {p p' : Prob} {σ σ' : Assign} {objective' : Objective} (h : Core s objective flags S r V p σ)
    (h' : Core (s.withPrices q) objective' flags S' r' V' p' σ') (hw : ∀ a ∈ s.assets, a.WellNamed) :
    (s.withPrices q).costOf σ = s.readCostAt V V' ∧ (s.withPrices q).emissionsOf σ = s.readEmissionsAt V V' := by
  unfold Site.costOf Site.readCostAt Site.emissionsOf Site.readEmissionsAt Site.sumIntervals
  constructor <;>
  · apply list_sum_congr
    intro i hi
    rw [List.mem_range] at hi
    obtain ⟨e1, e2, e3, e4⟩ := price_cells h' hi
    simp only [e1, e2, e3, e4, h.import_cell hi, h.export_cell hi, gas_read h hw hi]
    rfl

theorem spill_at {p : Prob} {σ : Assign} (h : Core s objective flags S r V p σ) (hw : ∀ a ∈ s.assets, a.WellNamed) :
    s.spillOf flags σ = s.readSpill V := by
  unfold Site.spillOf Site.readSpill Site.sumIntervals
  apply list_sum_congr
  intro i hi
  rw [List.mem_range] at hi
  exact (spill_read h hw hi).symm

/-- The cost of the dispatch of any run is at least the one of an exact run for price at the prices of the latter. -/
theorem price_cross (h : Run s objective flags S r V) (h' : Run (s.withPrices q) (.str "price") flags S' r' V') (hS' : S'.Exact)
    (hc : s.Unpriced q) (hg : ∀ a ∈ s.assets, a.GasTied) (hw : ∀ a ∈ s.assets, a.WellNamed) :
    s.readCostAt V' V' + spillPenalty * s.readSpill V' ≤ s.readCostAt V V' + spillPenalty * s.readSpill V := by
  obtain ⟨p, σ, hco⟩ := h.core
  obtain ⟨p', σ', hco'⟩ := h'.core
  have hf := prices_feasible hc hg hco.program hco'.program hco.feas
  have hle := (core_optimal hco' hS' h'.feasible).2 σ hf
  rw [C40_price hco'.program, C40_price hco'.program, (cost_at hco hco' hw).1] at hle
  have e1 : (s.withPrices q).costOf σ' = s.readCostAt V' V' := (cost_at (q := q) hco' hco' hw).1
  have e2 : (s.withPrices q).spillOf flags σ' = s.readSpill V' := spill_at hco' hw
  have e3 : s.spillOf flags σ = s.readSpill V := spill_at hco hw
  have e4 : (s.withPrices q).spillOf flags σ = s.spillOf flags σ := rfl
  rw [e1, e2, e4, e3] at hle
  exact hle

/-- Likewise for carbon. -/
theorem carbon_cross (h : Run s objective flags S r V) (h' : Run (s.withPrices q) (.str "carbon") flags S' r' V') (hS' : S'.Exact)
    (hc : s.Unpriced q) (hg : ∀ a ∈ s.assets, a.GasTied) (hw : ∀ a ∈ s.assets, a.WellNamed) :
    s.readEmissionsAt V' V' + spillPenalty * s.readSpill V' ≤ s.readEmissionsAt V V' + spillPenalty * s.readSpill V := by
  obtain ⟨p, σ, hco⟩ := h.core
  obtain ⟨p', σ', hco'⟩ := h'.core
  have hf := prices_feasible hc hg hco.program hco'.program hco.feas
  have hle := (core_optimal hco' hS' h'.feasible).2 σ hf
  rw [C41_carbon hco'.program, C41_carbon hco'.program, (cost_at hco hco' hw).2] at hle
  have e1 : (s.withPrices q).emissionsOf σ' = s.readEmissionsAt V' V' := (cost_at (q := q) hco' hco' hw).2
  have e2 : (s.withPrices q).spillOf flags σ' = s.readSpill V' := spill_at hco' hw
  have e3 : s.spillOf flags σ = s.readSpill V := spill_at hco hw
  have e4 : (s.withPrices q).spillOf flags σ = s.spillOf flags σ := rfl
  rw [e1, e2, e4, e3] at hle
  exact hle

/-- Two runs of the same site have the same prices. -/
theorem own_prices {objective' : Objective} {flags' : Flags} (h : Run s objective flags S r V) (h' : Run s objective' flags' S' r' V') :
    s.readCostAt V V' = s.readCost V ∧ s.readEmissionsAt V V' = s.readEmissions V := by
  obtain ⟨p, σ, hco⟩ := h.core
  obtain ⟨p', σ', hco'⟩ := h'.core
  unfold Site.readCostAt Site.readCost Site.readEmissionsAt Site.readEmissions Site.sumIntervals
  constructor <;>
  · apply list_sum_congr
    intro i hi
    rw [List.mem_range] at hi
    obtain ⟨e1, e2, e3, e4⟩ := price_cells hco hi
    obtain ⟨f1, f2, f3, f4⟩ := price_cells hco' hi
    simp only [e1, e2, e3, e4, f1, f2, f3, f4]

/-! ### C61 -/

/-- C61: no dispatch of a site, for whatever objective, costs less than the one for price. -/
theorem C61_price (h : Run s objective flags S r V) (h' : Run s (.str "price") flags S' r' V') (hS' : S'.Exact)
    (hg : ∀ a ∈ s.assets, a.GasTied) (hw : ∀ a ∈ s.assets, a.WellNamed) :
    s.readCost V' + spillPenalty * s.readSpill V' ≤ s.readCost V + spillPenalty * s.readSpill V := by
  have := price_cross (q := ⟨s.data.electricityPrices, s.data.exportElectricityPrices, s.data.electricityCarbonIntensities, s.data.gasPrices⟩)
    h h' hS' (fun _ _ _ => rfl) hg hw
  rw [(own_prices h h').1] at this
  exact this

/-- C61: no dispatch of a site, for whatever objective, emits less than the one for carbon. -/
theorem C61_carbon (h : Run s objective flags S r V) (h' : Run s (.str "carbon") flags S' r' V') (hS' : S'.Exact)
    (hg : ∀ a ∈ s.assets, a.GasTied) (hw : ∀ a ∈ s.assets, a.WellNamed) :
    s.readEmissions V' + spillPenalty * s.readSpill V' ≤ s.readEmissions V + spillPenalty * s.readSpill V := by
  have := carbon_cross (q := ⟨s.data.electricityPrices, s.data.exportElectricityPrices, s.data.electricityCarbonIntensities, s.data.gasPrices⟩)
    h h' hS' (fun _ _ _ => rfl) hg hw
  rw [(own_prices h h').2] at this
  exact this

/-! ### C62 -/

/-- C62: dispatching with perfect foresight costs, at the actual prices, no more than any dispatch made with other prices (or for another
objective). -/
theorem C62_foresight (h : Run s objective flags S r V) (h' : Run (s.withPrices q) (.str "price") flags S' r' V') (hS' : S'.Exact)
    (hc : ∀ c ∈ s.constraints, c.PriceFree) (hg : ∀ a ∈ s.assets, a.GasTied) (hw : ∀ a ∈ s.assets, a.WellNamed) :
    s.readCostAt V' V' + spillPenalty * s.readSpill V' ≤ s.readCostAt V V' + spillPenalty * s.readSpill V :=
  price_cross h h' hS' (unpriced_of_free hc) hg hw

/-- C62: likewise for emissions at the actual carbon intensities. -/
theorem C62_foresight_carbon (h : Run s objective flags S r V) (h' : Run (s.withPrices q) (.str "carbon") flags S' r' V') (hS' : S'.Exact)
    (hc : ∀ c ∈ s.constraints, c.PriceFree) (hg : ∀ a ∈ s.assets, a.GasTied) (hw : ∀ a ∈ s.assets, a.WellNamed) :
    s.readEmissionsAt V' V' + spillPenalty * s.readSpill V' ≤ s.readEmissionsAt V V' + spillPenalty * s.readSpill V :=
  carbon_cross h h' hS' (unpriced_of_free hc) hg hw

/-- The cost in the accounts of a dispatch at the prices of another run, where exports fetch the import price. -/
theorem accounts_at {objective' : Objective} {a : Accounts} {validate : Bool} (h : Run s objective flags S r V)
    (h' : Run (s.withPrices q) objective' flags S' r' V') (hw : ∀ a ∈ s.assets, a.WellNamed) (hp : s.PlainNames)
    (ha : getAccounts r.results (some r'.results) none validate = .ok a)
    (he : ∀ i < s.data.n, V' "site-export_electricity_prices" i = V' "site-electricity_prices" i) :
    a.cost = s.readCostAt V V' := by
  have hf' : r'.results.Frame s.data.n V' := by
    have f := run_frame h'
    exact f
  have ho := C46_accounts (run_frame h) hf' ha
  have hs := C47_accounts_add_up ha
  rw [hs.1, ho.importCost, ho.exportCost, ho.gasCost, hs.2.2.2.2 rfl, min_self, add_zero]
  unfold Site.readCostAt Site.sumIntervals priced
  rw [← sub_eq_add_neg, ← list_sum_sub, ← list_sum_add]
  apply list_sum_congr
  intro i hi
  rw [List.mem_range] at hi
  rw [he i hi, gas_total h hw hp hi]
  ring

/-- C62 in the accounts: the account of a forecast dispatch at the actual prices is at least the one of the dispatch with perfect foresight, as
far as neither spills; where the export price is the import price. -/
theorem C62_accounts {a a' : Accounts} {validate validate' : Bool} (h : Run s objective flags S r V)
    (h' : Run (s.withPrices q) (.str "price") flags S' r' V') (hS' : S'.Exact)
    (hc : ∀ c ∈ s.constraints, c.PriceFree) (hg : ∀ a ∈ s.assets, a.GasTied) (hw : ∀ a ∈ s.assets, a.WellNamed) (hp : s.PlainNames)
    (he : ∀ i < s.data.n, V' "site-export_electricity_prices" i = V' "site-electricity_prices" i)
    (ha : getAccounts r.results (some r'.results) none validate = .ok a) (ha' : getAccounts r'.results none none validate' = .ok a') :
    a'.cost + spillPenalty * s.readSpill V' ≤ a.cost + spillPenalty * s.readSpill V := by
  have ha2 : getAccounts r'.results (some r'.results) none validate' = .ok a' := ha'
  have hp' : (s.withPrices q).PlainNames := ⟨hp.assets, hp.custom⟩
  have e : a'.cost = s.readCostAt V' V' := accounts_at (s := s.withPrices q) (q := q) h' h' hw hp' ha2 he
  rw [accounts_at h h' hw hp ha he, e]
  exact C62_foresight h h' hS' hc hg hw

/-! ### C63 -/

theorem gas_nonneg {p : Prob} {σ : Assign} (h : Core s objective flags S r V p σ) (hg : ∀ a ∈ s.assets, a.GasTied) {i : Nat} (hi : i < s.data.n) :
    0 ≤ s.gasOf σ i := by
  apply List.sum_nonneg
  intro x hx
  obtain ⟨a, ha, rfl⟩ := List.mem_map.1 hx
  have key : ∀ (v : LpVar) (o : OneInterval), o ∈ a.ois i s.freq flags → o.base.gasConsumption = .var v → v.low = some 0 → 0 ≤ σ v.id := by
    intro v o ho hv hl
    have hm := (ones_traded h.prog hg _ (List.mem_map.2 ⟨i, List.mem_range.2 hi, rfl⟩) o (ois_mem_ones h.prog ha hi ho)).gasConsumption
    rw [hv] at hm
    exact (h.feas.2 v hm).1 0 hl
  cases a with
  | chp c => exact key (c.oneInterval i s.freq).gas (.chp (c.oneInterval i s.freq)) (by simp [Asset.ois, Asset.oneInterval]) rfl rfl
  | boiler c => exact key (c.oneInterval i s.freq).gas (.boiler (c.oneInterval i s.freq)) (by simp [Asset.ois, Asset.oneInterval]) rfl rfl
  | _ => exact le_refl _

/-- C63: higher prices never lower the optimum: with import and gas prices at least as high and export prices at most as high in every
interval, the cost with penalties is at least as high. -/
theorem C63_dearer (h : Run s (.str "price") flags S r V) (hS : S.Exact) (h' : Run (s.withPrices q) (.str "price") flags S' r' V')
    (hc : ∀ c ∈ s.constraints, c.PriceFree) (hg : ∀ a ∈ s.assets, a.GasTied) (hw : ∀ a ∈ s.assets, a.WellNamed)
    (himp : ∀ i < s.data.n, V "site-electricity_prices" i ≤ V' "site-electricity_prices" i)
    (hexp : ∀ i < s.data.n, V' "site-export_electricity_prices" i ≤ V "site-export_electricity_prices" i)
    (hgas : ∀ i < s.data.n, V "site-gas_prices" i ≤ V' "site-gas_prices" i) :
    s.readCost V + spillPenalty * s.readSpill V ≤ s.readCost V' + spillPenalty * s.readSpill V' := by
  have h2 : Run ((s.withPrices q).withPrices
    ⟨s.data.electricityPrices, s.data.exportElectricityPrices, s.data.electricityCarbonIntensities, s.data.gasPrices⟩) (.str "price") flags S r V := h
  have hle := price_cross h' h2 hS (unpriced_of_free hc) hg hw
  have e : ∀ W W', (s.withPrices q).readCostAt W W' = s.readCostAt W W' := fun _ _ => rfl
  have e' : ∀ W, (s.withPrices q).readSpill W = s.readSpill W := fun _ => rfl
  rw [e, e, e', e'] at hle
  refine le_trans hle (add_le_add_left ?_ _)
  unfold Site.readCostAt Site.readCost Site.sumIntervals
  apply List.sum_le_sum
  intro i hi
  rw [List.mem_range] at hi
  obtain ⟨p', σ', hco'⟩ := h'.core
  obtain ⟨a1, _, a2, _⟩ := C04_site_limits h' (i := i) hi
  have a3 : 0 ≤ s.assetSum V' "gas_consumption_mwh" i := by
    have := gas_read hco' hw (i := i) hi
    have e2 : (s.withPrices q).assetSum V' "gas_consumption_mwh" i = s.assetSum V' "gas_consumption_mwh" i := rfl
    rw [← e2, this]
    exact gas_nonneg hco' hg hi
  have b1 := mul_le_mul_of_nonneg_left (himp i hi) a1
  have b2 := mul_le_mul_of_nonneg_left (hexp i hi) a2
  have b3 := mul_le_mul_of_nonneg_left (hgas i hi) a3
  linarith

/-- C63: if all prices are multiplied by the same positive factor and neither optimum spills, the optimal cost is multiplied by it. -/
theorem C63_scaled {k : ℚ} (hk : 0 < k) (h : Run s (.str "price") flags S r V) (hS : S.Exact)
    (h' : Run (s.withPrices q) (.str "price") flags S' r' V') (hS' : S'.Exact)
    (hc : ∀ c ∈ s.constraints, c.PriceFree) (hg : ∀ a ∈ s.assets, a.GasTied) (hw : ∀ a ∈ s.assets, a.WellNamed)
    (himp : ∀ i < s.data.n, V' "site-electricity_prices" i = k * V "site-electricity_prices" i)
    (hexp : ∀ i < s.data.n, V' "site-export_electricity_prices" i = k * V "site-export_electricity_prices" i)
    (hgas : ∀ i < s.data.n, V' "site-gas_prices" i = k * V "site-gas_prices" i)
    (h0 : s.readSpill V = 0) (h0' : s.readSpill V' = 0) : s.readCost V' = k * s.readCost V := by
  have h2 : Run ((s.withPrices q).withPrices
    ⟨s.data.electricityPrices, s.data.exportElectricityPrices, s.data.electricityCarbonIntensities, s.data.gasPrices⟩) (.str "price") flags S r V := h
  have l1 := price_cross h' h2 hS (unpriced_of_free hc) hg hw
  have l2 := price_cross h h' hS' (unpriced_of_free hc) hg hw
  have e : ∀ W W', (s.withPrices q).readCostAt W W' = s.readCostAt W W' := fun _ _ => rfl
  have e' : ∀ W, (s.withPrices q).readSpill W = s.readSpill W := fun _ => rfl
  rw [e, e, e', e'] at l1
  rw [h0, h0'] at l1 l2
  have hsc : ∀ W, s.readCostAt W V' = k * s.readCostAt W V := by
    intro W
    unfold Site.readCostAt Site.sumIntervals
    rw [mul_comm, ← list_sum_mul_right]
    apply list_sum_congr
    intro i hi
    rw [List.mem_range] at hi
    rw [himp i hi, hexp i hi, hgas i hi]
    ring
  have c1 : s.readCostAt V V = s.readCost V := rfl
  have c2 : s.readCostAt V' V' = s.readCost V' := rfl
  rw [hsc V, c1, c2] at l2
  have c3 := hsc V'
  rw [c2] at c3
  rw [c1] at l1
  have := mul_le_mul_of_nonneg_left l1 hk.le
  linarith

end

/-! ### The hypotheses are met -/

/-- The interval data of the demonstrations. -/
def pricesData (e x c g : List ℚ) : SiteData :=
  { n := 2, electricityPrices := e, exportElectricityPrices := x, electricityCarbonIntensities := c, gasPrices := g, electricLoad := [5, 5],
    htLoad := [0, 0], ltLoad := [0, 0], ltGeneration := [0, 0], custom := [] }

/-- The site of the demonstrations. -/
def pricesSite (e x c g : List ℚ) : Site :=
  { assets := [.battery (growBattery 4)], data := pricesData e x c g, freqMins := 60, importLimit := 10000, exportLimit := 10000, constraints := [] }

theorem pricesSite_eq {e x c g : List ℚ} {o : String} {a : List (VarId × ℚ)} {s : Site} (h : (demoPrices e x c g o a).site = .ok s)
    (ha : s.assets = [.battery (growBattery 4)]) (hd : (demoPrices e x c g o a).site.toOption.map Site.data = some (pricesData e x c g)) :
    s = pricesSite e x c g := by
  have n := site_new h
  rw [h] at hd
  replace hd : s.data = pricesData e x c g := Option.some.inj hd
  obtain ⟨assets, data, f, il, el, cs⟩ := s
  have h1 := n.freq
  have h2 := n.importLimit
  have h3 := n.exportLimit
  have h4 := n.constraints
  simp only at ha hd h1 h2 h3 h4
  subst ha hd h1 h2 h3 h4
  rfl

/-- C61, C62, C63: runs that meet the hypotheses.  For price the battery is charged at 10 and discharged at 100, which costs 190; for carbon it does
nothing, as it should have done when the actual prices are 100 and 10; at twice the prices the cost is twice 190. -/
example : ∃ s q q' q'' S1 S2 S3 S4 S5 r1 r2 r3 r4 r5 V1 V2 V3 V4 V5,
    Run s (.str "price") {} S1 r1 V1 ∧ S1.Exact ∧ Run s (.str "carbon") {} S2 r2 V2 ∧ S2.Exact ∧
    Run (s.withPrices q) (.str "price") {} S3 r3 V3 ∧ S3.Exact ∧ Run (s.withPrices q') (.str "price") {} S4 r4 V4 ∧ S4.Exact ∧
    Run (s.withPrices q'') (.str "price") {} S5 r5 V5 ∧
    (∀ c ∈ s.constraints, c.PriceFree) ∧ (∀ a ∈ s.assets, a.GasTied) ∧ (∀ a ∈ s.assets, a.WellNamed) ∧ s.PlainNames ∧
    (∀ i < s.data.n, V3 "site-export_electricity_prices" i = V3 "site-electricity_prices" i) ∧
    (∀ i < s.data.n, V4 "site-electricity_prices" i = 2 * V1 "site-electricity_prices" i) ∧
    (∀ i < s.data.n, V4 "site-export_electricity_prices" i = 2 * V1 "site-export_electricity_prices" i) ∧
    (∀ i < s.data.n, V4 "site-gas_prices" i = 2 * V1 "site-gas_prices" i) ∧
    (∀ i < s.data.n, V1 "site-electricity_prices" i ≤ V5 "site-electricity_prices" i) ∧
    (∀ i < s.data.n, V5 "site-export_electricity_prices" i ≤ V1 "site-export_electricity_prices" i) ∧
    (∀ i < s.data.n, V1 "site-gas_prices" i ≤ V5 "site-gas_prices" i) ∧ s.readSpill V1 = 0 ∧ s.readSpill V4 = 0 ∧
    r1.status.objective = some 190 ∧ r2.status.objective = some 5 ∧ r3.status.objective = some 550 ∧ r4.status.objective = some 380 ∧
    r5.status.objective = some 280 := by
  obtain ⟨s1, r1, V1, S1, hs1, hS1, h1, ht1⟩ := Demo.runOptimal demoPrices_forecast
  obtain ⟨s2, r2, V2, S2, hs2, hS2, h2, ht2⟩ := Demo.runOptimal demoPrices_carbon
  obtain ⟨s3, r3, V3, S3, hs3, hS3, h3, ht3⟩ := Demo.runOptimal demoPrices_actual
  obtain ⟨s4, r4, V4, S4, hs4, hS4, h4, ht4⟩ := Demo.runOptimal demoPrices_double
  obtain ⟨s5, r5, V5, S5, hs5, hS5, h5, ht5⟩ := Demo.runOptimal demoPrices_dearer
  simp only [pricesTest, Bool.and_eq_true, decide_eq_true_eq] at ht1 ht2 ht3 ht4 ht5
  have e1 := pricesSite_eq hs1 ht1.1.1 (by decide +kernel)
  have e2 := pricesSite_eq hs2 ht2.1.1 (by decide +kernel)
  have e3 := pricesSite_eq hs3 ht3.1.1 (by decide +kernel)
  have e4 := pricesSite_eq hs4 ht4.1.1 (by decide +kernel)
  have e5 := pricesSite_eq hs5 ht5.1.1 (by decide +kernel)
  subst e1 e2 e3 e4 e5
  refine ⟨pricesSite [10, 100] [10, 100] [9/10, 1/10] [20, 20], ⟨[100, 10], [100, 10], [9/10, 1/10], [20, 20]⟩, ⟨[20, 200], [20, 200], [9/10, 1/10], [40, 40]⟩,
    ⟨[20, 100], [10, 100], [9/10, 1/10], [20, 20]⟩,
    S1, S2, S3, S4, S5, r1, r2, r3, r4, r5, V1, V2, V3, V4, V5, h1, hS1, h2, hS2, h3, hS3, h4, hS4, h5, ?_, ?_, ?_, ⟨?_, ?_⟩, ?_, ?_, ?_, ?_,
    ?_, ?_, ?_, ?_, ?_,
    ht1.2, ht2.2, ht3.2, ht4.2, ht5.2⟩
  · intro c hc; simp [pricesSite] at hc
  · intro a ha; simp only [pricesSite, List.mem_singleton] at ha; subst ha; trivial
  · decide +kernel
  · decide +kernel
  · intro c hc; simp [pricesSite, pricesData] at hc
  · obtain ⟨p, σ, hco⟩ := h3.core
    intro i hi
    obtain ⟨a1, a2, _, _⟩ := price_cells hco (i := i) hi
    rw [a1, a2]
    rfl
  · obtain ⟨p, σ, hco⟩ := h1.core
    obtain ⟨p', σ', hco'⟩ := h4.core
    intro i hi
    obtain ⟨a1, _, _, _⟩ := price_cells hco (i := i) hi
    obtain ⟨b1, _, _, _⟩ := price_cells hco' (i := i) hi
    rw [a1, b1]
    have hi : i < 2 := hi
    obtain rfl | rfl : i = 0 ∨ i = 1 := by omega
    all_goals decide +kernel
  · obtain ⟨p, σ, hco⟩ := h1.core
    obtain ⟨p', σ', hco'⟩ := h4.core
    intro i hi
    obtain ⟨_, a1, _, _⟩ := price_cells hco (i := i) hi
    obtain ⟨_, b1, _, _⟩ := price_cells hco' (i := i) hi
    rw [a1, b1]
    have hi : i < 2 := hi
    obtain rfl | rfl : i = 0 ∨ i = 1 := by omega
    all_goals decide +kernel
  · obtain ⟨p, σ, hco⟩ := h1.core
    obtain ⟨p', σ', hco'⟩ := h4.core
    intro i hi
    obtain ⟨_, _, _, a1⟩ := price_cells hco (i := i) hi
    obtain ⟨_, _, _, b1⟩ := price_cells hco' (i := i) hi
    rw [a1, b1]
    have hi : i < 2 := hi
    obtain rfl | rfl : i = 0 ∨ i = 1 := by omega
    all_goals decide +kernel
  · obtain ⟨p, σ, hco⟩ := h1.core
    obtain ⟨p', σ', hco'⟩ := h5.core
    intro i hi
    obtain ⟨a1, _, _, _⟩ := price_cells hco (i := i) hi
    obtain ⟨b1, _, _, _⟩ := price_cells hco' (i := i) hi
    rw [a1, b1]
    have hi : i < 2 := hi
    obtain rfl | rfl : i = 0 ∨ i = 1 := by omega
    all_goals decide +kernel
  · obtain ⟨p, σ, hco⟩ := h1.core
    obtain ⟨p', σ', hco'⟩ := h5.core
    intro i hi
    obtain ⟨_, a1, _, _⟩ := price_cells hco (i := i) hi
    obtain ⟨_, b1, _, _⟩ := price_cells hco' (i := i) hi
    rw [a1, b1]
    have hi : i < 2 := hi
    obtain rfl | rfl : i = 0 ∨ i = 1 := by omega
    all_goals decide +kernel
  · obtain ⟨p, σ, hco⟩ := h1.core
    obtain ⟨p', σ', hco'⟩ := h5.core
    intro i hi
    obtain ⟨_, _, _, a1⟩ := price_cells hco (i := i) hi
    obtain ⟨_, _, _, b1⟩ := price_cells hco' (i := i) hi
    rw [a1, b1]
    have hi : i < 2 := hi
    obtain rfl | rfl : i = 0 ∨ i = 1 := by omega
    all_goals decide +kernel
  · simp [Site.readSpill, Site.sumIntervals, pricesSite, Asset.penalised, rowSum]
  · simp [Site.readSpill, Site.sumIntervals, pricesSite, Asset.penalised, rowSum]

end EPL
