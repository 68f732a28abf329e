/-
C99: a fixed schedule needs only the expected prices; foresight of volatile prices never costs more.  C100: small price errors cost little.
-/
import Verif.Spec.Scenarios
import Verif.Props.Demand
import Verif.Spec.DemoScenarios
import Mathlib.Algebra.Order.Ring.Abs

namespace EPL

section
variable {s : Site} {o : Objective} {flags : Flags} {S S' : Solver} {r r' : SimResult} {V V' U : String → Nat → ℚ} {q : Prices}
variable {m : Nat} {w : Nat → ℚ} {W : Nat → String → Nat → ℚ}

theorem meanOver_add (m : Nat) (w g g' : Nat → ℚ) : meanOver m w (fun k => g k + g' k) = meanOver m w g + meanOver m w g' := by
  unfold meanOver
  rw [← list_sum_add]
  exact list_sum_congr fun _ _ => by ring

theorem meanOver_sub (m : Nat) (w g g' : Nat → ℚ) : meanOver m w (fun k => g k - g' k) = meanOver m w g - meanOver m w g' := by
  unfold meanOver
  rw [← list_sum_sub]
  exact list_sum_congr fun _ _ => by ring

theorem meanOver_mul (m : Nat) (w g : Nat → ℚ) (x : ℚ) : meanOver m w (fun k => x * g k) = x * meanOver m w g := by
  unfold meanOver
  rw [← list_sum_mul_left]
  exact list_sum_congr fun _ _ => by ring

theorem meanOver_const (ht : meanOver m w (fun _ => 1) = 1) (x : ℚ) : meanOver m w (fun _ => x) = x := by
  have := meanOver_mul m w (fun _ => 1) x
  simp only [ht, mul_one] at this
  exact this

theorem meanOver_le (hn : ∀ k < m, 0 ≤ w k) {g g' : Nat → ℚ} (h : ∀ k < m, g k ≤ g' k) : meanOver m w g ≤ meanOver m w g' :=
  List.sum_le_sum fun k hk => mul_le_mul_of_nonneg_left (h k (List.mem_range.1 hk)) (hn k (List.mem_range.1 hk))

theorem meanOver_sumIntervals (s : Site) (m : Nat) (w : Nat → ℚ) (g : Nat → Nat → ℚ) :
    meanOver m w (fun k => s.sumIntervals (g k)) = s.sumIntervals (fun i => meanOver m w (fun k => g k i)) := by
  unfold meanOver Site.sumIntervals
  rw [← list_sum_swap]
  exact list_sum_congr fun k _ => (list_sum_mul_left _ _ _).symm

/-- C99: the cost of a schedule at the expected prices is its expected cost. -/
theorem C99_expected (hE : s.Expects m w V W) (U : String → Nat → ℚ) : meanOver m w (fun k => s.readCostAt U (W k)) = s.readCostAt U V := by
  unfold Site.readCostAt
  rw [meanOver_sumIntervals]
  unfold Site.sumIntervals
  refine list_sum_congr fun i hi => ?_
  have hi := List.mem_range.1 hi
  rw [meanOver_add, meanOver_sub, meanOver_mul, meanOver_mul, meanOver_mul, ← hE.prices _ (by simp) i hi, ← hE.prices _ (by simp) i hi,
    ← hE.prices _ (by simp) i hi]

/-- C99: and so are its emissions at the expected carbon intensities. -/
theorem C99_expected_carbon (hE : s.Expects m w V W) (U : String → Nat → ℚ) : meanOver m w (fun k => s.readEmissionsAt U (W k)) = s.readEmissionsAt U V := by
  unfold Site.readEmissionsAt
  rw [meanOver_sumIntervals]
  unfold Site.sumIntervals
  refine list_sum_congr fun i hi => ?_
  have hi := List.mem_range.1 hi
  rw [meanOver_add, meanOver_mul, ← hE.prices _ (by simp) i hi, meanOver_const hE.total]

/-- C99: of all schedules that do not wait for the prices (those optimize returns for any prices and objective), the one made with the expected prices has
the least expected cost. -/
theorem C99_schedule (h : Run s (.str "price") flags S r V) (hS : S.Exact) (hU : Run (s.withPrices q) o flags S' r' U) (hE : s.Expects m w V W)
    (hc : ∀ c ∈ s.constraints, c.PriceFree) (hg : ∀ a ∈ s.assets, a.GasTied) (hw : ∀ a ∈ s.assets, a.WellNamed) :
    meanOver m w (fun k => s.readCostAt V (W k) + spillPenalty * s.readSpill V) ≤ meanOver m w (fun k => s.readCostAt U (W k) + spillPenalty * s.readSpill U) := by
  rw [meanOver_add, meanOver_add, meanOver_const hE.total, meanOver_const hE.total, C99_expected hE, C99_expected hE]
  obtain ⟨q0, h2⟩ := other_prices q h
  have l := C62_foresight (s := s.withPrices q) hU h2 hS hc hg hw
  exact l

/-- C99: and likewise for emissions. -/
theorem C99_schedule_carbon (h : Run s (.str "carbon") flags S r V) (hS : S.Exact) (hU : Run (s.withPrices q) o flags S' r' U) (hE : s.Expects m w V W)
    (hc : ∀ c ∈ s.constraints, c.PriceFree) (hg : ∀ a ∈ s.assets, a.GasTied) (hw : ∀ a ∈ s.assets, a.WellNamed) :
    meanOver m w (fun k => s.readEmissionsAt V (W k) + spillPenalty * s.readSpill V) ≤
      meanOver m w (fun k => s.readEmissionsAt U (W k) + spillPenalty * s.readSpill U) := by
  rw [meanOver_add, meanOver_add, meanOver_const hE.total, meanOver_const hE.total, C99_expected_carbon hE, C99_expected_carbon hE]
  obtain ⟨q0, h2⟩ := other_prices q h
  have l := C62_foresight_carbon (s := s.withPrices q) hU h2 hS hc hg hw
  exact l

/-- C99: knowing the prices in time never costs more in expectation: the mean of the optimal costs of the scenarios is at most the optimal cost at the mean
prices. -/
theorem C99_volatile {Q : Nat → Prices} {T : Nat → Solver} {R : Nat → SimResult} (h : Run s (.str "price") flags S r V)
    (hR : ∀ k < m, Run (s.withPrices (Q k)) (.str "price") flags (T k) (R k) (W k) ∧ (T k).Exact) (hE : s.Expects m w V W)
    (hc : ∀ c ∈ s.constraints, c.PriceFree) (hg : ∀ a ∈ s.assets, a.GasTied) (hw : ∀ a ∈ s.assets, a.WellNamed) :
    ∃ (x : ℚ) (y : Nat → ℚ), r.status.objective = some x ∧ (∀ k < m, (R k).status.objective = some (y k)) ∧ meanOver m w y ≤ x := by
  refine ⟨_, fun k => s.readCost (W k) + spillPenalty * s.readSpill (W k), C40_results h hw, fun k hk => ?_, ?_⟩
  · have := C40_results (hR k hk).1 hw
    exact this
  · have e : s.readCost V + spillPenalty * s.readSpill V = meanOver m w (fun k => s.readCostAt V (W k) + spillPenalty * s.readSpill V) := by
      rw [meanOver_add, meanOver_const hE.total, C99_expected hE, (own_prices h h).1]
    rw [e]
    exact meanOver_le hE.nonneg fun k hk => C62_foresight h (hR k hk).1 (hR k hk).2 hc hg hw

/-- C99: and likewise for emissions. -/
theorem C99_volatile_carbon {Q : Nat → Prices} {T : Nat → Solver} {R : Nat → SimResult} (h : Run s (.str "carbon") flags S r V)
    (hR : ∀ k < m, Run (s.withPrices (Q k)) (.str "carbon") flags (T k) (R k) (W k) ∧ (T k).Exact) (hE : s.Expects m w V W)
    (hc : ∀ c ∈ s.constraints, c.PriceFree) (hg : ∀ a ∈ s.assets, a.GasTied) (hw : ∀ a ∈ s.assets, a.WellNamed) :
    ∃ (x : ℚ) (y : Nat → ℚ), r.status.objective = some x ∧ (∀ k < m, (R k).status.objective = some (y k)) ∧ meanOver m w y ≤ x := by
  refine ⟨_, fun k => s.readEmissions (W k) + spillPenalty * s.readSpill (W k), C41_results h hw, fun k hk => ?_, ?_⟩
  · have := C41_results (hR k hk).1 hw
    exact this
  · have e : s.readEmissions V + spillPenalty * s.readSpill V = meanOver m w (fun k => s.readEmissionsAt V (W k) + spillPenalty * s.readSpill V) := by
      rw [meanOver_add, meanOver_const hE.total, C99_expected_carbon hE, (own_prices h h).2]
    rw [e]
    exact meanOver_le hE.nonneg fun k hk => C62_foresight_carbon h (hR k hk).1 (hR k hk).2 hc hg hw

/-! ### C100 -/

theorem mul_abs_bound {x y b : ℚ} (h : |x| ≤ b) : x * y ≤ |y| * b := by
  calc x * y ≤ |x * y| := le_abs_self _
    _ = |y| * |x| := by rw [abs_mul, mul_comm]
    _ ≤ |y| * b := mul_le_mul_of_nonneg_left h (abs_nonneg _)

theorem abs_between {x y b : ℚ} (hx : 0 ≤ x) (hx' : x ≤ b) (hy : 0 ≤ y) (hy' : y ≤ b) : |x - y| ≤ b :=
  abs_le.2 ⟨by linarith, by linarith⟩

/-- C100: a dispatch made with wrong prices costs, at the right prices, at most the price errors more than the right dispatch. -/
theorem C100_regret (h : Run s (.str "price") flags S r V) (hS : S.Exact) (h' : Run (s.withPrices q) o flags S' r' V')
    (hc : ∀ c ∈ s.constraints, c.PriceFree) (hg : ∀ a ∈ s.assets, a.GasTied) (hw : ∀ a ∈ s.assets, a.WellNamed) :
    s.readCostAt V V' + spillPenalty * s.readSpill V ≤ s.readCostAt V' V' + spillPenalty * s.readSpill V' +
      s.priceErrors V V' (fun i => |s.assetSum V "gas_consumption_mwh" i - s.assetSum V' "gas_consumption_mwh" i|) := by
  obtain ⟨q0, h2⟩ := other_prices q h
  have l : s.readCostAt V V + spillPenalty * s.readSpill V ≤ s.readCostAt V' V + spillPenalty * s.readSpill V' := C62_foresight (s := s.withPrices q) h' h2 hS hc hg hw
  have : s.readCostAt V V' - s.readCostAt V V - (s.readCostAt V' V' - s.readCostAt V' V) ≤
      s.priceErrors V V' (fun i => |s.assetSum V "gas_consumption_mwh" i - s.assetSum V' "gas_consumption_mwh" i|) := by
    unfold Site.readCostAt Site.priceErrors Site.sumIntervals
    rw [← list_sum_sub, ← list_sum_sub, ← list_sum_sub]
    refine List.sum_le_sum fun i hi => ?_
    have hi := List.mem_range.1 hi
    obtain ⟨a1, a2, a3, a4, -⟩ := C04_site_limits h hi
    obtain ⟨b1, b2, b3, b4, -⟩ := C04_site_limits h' (i := i) hi
    have c1 := mul_abs_bound (y := V' "site-electricity_prices" i - V "site-electricity_prices" i) (abs_between a1 a2 b1 b2)
    have c2 := mul_abs_bound (y := V' "site-export_electricity_prices" i - V "site-export_electricity_prices" i) (abs_between b3 b4 a3 a4)
    have c3 := mul_abs_bound (x := s.assetSum V "gas_consumption_mwh" i - s.assetSum V' "gas_consumption_mwh" i)
      (y := V' "site-gas_prices" i - V "site-gas_prices" i) (le_refl _)
    refine le_trans (le_of_eq ?_) (add_le_add (add_le_add c1 c2) c3)
    ring
  linarith

/-- One direction of the bound on the optimum. -/
theorem optimum_near (h : Run s (.str "price") flags S r V) (h' : Run (s.withPrices q) (.str "price") flags S' r' V') (hS' : S'.Exact)
    (hc : ∀ c ∈ s.constraints, c.PriceFree) (hg : ∀ a ∈ s.assets, a.GasTied) (hw : ∀ a ∈ s.assets, a.WellNamed) :
    s.readCost V' + spillPenalty * s.readSpill V' ≤ s.readCost V + spillPenalty * s.readSpill V +
      s.priceErrors V V' (fun i => max (s.assetSum V "gas_consumption_mwh" i) (s.assetSum V' "gas_consumption_mwh" i)) := by
  have l := C62_foresight h h' hS' hc hg hw
  have e : s.readCostAt V' V' = s.readCost V' := (own_prices h' h').1
  rw [e] at l
  have : s.readCostAt V V' - s.readCostAt V V ≤
      s.priceErrors V V' (fun i => max (s.assetSum V "gas_consumption_mwh" i) (s.assetSum V' "gas_consumption_mwh" i)) := by
    unfold Site.readCostAt Site.priceErrors Site.sumIntervals
    rw [← list_sum_sub]
    refine List.sum_le_sum fun i hi => ?_
    have hi := List.mem_range.1 hi
    obtain ⟨a1, a2, a3, a4, -⟩ := C04_site_limits h hi
    have g0 : 0 ≤ s.assetSum V "gas_consumption_mwh" i := by
      obtain ⟨p, σ, hco⟩ := h.core
      rw [gas_read hco hw hi]
      exact gas_nonneg hco hg hi
    have c1 := mul_abs_bound (y := V' "site-electricity_prices" i - V "site-electricity_prices" i) (le_of_eq_of_le (abs_of_nonneg a1) a2)
    have c2 := mul_abs_bound (y := V' "site-export_electricity_prices" i - V "site-export_electricity_prices" i) (x := - V "site-export_power_mwh" i)
      (le_of_eq_of_le ((abs_neg _).trans (abs_of_nonneg a3)) a4)
    have c3 := mul_abs_bound (x := s.assetSum V "gas_consumption_mwh" i)
      (y := V' "site-gas_prices" i - V "site-gas_prices" i) (le_of_eq_of_le (abs_of_nonneg g0) (le_max_left _ (s.assetSum V' "gas_consumption_mwh" i)))
    refine le_trans (le_of_eq ?_) (add_le_add (add_le_add c1 c2) c3)
    ring
  have e2 := (own_prices h h).1
  linarith

theorem priceErrors_swap (V V' : String → Nat → ℚ) (g g' : Nat → ℚ) (hgg : ∀ i, g i = g' i) : s.priceErrors V V' g = s.priceErrors V' V g' := by
  unfold Site.priceErrors Site.sumIntervals
  refine list_sum_congr fun i _ => ?_
  rw [abs_sub_comm, abs_sub_comm (V' "site-export_electricity_prices" i), abs_sub_comm (V' "site-gas_prices" i), hgg]

/-- C100: the reported optimal cost changes by at most the price errors. -/
theorem C100_optimum (h : Run s (.str "price") flags S r V) (hS : S.Exact) (h' : Run (s.withPrices q) (.str "price") flags S' r' V') (hS' : S'.Exact)
    (hc : ∀ c ∈ s.constraints, c.PriceFree) (hg : ∀ a ∈ s.assets, a.GasTied) (hw : ∀ a ∈ s.assets, a.WellNamed) :
    ∃ x y, r.status.objective = some x ∧ r'.status.objective = some y ∧
      |y - x| ≤ s.priceErrors V V' (fun i => max (s.assetSum V "gas_consumption_mwh" i) (s.assetSum V' "gas_consumption_mwh" i)) := by
  obtain ⟨q0, h2⟩ := other_prices q h
  have l1 := optimum_near h h' hS' hc hg hw
  have l2 : s.readCost V + spillPenalty * s.readSpill V ≤ s.readCost V' + spillPenalty * s.readSpill V' +
      s.priceErrors V' V (fun i => max (s.assetSum V' "gas_consumption_mwh" i) (s.assetSum V "gas_consumption_mwh" i)) := optimum_near (s := s.withPrices q) h' h2 hS hc hg hw
  rw [priceErrors_swap V' V _ (fun i => max (s.assetSum V "gas_consumption_mwh" i) (s.assetSum V' "gas_consumption_mwh" i)) (fun i => max_comm _ _)] at l2
  refine ⟨_, s.readCost V' + spillPenalty * s.readSpill V', C40_results h hw, C40_results (s := s.withPrices q) h' hw, abs_le.2 ⟨?_, ?_⟩⟩
  · linarith
  · linarith

/-- C100: for carbon intensities. -/
theorem C100_regret_carbon (h : Run s (.str "carbon") flags S r V) (hS : S.Exact) (h' : Run (s.withPrices q) o flags S' r' V')
    (hc : ∀ c ∈ s.constraints, c.PriceFree) (hg : ∀ a ∈ s.assets, a.GasTied) (hw : ∀ a ∈ s.assets, a.WellNamed) :
    s.readEmissionsAt V V' + spillPenalty * s.readSpill V ≤ s.readEmissionsAt V' V' + spillPenalty * s.readSpill V' +
      s.carbonErrors V V' ((s.importLimit + s.exportLimit) * s.freqMins / 60) := by
  obtain ⟨q0, h2⟩ := other_prices q h
  have l : s.readEmissionsAt V V + spillPenalty * s.readSpill V ≤ s.readEmissionsAt V' V + spillPenalty * s.readSpill V' :=
    C62_foresight_carbon (s := s.withPrices q) h' h2 hS hc hg hw
  have : s.readEmissionsAt V V' - s.readEmissionsAt V V - (s.readEmissionsAt V' V' - s.readEmissionsAt V' V) ≤
      s.carbonErrors V V' ((s.importLimit + s.exportLimit) * s.freqMins / 60) := by
    unfold Site.readEmissionsAt Site.carbonErrors Site.sumIntervals
    rw [← list_sum_sub, ← list_sum_sub, ← list_sum_sub]
    refine List.sum_le_sum fun i hi => ?_
    have hi := List.mem_range.1 hi
    obtain ⟨a1, a2, a3, a4, -⟩ := C04_site_limits h hi
    obtain ⟨b1, b2, b3, b4, -⟩ := C04_site_limits h' (i := i) hi
    have b2 : V' "site-import_power_mwh" i ≤ s.importLimit * s.freqMins / 60 := b2
    have b4 : V' "site-export_power_mwh" i ≤ s.exportLimit * s.freqMins / 60 := b4
    have e : (s.importLimit + s.exportLimit) * s.freqMins / 60 = s.importLimit * s.freqMins / 60 + s.exportLimit * s.freqMins / 60 := by ring
    have c1 := mul_abs_bound (y := V' "site-electricity_carbon_intensities" i - V "site-electricity_carbon_intensities" i)
      (x := (V "site-import_power_mwh" i - V "site-export_power_mwh" i) - (V' "site-import_power_mwh" i - V' "site-export_power_mwh" i))
      (b := (s.importLimit + s.exportLimit) * s.freqMins / 60) (by rw [e]; exact abs_le.2 ⟨by linarith, by linarith⟩)
    refine le_trans (le_of_eq ?_) c1
    ring
  linarith

theorem optimum_near_carbon (h : Run s (.str "carbon") flags S r V) (h' : Run (s.withPrices q) (.str "carbon") flags S' r' V') (hS' : S'.Exact)
    (hc : ∀ c ∈ s.constraints, c.PriceFree) (hg : ∀ a ∈ s.assets, a.GasTied) (hw : ∀ a ∈ s.assets, a.WellNamed) :
    s.readEmissions V' + spillPenalty * s.readSpill V' ≤ s.readEmissions V + spillPenalty * s.readSpill V +
      s.carbonErrors V V' (max (s.importLimit * s.freqMins / 60) (s.exportLimit * s.freqMins / 60)) := by
  have l := C62_foresight_carbon h h' hS' hc hg hw
  have e : s.readEmissionsAt V' V' = s.readEmissions V' := (own_prices h' h').2
  rw [e] at l
  have : s.readEmissionsAt V V' - s.readEmissionsAt V V ≤
      s.carbonErrors V V' (max (s.importLimit * s.freqMins / 60) (s.exportLimit * s.freqMins / 60)) := by
    unfold Site.readEmissionsAt Site.carbonErrors Site.sumIntervals
    rw [← list_sum_sub]
    refine List.sum_le_sum fun i hi => ?_
    have hi := List.mem_range.1 hi
    obtain ⟨a1, a2, a3, a4, -⟩ := C04_site_limits h hi
    have m1 := le_max_left (s.importLimit * s.freqMins / 60) (s.exportLimit * s.freqMins / 60)
    have m2 := le_max_right (s.importLimit * s.freqMins / 60) (s.exportLimit * s.freqMins / 60)
    have c1 := mul_abs_bound (y := V' "site-electricity_carbon_intensities" i - V "site-electricity_carbon_intensities" i)
      (x := V "site-import_power_mwh" i - V "site-export_power_mwh" i)
      (b := max (s.importLimit * s.freqMins / 60) (s.exportLimit * s.freqMins / 60)) (abs_le.2 ⟨by linarith, by linarith⟩)
    refine le_trans (le_of_eq ?_) c1
    ring
  have e2 := (own_prices h h).2
  linarith

/-- C100: the least emissions change by at most the error of the carbon intensities on what the connection can carry. -/
theorem C100_optimum_carbon (h : Run s (.str "carbon") flags S r V) (hS : S.Exact) (h' : Run (s.withPrices q) (.str "carbon") flags S' r' V')
    (hS' : S'.Exact) (hc : ∀ c ∈ s.constraints, c.PriceFree) (hg : ∀ a ∈ s.assets, a.GasTied) (hw : ∀ a ∈ s.assets, a.WellNamed) :
    ∃ x y, r.status.objective = some x ∧ r'.status.objective = some y ∧
      |y - x| ≤ s.carbonErrors V V' (max (s.importLimit * s.freqMins / 60) (s.exportLimit * s.freqMins / 60)) := by
  obtain ⟨q0, h2⟩ := other_prices q h
  have l1 := optimum_near_carbon h h' hS' hc hg hw
  have l2 : s.readEmissions V + spillPenalty * s.readSpill V ≤ s.readEmissions V' + spillPenalty * s.readSpill V' +
      s.carbonErrors V' V (max (s.importLimit * s.freqMins / 60) (s.exportLimit * s.freqMins / 60)) :=
    optimum_near_carbon (s := s.withPrices q) h' h2 hS hc hg hw
  have e : s.carbonErrors V' V (max (s.importLimit * s.freqMins / 60) (s.exportLimit * s.freqMins / 60)) =
      s.carbonErrors V V' (max (s.importLimit * s.freqMins / 60) (s.exportLimit * s.freqMins / 60)) := by
    unfold Site.carbonErrors Site.sumIntervals
    exact list_sum_congr fun i _ => by rw [abs_sub_comm]
  rw [e] at l2
  refine ⟨_, s.readEmissions V' + spillPenalty * s.readSpill V', C41_results h hw, C41_results (s := s.withPrices q) h' hw, abs_le.2 ⟨?_, ?_⟩⟩
  · linarith
  · linarith

end

/-! ### The hypotheses are met -/

/-- Two results in turn. -/
def pairOf {α : Type} (a b : α) (k : Nat) : α := if k = 0 then a else b

theorem pricesSite_fine (e x c g : List ℚ) : (∀ k ∈ (pricesSite e x c g).constraints, k.PriceFree) ∧ (∀ a ∈ (pricesSite e x c g).assets, a.GasTied) ∧
    (∀ a ∈ (pricesSite e x c g).assets, a.WellNamed) := by
  refine ⟨fun k hk => ?_, fun a ha => ?_, fun a ha => ?_⟩
  · simp [pricesSite] at hk
  · simp only [pricesSite, List.mem_singleton] at ha; subst ha; trivial
  · simp only [pricesSite, List.mem_singleton] at ha; subst ha; decide +kernel

theorem prices_expect {e x c g e1 x1 c1 g1 e2 x2 c2 g2 : List ℚ} {o o1 o2 : Objective} {S S1 S2 : Solver} {r r1 r2 : SimResult}
    {V V1 V2 : String → Nat → ℚ} (h : Run (pricesSite e x c g) o {} S r V) (h1 : Run (pricesSite e1 x1 c1 g1) o1 {} S1 r1 V1)
    (h2 : Run (pricesSite e2 x2 c2 g2) o2 {} S2 r2 V2)
    (hm : ∀ i < 2, e.getD i 0 = (e1.getD i 0 + e2.getD i 0) / 2 ∧ x.getD i 0 = (x1.getD i 0 + x2.getD i 0) / 2 ∧
      c.getD i 0 = (c1.getD i 0 + c2.getD i 0) / 2 ∧ g.getD i 0 = (g1.getD i 0 + g2.getD i 0) / 2) :
    (pricesSite e x c g).Expects 2 (fun _ => 1/2) V (pairOf V1 V2) := by
  obtain ⟨p, σ, hco⟩ := h.core
  obtain ⟨p1, σ1, hco1⟩ := h1.core
  obtain ⟨p2, σ2, hco2⟩ := h2.core
  refine ⟨fun k _ => by norm_num, by decide +kernel, fun k hk i hi => ?_⟩
  obtain ⟨a1, a2, a3, a4⟩ := price_cells hco (i := i) hi
  obtain ⟨b1, b2, b3, b4⟩ := price_cells hco1 (i := i) hi
  obtain ⟨d1, d2, d3, d4⟩ := price_cells hco2 (i := i) hi
  obtain ⟨m1, m2, m3, m4⟩ := hm i hi
  have key : ∀ k, meanOver 2 (fun _ => 1/2) (fun j => pairOf V1 V2 j k i) = (V1 k i + V2 k i) / 2 := by
    intro k
    have : List.range 2 = [0, 1] := rfl
    simp only [meanOver, this, pairOf, List.map_cons, List.map_nil, List.sum_cons, List.sum_nil]
    norm_num
    ring
  rw [key]
  simp only [List.mem_cons, List.not_mem_nil, or_false] at hk
  rcases hk with rfl | rfl | rfl | rfl
  · rw [a1, b1, d1]; exact m1
  · rw [a2, b2, d2]; exact m2
  · rw [a4, b4, d4]; exact m4
  · rw [a3, b3, d3]; exact m3

/-- C99, C100: prices of 10, 100 or of 100, 10 with a chance of one half each, which makes 55, 55 in the mean: the battery that knows which costs 190 or 550,
the one that does not costs 550. -/
example : ∃ (s : Site) (Q : Nat → Prices) (T : Nat → Solver) (R : Nat → SimResult) (W : Nat → String → Nat → ℚ) (S : Solver) (r : SimResult)
    (V : String → Nat → ℚ), Run s (.str "price") {} S r V ∧ S.Exact ∧
    (∀ k < 2, Run (s.withPrices (Q k)) (.str "price") {} (T k) (R k) (W k) ∧ (T k).Exact) ∧ s.Expects 2 (fun _ => 1/2) V W ∧
    (∀ c ∈ s.constraints, c.PriceFree) ∧ (∀ a ∈ s.assets, a.GasTied) ∧ (∀ a ∈ s.assets, a.WellNamed) ∧
    r.status.objective = some 550 ∧ (R 0).status.objective = some 190 ∧ (R 1).status.objective = some 550 := by
  obtain ⟨s1, r1, V1, S1, hs1, hS1, h1, ht1⟩ := Demo.runOptimal demoPrices_forecast
  obtain ⟨s2, r2, V2, S2, hs2, hS2, h2, ht2⟩ := Demo.runOptimal demoPrices_actual
  obtain ⟨s3, r3, V3, S3, hs3, hS3, h3, ht3⟩ := Demo.runOptimal demoIdle_price
  have d3 := marginDemo h3 ht3
  simp only [pricesTest, Bool.and_eq_true, decide_eq_true_eq] at ht1 ht2
  have e1 := pricesSite_eq hs1 ht1.1.1 (by decide +kernel)
  have e2 := pricesSite_eq hs2 ht2.1.1 (by decide +kernel)
  have e3 := pricesSite_eq hs3 d3.assets (by decide +kernel)
  have q3 := d3.objective
  clear d3 ht3
  subst e1 e2 e3
  refine ⟨_, pairOf ⟨[10, 100], [10, 100], [9/10, 1/10], [20, 20]⟩ ⟨[100, 10], [100, 10], [9/10, 1/10], [20, 20]⟩, pairOf S1 S2, pairOf r1 r2, pairOf V1 V2,
    S3, r3, V3, h3, hS3, fun k hk => ?_, prices_expect h3 h1 h2 (by decide +kernel), (pricesSite_fine _ _ _ _).1, (pricesSite_fine _ _ _ _).2.1,
    (pricesSite_fine _ _ _ _).2.2, q3, ht1.2, ht2.2⟩
  obtain rfl | rfl : k = 0 ∨ k = 1 := by omega
  · exact ⟨h1, hS1⟩
  · exact ⟨h2, hS2⟩

/-- C99, C100: carbon intensities of 0.9, 0.1 or of 0.1, 1, which makes 0.5, 0.55 in the mean: emissions of 5 or 1.9 with foresight, of 5.05 without. -/
example : ∃ (s : Site) (Q : Nat → Prices) (T : Nat → Solver) (R : Nat → SimResult) (W : Nat → String → Nat → ℚ) (S : Solver) (r : SimResult)
    (V : String → Nat → ℚ), Run s (.str "carbon") {} S r V ∧ S.Exact ∧
    (∀ k < 2, Run (s.withPrices (Q k)) (.str "carbon") {} (T k) (R k) (W k) ∧ (T k).Exact) ∧ s.Expects 2 (fun _ => 1/2) V W ∧
    (∀ c ∈ s.constraints, c.PriceFree) ∧ (∀ a ∈ s.assets, a.GasTied) ∧ (∀ a ∈ s.assets, a.WellNamed) ∧
    r.status.objective = some (101/20) ∧ (R 0).status.objective = some 5 ∧ (R 1).status.objective = some (19/10) := by
  obtain ⟨s1, r1, V1, S1, hs1, hS1, h1, ht1⟩ := Demo.runOptimal demoPrices_carbon
  obtain ⟨s2, r2, V2, S2, hs2, hS2, h2, ht2⟩ := Demo.runOptimal demoMoved_carbon
  obtain ⟨s3, r3, V3, S3, hs3, hS3, h3, ht3⟩ := Demo.runOptimal demoMean_carbon
  have d2 := marginDemo h2 ht2
  simp only [pricesTest, Bool.and_eq_true, decide_eq_true_eq] at ht1 ht3
  have e1 := pricesSite_eq hs1 ht1.1.1 (by decide +kernel)
  have e2 := pricesSite_eq hs2 d2.assets (by decide +kernel)
  have e3 := pricesSite_eq hs3 ht3.1.1 (by decide +kernel)
  have q2 := d2.objective
  clear d2 ht2
  subst e1 e2 e3
  refine ⟨_, pairOf ⟨[10, 100], [10, 100], [9/10, 1/10], [20, 20]⟩ ⟨[10, 100], [10, 100], [1/10, 1], [20, 20]⟩, pairOf S1 S2, pairOf r1 r2, pairOf V1 V2,
    S3, r3, V3, h3, hS3, fun k hk => ?_, prices_expect h3 h1 h2 (by decide +kernel), (pricesSite_fine _ _ _ _).1, (pricesSite_fine _ _ _ _).2.1,
    (pricesSite_fine _ _ _ _).2.2, ht3.2, ht1.2, q2⟩
  obtain rfl | rfl : k = 0 ∨ k = 1 := by omega
  · exact ⟨h1, hS1⟩
  · exact ⟨h2, hS2⟩

end EPL
