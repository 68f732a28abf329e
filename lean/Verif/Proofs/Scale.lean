/-
A valid dispatch, multiplied by a positive number, is a valid dispatch of the larger plant.
-/
import Verif.Proofs.Finer
import Verif.Proofs.Stretch
import Verif.Proofs.Cost
import Verif.Spec.Scale

namespace EPL

/-- The larger table: energies are multiplied, prices and carbon intensities stay. -/
def scaleTable (q : ℚ) (W : String → Nat → ℚ) : String → Nat → ℚ :=
  remap (fun unit attr i => if attr ∈ rateColumns then W (unit ++ "-" ++ attr) i else q * W (unit ++ "-" ++ attr) i)

section
variable {s : Site} {q : ℚ} {W : String → Nat → ℚ} {flags : Flags}

theorem scale_dash {attr : String} (h : NoDash attr) (h' : attr ∉ rateColumns) (unit : String) (i : Nat) :
    scaleTable q W (unit ++ "-" ++ attr) i = q * W (unit ++ "-" ++ attr) i := by
  unfold scaleTable
  rw [remap_dash h, if_neg h']

theorem scale_site {col : String} (attr : String) (hl : col = "site" ++ "-" ++ attr) (h : NoDash attr) (h' : attr ∉ rateColumns) (i : Nat) :
    scaleTable q W col i = q * W col i := by
  rw [hl]
  exact scale_dash h h' "site" i

theorem scale_rate {col : String} (attr : String) (hl : col = "site" ++ "-" ++ attr) (h : NoDash attr) (h' : attr ∈ rateColumns) (i : Nat) :
    scaleTable q W col i = W col i := by
  rw [hl]
  unfold scaleTable
  rw [remap_dash h, if_pos h']

/-- The columns of the assets. -/
def energyLits : List String :=
  [ "-electric_charge_mwh", "-electric_discharge_mwh", "-electric_loss_mwh", "-electric_initial_charge_mwh", "-electric_final_charge_mwh",
    "-electric_generation_mwh", "-electric_load_mwh", "-high_temperature_generation_mwh", "-low_temperature_load_mwh",
    "-low_temperature_generation_mwh", "-high_temperature_load_mwh", "-gas_consumption_mwh" ]

theorem energyLits_plain : ∀ lit ∈ energyLits, ∃ attr, lit = "-" ++ attr ∧ NoDash attr ∧ attr ∉ rateColumns := by
  intro lit h
  simp only [energyLits, List.mem_cons, List.not_mem_nil, or_false] at h
  have key : ∀ attr : String, attr ∈ ["electric_charge_mwh", "electric_discharge_mwh", "electric_loss_mwh", "electric_initial_charge_mwh",
      "electric_final_charge_mwh", "electric_generation_mwh", "electric_load_mwh", "high_temperature_generation_mwh", "low_temperature_load_mwh",
      "low_temperature_generation_mwh", "high_temperature_load_mwh", "gas_consumption_mwh"] → NoDash attr ∧ attr ∉ rateColumns := by
    unfold NoDash
    decide +kernel
  rcases h with rfl | rfl | rfl | rfl | rfl | rfl | rfl | rfl | rfl | rfl | rfl | rfl
  · exact ⟨"electric_charge_mwh", rfl, key _ (by simp)⟩
  · exact ⟨"electric_discharge_mwh", rfl, key _ (by simp)⟩
  · exact ⟨"electric_loss_mwh", rfl, key _ (by simp)⟩
  · exact ⟨"electric_initial_charge_mwh", rfl, key _ (by simp)⟩
  · exact ⟨"electric_final_charge_mwh", rfl, key _ (by simp)⟩
  · exact ⟨"electric_generation_mwh", rfl, key _ (by simp)⟩
  · exact ⟨"electric_load_mwh", rfl, key _ (by simp)⟩
  · exact ⟨"high_temperature_generation_mwh", rfl, key _ (by simp)⟩
  · exact ⟨"low_temperature_load_mwh", rfl, key _ (by simp)⟩
  · exact ⟨"low_temperature_generation_mwh", rfl, key _ (by simp)⟩
  · exact ⟨"high_temperature_load_mwh", rfl, key _ (by simp)⟩
  · exact ⟨"gas_consumption_mwh", rfl, key _ (by simp)⟩

theorem scale_lit {lit : String} (h : lit ∈ energyLits) (unit : String) (i : Nat) : scaleTable q W (unit ++ lit) i = q * W (unit ++ lit) i := by
  obtain ⟨attr, rfl, h1, h2⟩ := energyLits_plain lit h
  rw [← String.append_assoc]
  exact scale_dash h1 h2 unit i

theorem scale_stretched (q : ℚ) (W : String → Nat → ℚ) (unit : String) {lits : List String} (h : ∀ lit ∈ lits, lit ∈ energyLits) :
    Stretched q id W (scaleTable q W) unit lits := fun lit hl i => scale_lit (h lit hl) unit i

theorem limit_scaled (x : ℚ) : q * x * (s.scaled q).freqMins / 60 = q * (x * s.freqMins / 60) := by
  show q * x * s.freqMins / 60 = _
  ring

theorem battery_scaled (hq : 0 < q) {c : BatteryCfg} (h : c.Plays s W) : ({ c with
      chargePower := q * c.chargePower, dischargePower := q * c.dischargePower, capacity := q * c.capacity, initialCharge := q * c.initialCharge,
      finalCharge := q * c.finalCharge } : BatteryCfg).Plays (s.scaled q) (scaleTable q W) := by
  have w1 := scale_lit (q := q) (W := W) (lit := "-electric_charge_mwh") (by decide +kernel) c.name
  have w2 := scale_lit (q := q) (W := W) (lit := "-electric_discharge_mwh") (by decide +kernel) c.name
  have w3 := scale_lit (q := q) (W := W) (lit := "-electric_loss_mwh") (by decide +kernel) c.name
  have w4 := scale_lit (q := q) (W := W) (lit := "-electric_initial_charge_mwh") (by decide +kernel) c.name
  have w5 := scale_lit (q := q) (W := W) (lit := "-electric_final_charge_mwh") (by decide +kernel) c.name
  have part : ∀ {x a b : ℚ}, 0 ≤ x → x ≤ min a b → 0 ≤ q * x ∧ q * x ≤ min (q * a) (q * b) := by
    intro x a b h0 h1
    exact ⟨mul_nonneg hq.le h0, le_min (mul_le_mul_of_nonneg_left (h1.trans (min_le_left _ _)) hq.le)
      (mul_le_mul_of_nonneg_left (h1.trans (min_le_right _ _)) hq.le)⟩
  refine ⟨fun i hi => ?_, fun i hi => ?_, fun i hi => ?_, fun i hi => ?_, fun i hi => ?_, fun i hi => ?_, fun i hi => ?_, ?_, ?_⟩ <;> dsimp only
  · rw [w1, limit_scaled]
    exact part (h.charge i hi).1 (h.charge i hi).2
  · rw [w2, limit_scaled]
    exact part (h.discharge i hi).1 (h.discharge i hi).2
  · rw [w1, w2]
    rcases h.exclusive i hi with h0 | h0
    · exact .inl (by rw [h0, mul_zero])
    · exact .inr (by rw [h0, mul_zero])
  · rw [w3, w1]
    refine ⟨?_, mul_nonneg hq.le (h.loss i hi).2⟩
    rw [(h.loss i hi).1]
    ring
  · rw [w5, w4, w1, w2, w3, h.balance i hi]
    ring
  · obtain ⟨h1, h2, h3, h4⟩ := h.stored i hi
    rw [w4, w5]
    exact ⟨mul_nonneg hq.le h1, mul_le_mul_of_nonneg_left h2 hq.le, mul_nonneg hq.le h3, mul_le_mul_of_nonneg_left h4 hq.le⟩
  · rw [w5, w4, h.chain i hi]
  · rw [w4, h.start]
  · rw [w5]
    exact congrArg (q * ·) h.stop

theorem map_getD_mul (l : List ℚ) (i : Nat) : (l.map (q * ·)).getD i 0 = q * l.getD i 0 := by
  rw [List.getD_eq_getElem?_getD, List.getElem?_map, List.getD_eq_getElem?_getD]
  cases l[i]? <;> simp

theorem asset_scaled (hq : 0 < q) {a : Asset} (he : ∀ c, a ≠ .evs c) (h : a.Plays s flags W) :
    (a.scaled q).Plays (s.scaled q) flags (scaleTable q W) := by
  have hg : ∀ i < (s.scaled q).data.n, id i < s.data.n := fun i hi => hi
  cases a with
  | battery c => exact battery_scaled hq h
  | boiler c => exact boiler_stretch (c := c) hq hg rfl rfl (limit_scaled _) (limit_scaled _) (scale_stretched q W _ (by decide +kernel)) h
  | chp c => exact chp_stretch (c := c) hq hg rfl rfl rfl rfl (limit_scaled _) (limit_scaled _) (scale_stretched q W _ (by decide +kernel)) h
  | evs c => exact absurd rfl (he c)
  | heatPump c => exact heatPump_stretch (c := c) hq hg rfl rfl (limit_scaled _) (scale_stretched q W _ (by decide +kernel)) h
  | renewable c =>
    exact renewable_stretch (c := c) hq hg rfl rfl (fun i => map_getD_mul c.generation i) (scale_stretched q W _ (by decide +kernel)) h
  | spill c => exact spill_stretch hq hg (scale_stretched q W _ (by decide +kernel)) h
  | valve c => exact valve_stretch hq hg (scale_stretched q W _ (by decide +kernel)) h

/-! ### the site -/

theorem reports_scaled (a : Asset) (flow : String) : (a.scaled q).reports flow = a.reports flow := by cases a <;> rfl

theorem penalised_scaled (a : Asset) : (a.scaled q).penalised = a.penalised := by cases a <;> rfl

theorem rowSum_scaled {cols : List String} (h : ∀ c ∈ cols, ∃ u attr, c = u ++ "-" ++ attr ∧ NoDash attr ∧ attr ∉ rateColumns) (i : Nat) :
    rowSum (scaleTable q W) cols i = rowSum W cols i * q := by
  unfold rowSum
  rw [← list_sum_mul_right]
  congr 1
  refine List.map_congr_left fun c hc => ?_
  obtain ⟨u, attr, rfl, h1, h2⟩ := h c hc
  rw [scale_dash h1 h2, mul_comm]

theorem flows_energy {flow : String} (h : flow ∈ totalFlows) : NoDash flow ∧ flow ∉ rateColumns := by
  revert flow
  unfold NoDash
  decide +kernel

theorem assetSum_scaled {flow : String} (h : flow ∈ totalFlows) (i : Nat) : (s.scaled q).assetSum (scaleTable q W) flow i = q * s.assetSum W flow i := by
  unfold Site.assetSum
  rw [mul_comm, ← list_sum_mul_right]
  show (((s.assets.map (Asset.scaled q)).map _)).sum = _
  rw [List.map_map]
  congr 1
  refine List.map_congr_left fun a _ => ?_
  simp only [Function.comp_apply, reports_scaled]
  rw [rowSum_scaled]
  intro c hc
  unfold Asset.reports at hc
  split at hc
  · obtain ⟨u, -, rfl⟩ := List.mem_map.1 hc
    exact ⟨u, flow, rfl, flows_energy h⟩
  · simp at hc

theorem dispatch_scaled (hq : 0 < q) (he : ∀ c, Asset.evs c ∉ s.assets) (h : s.Dispatch flags W) : (s.scaled q).Dispatch flags (scaleTable q W) := by
  have si := scale_site (q := q) (W := W) (col := "site-import_power_mwh") "import_power_mwh" rfl (by decide +kernel) (by decide +kernel)
  have se := scale_site (q := q) (W := W) (col := "site-export_power_mwh") "export_power_mwh" rfl (by decide +kernel) (by decide +kernel)
  have sl := scale_site (q := q) (W := W) (col := "site-electric_load_mwh") "electric_load_mwh" rfl (by decide +kernel) (by decide +kernel)
  have sh := scale_site (q := q) (W := W) (col := "site-high_temperature_load_mwh") "high_temperature_load_mwh" rfl (by decide +kernel) (by decide +kernel)
  have sll := scale_site (q := q) (W := W) (col := "site-low_temperature_load_mwh") "low_temperature_load_mwh" rfl (by decide +kernel) (by decide +kernel)
  have slg := scale_site (q := q) (W := W) (col := "site-low_temperature_generation_mwh") "low_temperature_generation_mwh" rfl (by decide +kernel) (by decide +kernel)
  have r1 := scale_rate (q := q) (W := W) (col := "site-electricity_prices") "electricity_prices" rfl (by decide +kernel) (by decide +kernel)
  have r2 := scale_rate (q := q) (W := W) (col := "site-export_electricity_prices") "export_electricity_prices" rfl (by decide +kernel) (by decide +kernel)
  have r3 := scale_rate (q := q) (W := W) (col := "site-electricity_carbon_intensities") "electricity_carbon_intensities" rfl (by decide +kernel) (by decide +kernel)
  have r4 := scale_rate (q := q) (W := W) (col := "site-gas_prices") "gas_prices" rfl (by decide +kernel) (by decide +kernel)
  have A : ∀ flow, flow ∈ totalFlows → ∀ i, (s.scaled q).assetSum (scaleTable q W) flow i = q * s.assetSum W flow i := fun flow hf i => assetSum_scaled hf i
  refine ⟨⟨fun i hi => ?_, fun i hi => ?_⟩, fun i hi => ?_, fun i hi => ?_, fun i hi => ?_, fun i hi => ?_, fun i hi => ?_, fun i hi => ?_, fun a ha => ?_⟩
  · rw [r1, r2, r3, r4]
    exact h.inputs.prices i hi
  · obtain ⟨p1, p2, p3, p4⟩ := h.inputs.loads i hi
    rw [sl, sh, sll, slg, p1, p2, p3, p4]
    simp only [Site.scaled, SiteData.scaled, map_getD_mul, and_self]
  · obtain ⟨p1, p2⟩ := h.imports i hi
    show _ ∧ _ ≤ q * s.importLimit * (s.scaled q).freqMins / 60
    rw [si, limit_scaled]
    exact ⟨mul_nonneg hq.le p1, mul_le_mul_of_nonneg_left p2 hq.le⟩
  · obtain ⟨p1, p2⟩ := h.exports i hi
    show _ ∧ _ ≤ q * s.exportLimit * (s.scaled q).freqMins / 60
    rw [se, limit_scaled]
    exact ⟨mul_nonneg hq.le p1, mul_le_mul_of_nonneg_left p2 hq.le⟩
  · rw [si, se]
    rcases h.oneWay i hi with h0 | h0
    · exact .inl (by rw [h0, mul_zero])
    · exact .inr (by rw [h0, mul_zero])
  · rw [si, se, sl, A _ (by decide), A _ (by decide), A _ (by decide), A _ (by decide), ← mul_add, ← mul_add, h.electricity i hi]
    ring
  · rw [sh, A _ (by decide), A _ (by decide), h.high i hi, ← mul_add]
  · rw [slg, sll, A _ (by decide), A _ (by decide), ← mul_add, h.low i hi, ← mul_add]
  · obtain ⟨b, hb, rfl⟩ := List.mem_map.1 ha
    exact asset_scaled hq (fun c e => he c (e ▸ hb)) (h.assets b hb)

theorem values_scaled : (s.scaled q).readCost (scaleTable q W) = q * s.readCost W ∧
    (s.scaled q).readEmissions (scaleTable q W) = q * s.readEmissions W ∧ (s.scaled q).readSpill (scaleTable q W) = q * s.readSpill W := by
  have si := scale_site (q := q) (W := W) (col := "site-import_power_mwh") "import_power_mwh" rfl (by decide +kernel) (by decide +kernel)
  have se := scale_site (q := q) (W := W) (col := "site-export_power_mwh") "export_power_mwh" rfl (by decide +kernel) (by decide +kernel)
  have r1 := scale_rate (q := q) (W := W) (col := "site-electricity_prices") "electricity_prices" rfl (by decide +kernel) (by decide +kernel)
  have r2 := scale_rate (q := q) (W := W) (col := "site-export_electricity_prices") "export_electricity_prices" rfl (by decide +kernel) (by decide +kernel)
  have r3 := scale_rate (q := q) (W := W) (col := "site-electricity_carbon_intensities") "electricity_carbon_intensities" rfl (by decide +kernel) (by decide +kernel)
  have r4 := scale_rate (q := q) (W := W) (col := "site-gas_prices") "gas_prices" rfl (by decide +kernel) (by decide +kernel)
  have A : ∀ i, (s.scaled q).assetSum (scaleTable q W) "gas_consumption_mwh" i = q * s.assetSum W "gas_consumption_mwh" i :=
    fun i => assetSum_scaled (by decide) i
  refine ⟨?_, ?_, ?_⟩
  · unfold Site.readCost Site.sumIntervals
    rw [mul_comm, ← list_sum_mul_right]
    show ((List.range s.data.n).map _).sum = _
    congr 1
    refine List.map_congr_left fun i _ => ?_
    rw [si, se, r1, r2, r4, A]
    ring
  · unfold Site.readEmissions Site.sumIntervals
    rw [mul_comm, ← list_sum_mul_right]
    show ((List.range s.data.n).map _).sum = _
    congr 1
    refine List.map_congr_left fun i _ => ?_
    rw [si, se, r3, A]
    ring
  · unfold Site.readSpill Site.sumIntervals
    rw [mul_comm, ← list_sum_mul_right]
    show ((List.range s.data.n).map _).sum = _
    congr 1
    refine List.map_congr_left fun i _ => ?_
    rw [← list_sum_mul_right]
    show (((s.assets.map (Asset.scaled q)).map _)).sum = _
    rw [List.map_map]
    congr 1
    refine List.map_congr_left fun a _ => ?_
    simp only [Function.comp_apply, penalised_scaled]
    rw [rowSum_scaled]
    intro c hc
    cases a with
    | spill b =>
      simp only [Asset.penalised, List.mem_cons, List.not_mem_nil, or_false] at hc
      rcases hc with rfl | rfl | rfl
      · exact ⟨b.name, "electric_generation_mwh", by rw [String.append_assoc]; rfl, flows_energy (by decide)⟩
      · exact ⟨b.name, "electric_load_mwh", by rw [String.append_assoc]; rfl, flows_energy (by decide)⟩
      · exact ⟨b.name, "high_temperature_generation_mwh", by rw [String.append_assoc]; rfl, flows_energy (by decide)⟩
    | evs b =>
      simp only [Asset.penalised, List.mem_map] at hc
      obtain ⟨ch, -, rfl⟩ := hc
      exact ⟨b.name ++ "-" ++ ch.name, "electric_charge_mwh", (String.append_assoc : (b.name ++ "-" ++ ch.name) ++ "-" ++ "electric_charge_mwh" =
        (b.name ++ "-" ++ ch.name) ++ ("-" ++ "electric_charge_mwh")).symm, flows_energy (by decide)⟩
    | _ => simp [Asset.penalised] at hc

/-- Scaling back. -/
theorem scaled_back (hq : 0 < q) : (s.scaled q).scaled q⁻¹ = s := by
  have e : ∀ x : ℚ, q⁻¹ * (q * x) = x := fun x => by rw [← mul_assoc, inv_mul_cancel₀ hq.ne', one_mul]
  have m : ∀ l : List ℚ, (l.map (q * ·)).map (q⁻¹ * ·) = l := by
    intro l
    rw [List.map_map]
    conv_rhs => rw [← List.map_id l]
    exact List.map_congr_left fun x _ => e x
  have ha : (s.assets.map (Asset.scaled q)).map (Asset.scaled q⁻¹) = s.assets := by
    rw [List.map_map]
    conv_rhs => rw [← List.map_id s.assets]
    refine List.map_congr_left fun a _ => ?_
    cases a <;> simp only [Function.comp_apply, Asset.scaled, id_eq, e, m]
  obtain ⟨as, d, f, il, el, cs⟩ := s
  simp only at ha
  simp only [Site.scaled, SiteData.scaled, ha, e, m]

end

end EPL
