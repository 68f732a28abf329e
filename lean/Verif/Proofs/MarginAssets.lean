/-
What an optimal dispatch leaves no room for, at any prices: one asset against the grid, and one asset against another.
-/
import Verif.Proofs.Margin

namespace EPL

section
variable {s : Site} {flags : Flags} {V : String → Nat → ℚ} {p e g : Nat → ℚ} {j : Nat}

theorem spike_range {A B : Nat → ℚ} {v : Nat → ℚ} {n : Nat} {x : ℚ} (h : ∀ i < n, A i ≤ v i ∧ v i ≤ B i) (hj : A j ≤ v j + x ∧ v j + x ≤ B j) :
    ∀ i < n, A i ≤ v i + spike j x i ∧ v i + spike j x i ≤ B i := by
  intro i hi
  by_cases e : i = j
  · subst e; rw [spike_at]; exact hj
  · rw [spike_off _ e, add_zero]; exact h i hi

theorem spike_nonneg {v : Nat → ℚ} {n : Nat} {x : ℚ} (h : ∀ i < n, 0 ≤ v i) (hj : 0 ≤ v j + x) : ∀ i < n, 0 ≤ v i + spike j x i := by
  intro i hi
  by_cases e : i = j
  · subst e; rw [spike_at]; exact hj
  · rw [spike_off _ e, add_zero]; exact h i hi

theorem spike_sum {x y z : ℚ} (h : x - y = z) (i : Nat) : spike j x i - spike j y i = spike j z i := by
  unfold spike
  split
  · exact h
  · norm_num

/-- What a change of a renewable generator costs. -/
theorem renewable_gain (hc : s.ClearNames) (hw : ∀ a ∈ s.assets, a.WellNamed) (h : s.Dispatch flags V) (ho : s.NoGain flags V p e g) {c : RenewableCfg}
    (ha : Asset.renewable c ∈ s.assets) (hj : j < s.data.n) {x y z : ℚ} (hset : s.Settles V j y z) (hyz : y - z = -x)
    (hx : c.lowerBoundPct * c.generation.getD j 0 ≤ V (c.name ++ "-electric_generation_mwh") j + x ∧
      V (c.name ++ "-electric_generation_mwh") j + x ≤ c.generation.getD j 0) : 0 ≤ y * p j - z * e j := by
  have hp := renewable_piece h ha (spike_range (j := j) (x := x) ((h.assets _ ha : c.Plays s V).generation) hx)
  have ch : s.Change flags V _ (spike j y) (spike j z) := change_one hc hw hp (settles_spike h hset) (fun i _ => ?_) (fun i _ => ?_) (fun i _ => ?_)
  · have := noGain_at ho hj ch (fun k i hne => bump_spike_off _ _ _ _ hne)
    rw [piece_sum hc hw hp, piece_spill hc hw hp, rowSum_single rfl] at this
    simpa [Asset.flows, Asset.penalised, rowSum] using this
  · simp only [rowSum_single (a := .renewable c) rfl, Asset.flows, Asset.name, List.mem_singleton, String.reduceEq, String.reduceAppend, if_true, if_false,
      bump_name]
    rw [spike_sum hyz]
    unfold spike
    split <;> norm_num
  · simp only [rowSum_single (a := .renewable c) rfl, Asset.flows, List.mem_singleton, String.reduceEq, if_false]
  · simp only [rowSum_single (a := .renewable c) rfl, Asset.flows, List.mem_singleton, String.reduceEq, if_false]

theorem renewable_up (hc : s.ClearNames) (hw : ∀ a ∈ s.assets, a.WellNamed) (h : s.Dispatch flags V) (ho : s.NoGain flags V p e g) {c : RenewableCfg}
    (ha : Asset.renewable c ∈ s.assets) (hj : j < s.data.n) (hcur : V (c.name ++ "-electric_generation_mwh") j < c.generation.getD j 0)
    (hgive : s.CanGive V j) : (if 0 < V "site-import_power_mwh" j then p j else e j) ≤ 0 := by
  obtain ⟨ε, h0, h1⟩ := give h hj hgive
  have hpos : 0 < min ε (c.generation.getD j 0 - V (c.name ++ "-electric_generation_mwh") j) := lt_min h0 (by linarith)
  obtain ⟨y, z, k1, k2, k3⟩ := h1 _ hpos.le (min_le_left _ _)
  have := renewable_gain hc hw h ho ha hj k1 k2
    ⟨by linarith [((h.assets _ ha : c.Plays s V).generation j hj).1],
      by linarith [min_le_right ε (c.generation.getD j 0 - V (c.name ++ "-electric_generation_mwh") j)]⟩
  rw [k3] at this
  by_contra hn
  have := mul_pos hpos (not_le.1 hn)
  linarith

theorem renewable_down (hc : s.ClearNames) (hw : ∀ a ∈ s.assets, a.WellNamed) (h : s.Dispatch flags V) (ho : s.NoGain flags V p e g) {c : RenewableCfg}
    (ha : Asset.renewable c ∈ s.assets) (hj : j < s.data.n)
    (hcur : c.lowerBoundPct * c.generation.getD j 0 < V (c.name ++ "-electric_generation_mwh") j)
    (htake : s.CanTake V j) : 0 ≤ (if 0 < V "site-export_power_mwh" j then e j else p j) := by
  obtain ⟨ε, h0, h1⟩ := take h hj htake
  have hpos : 0 < min ε (V (c.name ++ "-electric_generation_mwh") j - c.lowerBoundPct * c.generation.getD j 0) := lt_min h0 (by linarith)
  obtain ⟨y, z, k1, k2, k3⟩ := h1 _ hpos.le (min_le_left _ _)
  have := renewable_gain (x := -min ε (V (c.name ++ "-electric_generation_mwh") j - c.lowerBoundPct * c.generation.getD j 0)) hc hw h ho ha hj k1
    (by rw [k2]; ring)
    ⟨by linarith [min_le_right ε (V (c.name ++ "-electric_generation_mwh") j - c.lowerBoundPct * c.generation.getD j 0)],
      by linarith [((h.assets _ ha : c.Plays s V).generation j hj).2]⟩
  rw [k3] at this
  by_contra hn
  have := mul_neg_of_pos_of_neg hpos (not_le.1 hn)
  linarith

/-- A less efficient boiler runs above its minimum only if the more efficient one runs at its maximum. -/
theorem boiler_order (hc : s.ClearNames) (hw : ∀ a ∈ s.assets, a.WellNamed) (h : s.Dispatch flags V) (ho : s.NoGain flags V p e g) {b c : BoilerCfg}
    (hb : Asset.boiler b ∈ s.assets) (hcm : Asset.boiler c ∈ s.assets) (h0 : 0 < c.efficiency) (hlt : c.efficiency < b.efficiency) (hj : j < s.data.n)
    (hg : 0 < g j) (hmin : c.heatMin * s.freqMins / 60 < V (c.name ++ "-high_temperature_generation_mwh") j)
    (hon : 0 < V (c.name ++ "-high_temperature_generation_mwh") j) :
    V (b.name ++ "-high_temperature_generation_mwh") j = b.heatMax * s.freqMins / 60 := by
  have pb : b.Plays s V := h.assets _ hb
  have pc : c.Plays s V := h.assets _ hcm
  have hb0 : 0 < b.efficiency := h0.trans hlt
  by_contra hne
  have hroom : V (b.name ++ "-high_temperature_generation_mwh") j < b.heatMax * s.freqMins / 60 := lt_of_le_of_ne (pb.heat j hj).2 hne
  have hheat : ∀ (d : BoilerCfg), Asset.boiler d ∈ s.assets → 0 < d.efficiency → ∀ i < s.data.n, 0 ≤ V (d.name ++ "-high_temperature_generation_mwh") i := by
    intro d hd hd0 i hi
    have pd : d.Plays s V := h.assets _ hd
    rw [← pd.efficiency i hi]
    exact mul_nonneg hd0.le (pd.gas i hi)
  obtain ⟨x, hx0, hx1, hx2, hx3⟩ : ∃ x : ℚ, 0 < x ∧ V (b.name ++ "-high_temperature_generation_mwh") j + x ≤ b.heatMax * s.freqMins / 60 ∧
      c.heatMin * s.freqMins / 60 ≤ V (c.name ++ "-high_temperature_generation_mwh") j - x ∧
      0 ≤ V (c.name ++ "-high_temperature_generation_mwh") j - x := by
    refine ⟨min (b.heatMax * s.freqMins / 60 - V (b.name ++ "-high_temperature_generation_mwh") j)
      (min (V (c.name ++ "-high_temperature_generation_mwh") j - c.heatMin * s.freqMins / 60) (V (c.name ++ "-high_temperature_generation_mwh") j)),
      lt_min (by linarith) (lt_min (by linarith) hon), ?_, ?_, ?_⟩
    · linarith [min_le_left (b.heatMax * s.freqMins / 60 - V (b.name ++ "-high_temperature_generation_mwh") j)
        (min (V (c.name ++ "-high_temperature_generation_mwh") j - c.heatMin * s.freqMins / 60) (V (c.name ++ "-high_temperature_generation_mwh") j))]
    · linarith [(min_le_right (b.heatMax * s.freqMins / 60 - V (b.name ++ "-high_temperature_generation_mwh") j)
        (min (V (c.name ++ "-high_temperature_generation_mwh") j - c.heatMin * s.freqMins / 60) (V (c.name ++ "-high_temperature_generation_mwh") j))).trans
        (min_le_left _ _)]
    · linarith [(min_le_right (b.heatMax * s.freqMins / 60 - V (b.name ++ "-high_temperature_generation_mwh") j)
        (min (V (c.name ++ "-high_temperature_generation_mwh") j - c.heatMin * s.freqMins / 60) (V (c.name ++ "-high_temperature_generation_mwh") j))).trans
        (min_le_right _ _)]
  have q1 := boiler_piece h hb hb0 (spike_range (j := j) (x := x) pb.heat ⟨by linarith [(pb.heat j hj).1], hx1⟩)
    (spike_nonneg (hheat b hb hb0) (by linarith [hheat b hb hb0 j hj]))
  have q2 := boiler_piece h hcm h0 (spike_range (j := j) (x := -x) pc.heat ⟨by linarith, by linarith [(pc.heat j hj).2]⟩)
    (spike_nonneg (hheat c hcm h0) (by linarith))
  have hbc : Asset.boiler b ≠ Asset.boiler c := by
    intro e
    cases e
    exact lt_irrefl _ hlt
  have ch : s.Change flags V _ (spike j 0) (spike j 0) := change_two hc hw hbc q1 q2 (settles_spike h (settles_zero h hj)) (fun i _ => ?_) (fun i _ => ?_)
    (fun i _ => ?_)
  · have := noGain_at ho hj ch (fun k i hne => by
      simp only [Pi.add_apply, bump, spike_off _ hne, ite_self, zero_div, add_zero])
    rw [assetSum_add, spillAt_add, piece_sum hc hw q1, piece_sum hc hw q2, piece_spill hc hw q1, piece_spill hc hw q2, rowSum_single rfl,
      rowSum_single rfl] at this
    simp only [Asset.flows, Asset.penalised, Asset.name, rowSum, List.map_nil, List.sum_nil, List.mem_cons, List.not_mem_nil, or_false, String.reduceEq,
      or_true, true_or, if_true, if_false, String.reduceAppend, Pi.add_apply, bump_name, spike_at, zero_mul, zero_add, add_zero, sub_zero, mul_zero] at this
    have e1 : x / b.efficiency < x / c.efficiency := div_lt_div_of_pos_left hx0 h0 hlt
    have e2 : -x / c.efficiency = -(x / c.efficiency) := neg_div _ _
    rw [e2] at this
    have := mul_neg_of_neg_of_pos (show x / b.efficiency + -(x / c.efficiency) < 0 by linarith) hg
    linarith
  · simp only [rowSum_single (a := .boiler _) rfl, Asset.flows, List.mem_cons, List.not_mem_nil, or_false, String.reduceEq, if_false, spike_zero, sub_zero,
      add_zero, Pi.zero_apply]
  · simp only [rowSum_single (a := .boiler _) rfl, Asset.flows, Asset.name, List.mem_cons, List.not_mem_nil, or_false, String.reduceEq, or_true, true_or,
      if_true, if_false, String.reduceAppend, Pi.add_apply, bump_name, add_zero]
    unfold spike
    split <;> norm_num
  · simp only [rowSum_single (a := .boiler _) rfl, Asset.flows, List.mem_cons, List.not_mem_nil, or_false, String.reduceEq, if_false, add_zero]

/-- What a change of the electricity of a spill asset costs. -/
theorem spill_gain (hc : s.ClearNames) (hw : ∀ a ∈ s.assets, a.WellNamed) (h : s.Dispatch flags V) (ho : s.NoGain flags V p e g) {c : SpillCfg}
    (ha : Asset.spill c ∈ s.assets) (hj : j < s.data.n) {x w y z : ℚ} (hset : s.Settles V j y z) (hyz : y - z = w - x)
    (hx : 0 ≤ V (c.name ++ "-electric_generation_mwh") j + x) (hl : 0 ≤ V (c.name ++ "-electric_load_mwh") j + w) :
    0 ≤ y * p j - z * e j + spillPenalty * (x + w) := by
  have pc : c.Plays s V := h.assets _ ha
  have hp := spill_piece h ha (spike_nonneg (j := j) (x := x) (fun i hi => (pc.positive i hi).1) hx)
    (spike_nonneg (j := j) (x := w) (fun i hi => (pc.positive i hi).2.1) hl)
    (spike_nonneg (j := j) (x := 0) (fun i hi => (pc.positive i hi).2.2.1) (by linarith [(pc.positive j hj).2.2.1]))
  have ch : s.Change flags V _ (spike j y) (spike j z) := change_one hc hw hp (settles_spike h hset) (fun i _ => ?_) (fun i _ => ?_) (fun i _ => ?_)
  · have := noGain_at ho hj ch (fun k i hne => by simp only [Pi.add_apply, bump, spike_off _ hne, ite_self, add_zero])
    rw [piece_sum hc hw hp, piece_spill hc hw hp, rowSum_single rfl] at this
    simp only [Asset.flows, Asset.penalised, Asset.name, rowSum, List.map_cons, List.sum_cons, List.map_nil, List.sum_nil, List.mem_cons, List.not_mem_nil,
      or_false, String.reduceEq, or_true, if_true, if_false, String.reduceAppend, Pi.add_apply, bump_name, spike_at, zero_mul, zero_add, add_zero] at this
    exact this
  · simp only [rowSum_single (a := .spill c) rfl, Asset.flows, Asset.name, List.mem_cons, List.not_mem_nil, or_false, String.reduceEq, or_true, true_or,
      String.reduceAppend, if_true, if_false, Pi.add_apply, bump_name, add_zero, zero_add]
    rw [spike_sum hyz]
    unfold spike
    split
    · ring
    · norm_num
  · simp only [rowSum_single (a := .spill c) rfl, Asset.flows, Asset.name, List.mem_cons, List.not_mem_nil, or_false, String.reduceEq, or_true, true_or,
      String.reduceAppend, if_true, if_false, Pi.add_apply, bump_name, add_zero, zero_add, spike_zero, Pi.zero_apply]
  · simp only [rowSum_single (a := .spill c) rfl, Asset.flows, Asset.name, List.mem_cons, List.not_mem_nil, or_false, String.reduceEq, or_true, true_or,
      String.reduceAppend, if_true, if_false, Pi.add_apply, bump_name, add_zero]

theorem penalty_pos : 0 < spillPenalty := by unfold spillPenalty; norm_num

/-- Electricity appears from nowhere only if the grid delivers no more, or only at the price of the penalty. -/
theorem spill_import (hc : s.ClearNames) (hw : ∀ a ∈ s.assets, a.WellNamed) (h : s.Dispatch flags V) (ho : s.NoGain flags V p e g) {c : SpillCfg}
    (ha : Asset.spill c ∈ s.assets) (hj : j < s.data.n) (hx : 0 < V (c.name ++ "-electric_generation_mwh") j) (htake : s.CanTake V j) :
    spillPenalty ≤ (if 0 < V "site-export_power_mwh" j then e j else p j) := by
  have pc : c.Plays s V := h.assets _ ha
  obtain ⟨ε, h0, h1⟩ := take h hj htake
  have hpos : 0 < min ε (V (c.name ++ "-electric_generation_mwh") j) := lt_min h0 hx
  obtain ⟨y, z, k1, k2, k3⟩ := h1 _ hpos.le (min_le_left _ _)
  have := spill_gain (x := -min ε (V (c.name ++ "-electric_generation_mwh") j)) (w := 0) hc hw h ho ha hj k1 (by rw [k2]; ring)
    (by linarith [min_le_right ε (V (c.name ++ "-electric_generation_mwh") j)]) (by linarith [(pc.positive j hj).2.1])
  rw [k3] at this
  by_contra hn
  have := mul_neg_of_pos_of_neg hpos (sub_neg.2 (not_le.1 hn))
  linarith

/-- Electricity is thrown away only if the grid absorbs no more, or only at the price of the penalty. -/
theorem spill_export (hc : s.ClearNames) (hw : ∀ a ∈ s.assets, a.WellNamed) (h : s.Dispatch flags V) (ho : s.NoGain flags V p e g) {c : SpillCfg}
    (ha : Asset.spill c ∈ s.assets) (hj : j < s.data.n) (hx : 0 < V (c.name ++ "-electric_load_mwh") j) (hgive : s.CanGive V j) :
    (if 0 < V "site-import_power_mwh" j then p j else e j) ≤ -spillPenalty := by
  have pc : c.Plays s V := h.assets _ ha
  obtain ⟨ε, h0, h1⟩ := give h hj hgive
  have hpos : 0 < min ε (V (c.name ++ "-electric_load_mwh") j) := lt_min h0 hx
  obtain ⟨y, z, k1, k2, k3⟩ := h1 _ hpos.le (min_le_left _ _)
  have := spill_gain (x := 0) (w := -min ε (V (c.name ++ "-electric_load_mwh") j)) hc hw h ho ha hj k1 (by rw [k2]; ring)
    (by linarith [(pc.positive j hj).1]) (by linarith [min_le_right ε (V (c.name ++ "-electric_load_mwh") j)])
  rw [k3] at this
  by_contra hn
  have := mul_pos hpos (show 0 < (if 0 < V "site-import_power_mwh" j then p j else e j) + spillPenalty by linarith [not_le.1 hn])
  linarith

/-- A spill asset never makes and takes electricity at once. -/
theorem spill_oneWay (hc : s.ClearNames) (hw : ∀ a ∈ s.assets, a.WellNamed) (h : s.Dispatch flags V) (ho : s.NoGain flags V p e g) {c : SpillCfg}
    (ha : Asset.spill c ∈ s.assets) (hj : j < s.data.n) :
    V (c.name ++ "-electric_generation_mwh") j = 0 ∨ V (c.name ++ "-electric_load_mwh") j = 0 := by
  have pc : c.Plays s V := h.assets _ ha
  obtain ⟨a1, a2, -⟩ := pc.positive j hj
  by_contra hn
  rw [not_or] at hn
  have hpos : 0 < min (V (c.name ++ "-electric_generation_mwh") j) (V (c.name ++ "-electric_load_mwh") j) :=
    lt_min (lt_of_le_of_ne a1 (Ne.symm hn.1)) (lt_of_le_of_ne a2 (Ne.symm hn.2))
  have m1 := min_le_left (V (c.name ++ "-electric_generation_mwh") j) (V (c.name ++ "-electric_load_mwh") j)
  have m2 := min_le_right (V (c.name ++ "-electric_generation_mwh") j) (V (c.name ++ "-electric_load_mwh") j)
  have := spill_gain (x := -min (V (c.name ++ "-electric_generation_mwh") j) (V (c.name ++ "-electric_load_mwh") j))
    (w := -min (V (c.name ++ "-electric_generation_mwh") j) (V (c.name ++ "-electric_load_mwh") j)) hc hw h ho ha hj (settles_zero h hj) (by ring)
    (by linarith) (by linarith)
  have := mul_pos penalty_pos hpos
  linarith

/-- Electricity appears from nowhere only if every renewable generator gives what it has. -/
theorem spill_renewable (hc : s.ClearNames) (hw : ∀ a ∈ s.assets, a.WellNamed) (h : s.Dispatch flags V) (ho : s.NoGain flags V p e g) {c : SpillCfg}
    (ha : Asset.spill c ∈ s.assets) {b : RenewableCfg} (hb : Asset.renewable b ∈ s.assets) (hj : j < s.data.n) :
    (0 < V (c.name ++ "-electric_generation_mwh") j → V (b.name ++ "-electric_generation_mwh") j = b.generation.getD j 0) ∧
    (0 < V (c.name ++ "-electric_load_mwh") j → V (b.name ++ "-electric_generation_mwh") j = b.lowerBoundPct * b.generation.getD j 0) := by
  have pc : c.Plays s V := h.assets _ ha
  have pb : b.Plays s V := h.assets _ hb
  have key : ∀ x w v : ℚ, w - x = v → 0 ≤ V (c.name ++ "-electric_generation_mwh") j + x → 0 ≤ V (c.name ++ "-electric_load_mwh") j + w →
      b.lowerBoundPct * b.generation.getD j 0 ≤ V (b.name ++ "-electric_generation_mwh") j + v →
      V (b.name ++ "-electric_generation_mwh") j + v ≤ b.generation.getD j 0 → 0 ≤ spillPenalty * (x + w) := by
    intro x w v hv hx hl h1 h2
    have hp := spill_piece h ha (spike_nonneg (j := j) (x := x) (fun i hi => (pc.positive i hi).1) hx)
      (spike_nonneg (j := j) (x := w) (fun i hi => (pc.positive i hi).2.1) hl)
      (spike_nonneg (j := j) (x := 0) (fun i hi => (pc.positive i hi).2.2.1) (by linarith [(pc.positive j hj).2.2.1]))
    have hq := renewable_piece h hb (spike_range (j := j) (x := v) pb.generation ⟨h1, h2⟩)
    have ch : s.Change flags V _ (spike j 0) (spike j 0) := change_two hc hw (by simp) hp hq (settles_spike h (settles_zero h hj))
      (fun i _ => ?_) (fun i _ => ?_) (fun i _ => ?_)
    · have := noGain_at ho hj ch (fun k i hne => by simp only [Pi.add_apply, bump, spike_off _ hne, ite_self, add_zero])
      rw [assetSum_add, spillAt_add, piece_sum hc hw hp, piece_sum hc hw hq, piece_spill hc hw hp, piece_spill hc hw hq, rowSum_single rfl,
        rowSum_single rfl] at this
      simp only [Asset.flows, Asset.penalised, Asset.name, rowSum, List.map_cons, List.sum_cons, List.map_nil, List.sum_nil, List.mem_cons,
        List.not_mem_nil, or_false, String.reduceEq, or_true, if_true, if_false, String.reduceAppend, Pi.add_apply, bump_name, spike_at, zero_mul,
        zero_add, add_zero, sub_zero] at this
      exact this
    · simp only [rowSum_single (a := .spill _) rfl, rowSum_single (a := .renewable _) rfl, Asset.flows, Asset.name, List.mem_cons, List.not_mem_nil,
        or_false, String.reduceEq, or_true, true_or, String.reduceAppend, if_true, if_false, Pi.add_apply, bump_name, add_zero, zero_add, spike_zero,
        Pi.zero_apply, sub_zero]
      unfold spike
      split
      · linarith
      · norm_num
    · simp only [rowSum_single (a := .spill _) rfl, rowSum_single (a := .renewable _) rfl, Asset.flows, Asset.name, List.mem_cons, List.not_mem_nil,
        or_false, String.reduceEq, or_true, true_or, String.reduceAppend, if_true, if_false, Pi.add_apply, bump_name, add_zero, zero_add, spike_zero,
        Pi.zero_apply]
    · simp only [rowSum_single (a := .spill _) rfl, rowSum_single (a := .renewable _) rfl, Asset.flows, Asset.name, List.mem_cons, List.not_mem_nil,
        or_false, String.reduceEq, or_true, true_or, String.reduceAppend, if_true, if_false, Pi.add_apply, bump_name, add_zero]
  obtain ⟨a1, a2, -⟩ := pc.positive j hj
  obtain ⟨b1, b2⟩ := pb.generation j hj
  constructor
  · intro hx
    by_contra hne
    have hpos : 0 < min (V (c.name ++ "-electric_generation_mwh") j) (b.generation.getD j 0 - V (b.name ++ "-electric_generation_mwh") j) :=
      lt_min hx (sub_pos.2 (lt_of_le_of_ne b2 hne))
    have m1 := min_le_left (V (c.name ++ "-electric_generation_mwh") j) (b.generation.getD j 0 - V (b.name ++ "-electric_generation_mwh") j)
    have m2 := min_le_right (V (c.name ++ "-electric_generation_mwh") j) (b.generation.getD j 0 - V (b.name ++ "-electric_generation_mwh") j)
    have := key (-min (V (c.name ++ "-electric_generation_mwh") j) (b.generation.getD j 0 - V (b.name ++ "-electric_generation_mwh") j)) 0
      (min (V (c.name ++ "-electric_generation_mwh") j) (b.generation.getD j 0 - V (b.name ++ "-electric_generation_mwh") j)) (by ring)
      (by linarith) (by linarith) (by linarith) (by linarith)
    have := mul_pos penalty_pos hpos
    linarith
  · intro hx
    by_contra hne
    have hpos : 0 < min (V (c.name ++ "-electric_load_mwh") j) (V (b.name ++ "-electric_generation_mwh") j - b.lowerBoundPct * b.generation.getD j 0) :=
      lt_min hx (sub_pos.2 (lt_of_le_of_ne b1 (Ne.symm hne)))
    have m1 := min_le_left (V (c.name ++ "-electric_load_mwh") j) (V (b.name ++ "-electric_generation_mwh") j - b.lowerBoundPct * b.generation.getD j 0)
    have m2 := min_le_right (V (c.name ++ "-electric_load_mwh") j) (V (b.name ++ "-electric_generation_mwh") j - b.lowerBoundPct * b.generation.getD j 0)
    have := key 0 (-min (V (c.name ++ "-electric_load_mwh") j) (V (b.name ++ "-electric_generation_mwh") j - b.lowerBoundPct * b.generation.getD j 0))
      (-min (V (c.name ++ "-electric_load_mwh") j) (V (b.name ++ "-electric_generation_mwh") j - b.lowerBoundPct * b.generation.getD j 0)) (by ring)
      (by linarith) (by linarith) (by linarith) (by linarith)
    have := mul_pos penalty_pos hpos
    linarith

/-- High temperature heat appears from nowhere only if every boiler runs at its maximum, or burns gas at the price of the penalty. -/
theorem spill_boiler (hc : s.ClearNames) (hw : ∀ a ∈ s.assets, a.WellNamed) (h : s.Dispatch flags V) (ho : s.NoGain flags V p e g) {c : SpillCfg}
    (ha : Asset.spill c ∈ s.assets) {b : BoilerCfg} (hb : Asset.boiler b ∈ s.assets) (hb0 : 0 < b.efficiency) (hj : j < s.data.n)
    (hx : 0 < V (c.name ++ "-high_temperature_generation_mwh") j)
    (hroom : V (b.name ++ "-high_temperature_generation_mwh") j < b.heatMax * s.freqMins / 60) : spillPenalty * b.efficiency ≤ g j := by
  have pc : c.Plays s V := h.assets _ ha
  have pb : b.Plays s V := h.assets _ hb
  have hheat : ∀ i < s.data.n, 0 ≤ V (b.name ++ "-high_temperature_generation_mwh") i := fun i hi => by
    rw [← pb.efficiency i hi]
    exact mul_nonneg hb0.le (pb.gas i hi)
  obtain ⟨x, hx0, hx1, hx2⟩ : ∃ x : ℚ, 0 < x ∧ V (b.name ++ "-high_temperature_generation_mwh") j + x ≤ b.heatMax * s.freqMins / 60 ∧
      0 ≤ V (c.name ++ "-high_temperature_generation_mwh") j + -x := by
    refine ⟨min (b.heatMax * s.freqMins / 60 - V (b.name ++ "-high_temperature_generation_mwh") j) (V (c.name ++ "-high_temperature_generation_mwh") j),
      lt_min (by linarith) hx, ?_, ?_⟩
    · linarith [min_le_left (b.heatMax * s.freqMins / 60 - V (b.name ++ "-high_temperature_generation_mwh") j)
        (V (c.name ++ "-high_temperature_generation_mwh") j)]
    · linarith [min_le_right (b.heatMax * s.freqMins / 60 - V (b.name ++ "-high_temperature_generation_mwh") j)
        (V (c.name ++ "-high_temperature_generation_mwh") j)]
  have hp := spill_piece h ha (spike_nonneg (j := j) (x := 0) (fun i hi => (pc.positive i hi).1) (by linarith [(pc.positive j hj).1]))
    (spike_nonneg (j := j) (x := 0) (fun i hi => (pc.positive i hi).2.1) (by linarith [(pc.positive j hj).2.1]))
    (spike_nonneg (j := j) (x := -x) (fun i hi => (pc.positive i hi).2.2.1) hx2)
  have hq := boiler_piece h hb hb0 (spike_range (j := j) (x := x) pb.heat ⟨by linarith [(pb.heat j hj).1], hx1⟩)
    (spike_nonneg hheat (by linarith [hheat j hj]))
  have ch : s.Change flags V _ (spike j 0) (spike j 0) := change_two hc hw (by simp) hp hq (settles_spike h (settles_zero h hj))
    (fun i _ => ?_) (fun i _ => ?_) (fun i _ => ?_)
  · have := noGain_at ho hj ch (fun k i hne => by simp only [Pi.add_apply, bump, spike_off _ hne, ite_self, zero_div, add_zero])
    rw [assetSum_add, spillAt_add, piece_sum hc hw hp, piece_sum hc hw hq, piece_spill hc hw hp, piece_spill hc hw hq, rowSum_single rfl,
      rowSum_single rfl] at this
    simp only [Asset.flows, Asset.penalised, Asset.name, rowSum, List.map_cons, List.sum_cons, List.map_nil, List.sum_nil, List.mem_cons,
      List.not_mem_nil, or_false, String.reduceEq, or_true, if_true, if_false, String.reduceAppend, Pi.add_apply, bump_name, spike_at, zero_mul,
      zero_add, add_zero, sub_zero] at this
    have e1 : x / b.efficiency * g j + spillPenalty * -x = x / b.efficiency * (g j - spillPenalty * b.efficiency) := by
      have : x / b.efficiency * b.efficiency = x := div_mul_cancel₀ _ (ne_of_gt hb0)
      calc x / b.efficiency * g j + spillPenalty * -x = x / b.efficiency * g j - spillPenalty * (x / b.efficiency * b.efficiency) := by rw [this]; ring
        _ = _ := by ring
    rw [e1] at this
    by_contra hn
    have := mul_neg_of_pos_of_neg (div_pos hx0 hb0) (sub_neg.2 (not_le.1 hn))
    linarith
  · simp only [rowSum_single (a := .spill _) rfl, rowSum_single (a := .boiler _) rfl, Asset.flows, Asset.name, List.mem_cons, List.not_mem_nil,
      or_false, String.reduceEq, or_true, true_or, String.reduceAppend, if_true, if_false, Pi.add_apply, bump_name, add_zero, zero_add, spike_zero,
      Pi.zero_apply, sub_zero]
  · simp only [rowSum_single (a := .spill _) rfl, rowSum_single (a := .boiler _) rfl, Asset.flows, Asset.name, List.mem_cons, List.not_mem_nil,
      or_false, String.reduceEq, or_true, true_or, String.reduceAppend, if_true, if_false, Pi.add_apply, bump_name, add_zero, zero_add]
    unfold spike
    split <;> norm_num
  · simp only [rowSum_single (a := .spill _) rfl, rowSum_single (a := .boiler _) rfl, Asset.flows, Asset.name, List.mem_cons, List.not_mem_nil,
      or_false, String.reduceEq, or_true, true_or, String.reduceAppend, if_true, if_false, Pi.add_apply, bump_name, add_zero]

end

end EPL
