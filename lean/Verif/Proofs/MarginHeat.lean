/-
CHPs and heat pumps against boilers and the grid.
-/
import Verif.Proofs.MarginAssets
import Verif.Spec.MarginHeat

namespace EPL

section
variable {s : Site} {flags : Flags} {V : String → Nat → ℚ} {p e g : Nat → ℚ} {j : Nat}

/-- A part of a change: nothing, or the change of one asset out of a list that leaves the others alone. -/
def Site.Part (s : Site) (flags : Flags) (V : String → Nat → ℚ) (d : String → Nat → ℚ) (a : Asset) : Prop := d = 0 ∨ s.Piece flags V a d

theorem part_site (hc : s.ClearNames) {a : Asset} {d : String → Nat → ℚ} (hp : s.Part flags V d a) : ∀ k ∈ siteColumns, d k = 0 := by
  rcases hp with rfl | hp
  · intro k _; rfl
  · exact piece_site hc hp

theorem part_others (hc : s.ClearNames) {a : Asset} {d : String → Nat → ℚ} (hp : s.Part flags V d a) {b : Asset} (hb : b ∈ s.assets) (hne : b ≠ a) :
    ∀ k ∈ b.documentedColumns, d k = 0 := by
  rcases hp with rfl | hp
  · intro k _; rfl
  · exact piece_others hc hp hb hne

theorem change_three (hc : s.ClearNames) {a b c : Asset} {d₁ d₂ d₃ : String → Nat → ℚ} {da db : Nat → ℚ} (hab : a ≠ b) (hac : a ≠ c) (hbc : b ≠ c)
    (h₁ : s.Part flags V d₁ a) (h₂ : s.Part flags V d₂ b) (h₃ : s.Part flags V d₃ c) (grid : ∀ i < s.data.n, s.Settles V i (da i) (db i))
    (electricity : ∀ i < s.data.n, da i - db i + s.assetSum (d₁ + (d₂ + d₃)) "electric_generation_mwh" i +
      s.assetSum (d₁ + (d₂ + d₃)) "electric_discharge_mwh" i =
      s.assetSum (d₁ + (d₂ + d₃)) "electric_load_mwh" i + s.assetSum (d₁ + (d₂ + d₃)) "electric_charge_mwh" i)
    (high : ∀ i < s.data.n, s.assetSum (d₁ + (d₂ + d₃)) "high_temperature_generation_mwh" i = s.assetSum (d₁ + (d₂ + d₃)) "high_temperature_load_mwh" i)
    (low : ∀ i < s.data.n, s.assetSum (d₁ + (d₂ + d₃)) "low_temperature_generation_mwh" i = s.assetSum (d₁ + (d₂ + d₃)) "low_temperature_load_mwh" i) :
    s.Change flags V (d₁ + (d₂ + d₃)) da db := by
  refine ⟨fun k hk => ?_, grid, electricity, high, low, fun x hx => ?_⟩
  · show d₁ k + (d₂ k + d₃ k) = 0
    rw [part_site hc h₁ k hk, part_site hc h₂ k hk, part_site hc h₃ k hk, add_zero, add_zero]
  · have nothing : ∀ {d : String → Nat → ℚ} {y : Asset}, s.Part flags V d y → x ≠ y → ∀ k ∈ x.documentedColumns, d k = 0 :=
      fun hp hne => part_others hc hp hx hne
    by_cases e₁ : x = a
    · subst e₁
      have z₂ := nothing h₂ hab
      have z₃ := nothing h₃ hac
      rcases h₁ with rfl | h₁
      · left; intro k hk
        show (0 : Nat → ℚ) + (d₂ k + d₃ k) = 0
        rw [z₂ k hk, z₃ k hk, add_zero, add_zero]
      · refine .inr (plays_congr rfl rfl (fun k hk => ?_) h₁.plays)
        show V k + d₁ k = V k + (d₁ k + (d₂ k + d₃ k))
        rw [z₂ k hk, z₃ k hk, add_zero, add_zero]
    · have z₁ := nothing h₁ e₁
      by_cases e₂ : x = b
      · subst e₂
        have z₃ := nothing h₃ hbc
        rcases h₂ with rfl | h₂
        · left; intro k hk
          show d₁ k + ((0 : Nat → ℚ) + d₃ k) = 0
          rw [z₁ k hk, z₃ k hk, add_zero, add_zero]
        · refine .inr (plays_congr rfl rfl (fun k hk => ?_) h₂.plays)
          show V k + d₂ k = V k + (d₁ k + (d₂ k + d₃ k))
          rw [z₁ k hk, z₃ k hk, add_zero, zero_add]
      · have z₂ := nothing h₂ e₂
        by_cases e₃ : x = c
        · subst e₃
          rcases h₃ with rfl | h₃
          · left; intro k hk
            show d₁ k + (d₂ k + (0 : Nat → ℚ)) = 0
            rw [z₁ k hk, z₂ k hk, add_zero, add_zero]
          · refine .inr (plays_congr rfl rfl (fun k hk => ?_) h₃.plays)
            show V k + d₃ k = V k + (d₁ k + (d₂ k + d₃ k))
            rw [z₁ k hk, z₂ k hk, zero_add, zero_add]
        · have z₃ := nothing h₃ e₃
          left; intro k hk
          show d₁ k + (d₂ k + d₃ k) = 0
          rw [z₁ k hk, z₂ k hk, z₃ k hk, add_zero, add_zero]

/-- More or less gas into a CHP. -/
theorem chp_piece (h : s.Dispatch flags V) {c : ChpCfg} (ha : Asset.chp c ∈ s.assets) (he : 0 < c.electricEfficiency) (hh : 0 ≤ c.htEfficiency)
    (hl : 0 ≤ c.ltEfficiency) {f : Nat → ℚ}
    (hx : ∀ i < s.data.n, f i = 0 ∨ (0 ≤ V (c.name ++ "-electric_generation_mwh") i + c.electricEfficiency * f i ∧
      c.powerMin * s.freqMins / 60 ≤ V (c.name ++ "-electric_generation_mwh") i + c.electricEfficiency * f i ∧
      V (c.name ++ "-electric_generation_mwh") i + c.electricEfficiency * f i ≤ c.powerMax * s.freqMins / 60)) :
    s.Piece flags V (.chp c) (bump (c.name ++ "-gas_consumption_mwh") f + (bump (c.name ++ "-electric_generation_mwh") (fun i => c.electricEfficiency * f i) +
      (bump (c.name ++ "-high_temperature_generation_mwh") (fun i => c.htEfficiency * f i) +
        bump (c.name ++ "-low_temperature_generation_mwh") (fun i => c.ltEfficiency * f i)))) := by
  have pc : c.Plays s V := h.assets _ ha
  have ne : c.electricEfficiency ≠ 0 := ne_of_gt he
  have gas : ∀ i < s.data.n, 0 ≤ V (c.name ++ "-gas_consumption_mwh") i + f i := by
    intro i hi
    rcases hx i hi with z | ⟨z, -⟩
    · rw [z, add_zero]; exact (pc.positive i hi).1
    · rw [pc.electric i hi he]
      have : V (c.name ++ "-electric_generation_mwh") i / c.electricEfficiency + f i =
          (V (c.name ++ "-electric_generation_mwh") i + c.electricEfficiency * f i) / c.electricEfficiency := by
        rw [add_div, mul_div_cancel_left₀ _ ne]
      rw [this]
      exact div_nonneg z he.le
  refine ⟨ha, fun k hk => ?_, ⟨fun i hi _ => ?_, fun i hi => ?_, fun i hi => ?_, fun i hi => ?_, fun i hi => ?_⟩⟩
  · show bump _ _ k + (bump _ _ k + (bump _ _ k + bump _ _ k)) = 0
    rw [bump_own (a := .chp c) (k0 := c.name ++ "-gas_consumption_mwh") (documented_col (a := .chp c) (attr := "gas_consumption_mwh") (by simp [Asset.documentedColumns, Asset.name]) rfl) _ k hk,
      bump_own (a := .chp c) (k0 := c.name ++ "-electric_generation_mwh") (documented_col (a := .chp c) (attr := "electric_generation_mwh") (by simp [Asset.documentedColumns, Asset.name]) rfl) _ k hk,
      bump_own (a := .chp c) (k0 := c.name ++ "-high_temperature_generation_mwh") (documented_col (a := .chp c) (attr := "high_temperature_generation_mwh") (by simp [Asset.documentedColumns, Asset.name]) rfl) _ k hk,
      bump_own (a := .chp c) (k0 := c.name ++ "-low_temperature_generation_mwh") (documented_col (a := .chp c) (attr := "low_temperature_generation_mwh") (by simp [Asset.documentedColumns, Asset.name]) rfl) _ k hk,
      add_zero, add_zero, add_zero]
  · simp only [Pi.add_apply, bump_name, String.reduceEq, if_true, if_false, zero_add, add_zero]
    rw [add_div, mul_div_cancel_left₀ _ ne, pc.electric i hi he]
  · simp only [Pi.add_apply, bump_name, String.reduceEq, if_true, if_false, zero_add, add_zero]
    rw [pc.high i hi]; ring
  · simp only [Pi.add_apply, bump_name, String.reduceEq, if_true, if_false, zero_add, add_zero]
    rw [pc.low i hi]; ring
  · simp only [Pi.add_apply, bump_name, String.reduceEq, if_true, if_false, zero_add, add_zero]
    refine ⟨gas i hi, ?_, ?_, ?_⟩
    · rcases hx i hi with z | ⟨z, -⟩
      · rw [z, mul_zero, add_zero]; exact (pc.positive i hi).2.1
      · exact z
    · rw [pc.high i hi, ← mul_add]; exact mul_nonneg hh (gas i hi)
    · rw [pc.low i hi, ← mul_add]; exact mul_nonneg hl (gas i hi)
  · simp only [Pi.add_apply, bump_name, String.reduceEq, if_true, if_false, zero_add, add_zero]
    rcases hx i hi with z | ⟨-, z1, z2⟩
    · rw [z, mul_zero, add_zero]; exact pc.range i hi
    · exact ⟨z2, .inr z1⟩

/-- More or less electricity into a heat pump. -/
theorem pump_piece (h : s.Dispatch flags V) {c : HeatPumpCfg} (ha : Asset.heatPump c ∈ s.assets) (hcop : 1 ≤ c.cop) {f : Nat → ℚ}
    (hx : ∀ i < s.data.n, 0 ≤ V (c.name ++ "-electric_load_mwh") i + f i ∧ V (c.name ++ "-electric_load_mwh") i + f i ≤ c.power * s.freqMins / 60) :
    s.Piece flags V (.heatPump c) (bump (c.name ++ "-electric_load_mwh") f + (bump (c.name ++ "-high_temperature_generation_mwh") (fun i => c.cop * f i) +
      bump (c.name ++ "-low_temperature_load_mwh") (fun i => (c.cop - 1) * f i))) := by
  have pc : c.Plays s V := h.assets _ ha
  refine ⟨ha, fun k hk => ?_, ⟨fun i hi => ?_, fun i hi => ?_, fun i hi => ?_, fun i hi => ?_⟩⟩
  · show bump _ _ k + (bump _ _ k + bump _ _ k) = 0
    rw [bump_own (a := .heatPump c) (k0 := c.name ++ "-electric_load_mwh") (documented_col (a := .heatPump c) (attr := "electric_load_mwh") (by simp [Asset.documentedColumns, Asset.name]) rfl) _ k hk,
      bump_own (a := .heatPump c) (k0 := c.name ++ "-high_temperature_generation_mwh") (documented_col (a := .heatPump c) (attr := "high_temperature_generation_mwh") (by simp [Asset.documentedColumns, Asset.name]) rfl) _ k hk,
      bump_own (a := .heatPump c) (k0 := c.name ++ "-low_temperature_load_mwh") (documented_col (a := .heatPump c) (attr := "low_temperature_load_mwh") (by simp [Asset.documentedColumns, Asset.name]) rfl) _ k hk,
      add_zero, add_zero]
  · simp only [Pi.add_apply, bump_name, String.reduceEq, if_true, if_false, zero_add, add_zero]
    rw [pc.high i hi]; ring
  · simp only [Pi.add_apply, bump_name, String.reduceEq, if_true, if_false, zero_add, add_zero]
    rw [pc.low i hi]; ring
  · simp only [Pi.add_apply, bump_name, String.reduceEq, if_true, if_false, zero_add, add_zero]
    exact hx i hi
  · simp only [Pi.add_apply, bump_name, String.reduceEq, if_true, if_false, zero_add, add_zero]
    rw [pc.high i hi, pc.low i hi, ← mul_add, ← mul_add]
    exact ⟨mul_nonneg (by linarith) (hx i hi).1, mul_nonneg (by linarith) (hx i hi).1⟩

/-- More or less low temperature heat into a spill asset. -/
theorem dump_piece (h : s.Dispatch flags V) {c : SpillCfg} (ha : Asset.spill c ∈ s.assets) {f : Nat → ℚ}
    (hf : ∀ i < s.data.n, 0 ≤ V (c.name ++ "-low_temperature_load_mwh") i + f i) :
    s.Piece flags V (.spill c) (bump (c.name ++ "-low_temperature_load_mwh") f) := by
  have pc : c.Plays s V := h.assets _ ha
  refine ⟨ha, fun k hk => ?_, ⟨fun i hi => ?_, fun i hi => ?_⟩⟩
  · rw [bump_own (a := .spill c) (k0 := c.name ++ "-low_temperature_load_mwh") (documented_col (a := .spill c) (attr := "low_temperature_load_mwh") (by simp [Asset.documentedColumns, Asset.name]) rfl) _ k hk]
  · simp only [Pi.add_apply, bump_name, String.reduceEq, if_true, if_false, zero_add, add_zero]
    exact ⟨(pc.positive i hi).1, (pc.positive i hi).2.1, (pc.positive i hi).2.2.1, hf i hi⟩
  · simp only [Pi.add_apply, bump_name, String.reduceEq, if_true, if_false, zero_add, add_zero]
    exact pc.nothing i hi

theorem boiler_heat (h : s.Dispatch flags V) {b : BoilerCfg} (hb : Asset.boiler b ∈ s.assets) (hb0 : 0 < b.efficiency) :
    ∀ i < s.data.n, 0 ≤ V (b.name ++ "-high_temperature_generation_mwh") i := fun i hi => by
  have pb : b.Plays s V := h.assets _ hb
  rw [← pb.efficiency i hi]
  exact mul_nonneg hb0.le (pb.gas i hi)

/-- A change of the low temperature heat that a spill asset takes, or none. -/
theorem dump_part (h : s.Dispatch flags V) {w : ℚ}
    (hd : w = 0 ∨ ∃ c : SpillCfg, Asset.spill c ∈ s.assets ∧ 0 ≤ V (c.name ++ "-low_temperature_load_mwh") j + w) :
    ∃ (c : SpillCfg) (d : String → Nat → ℚ), s.Part flags V d (.spill c) ∧
      (d = 0 ∧ w = 0 ∨ Asset.spill c ∈ s.assets ∧ d = bump (c.name ++ "-low_temperature_load_mwh") (spike j w)) := by
  rcases hd with rfl | ⟨c, hc, hw⟩
  · exact ⟨⟨""⟩, 0, .inl rfl, .inl ⟨rfl, rfl⟩⟩
  · exact ⟨c, _, .inr (dump_piece h hc (spike_nonneg (fun i hi => ((h.assets _ hc : c.Plays s V).positive i hi).2.2.2) hw)), .inr ⟨hc, rfl⟩⟩

theorem assetSum_zero (q : String) (i : Nat) : s.assetSum 0 q i = 0 := list_sum_zero fun _ _ => list_sum_zero fun _ _ => rfl

theorem spillAt_zero (i : Nat) : s.spillAt 0 i = 0 := list_sum_zero fun _ _ => list_sum_zero fun _ _ => rfl

/-- What the part with the low temperature heat adds up to. -/
theorem dump_sums (hc : s.ClearNames) (hw : ∀ a ∈ s.assets, a.WellNamed) {c : SpillCfg} {d : String → Nat → ℚ} {w : ℚ} (hp : s.Part flags V d (.spill c))
    (hd : d = 0 ∧ w = 0 ∨ Asset.spill c ∈ s.assets ∧ d = bump (c.name ++ "-low_temperature_load_mwh") (spike j w)) :
    (∀ q i, s.assetSum d q i = if q = "low_temperature_load_mwh" then spike j w i else 0) ∧ (∀ i, s.spillAt d i = 0) ∧ ∀ k i, i ≠ j → d k i = 0 := by
  rcases hd with ⟨rfl, rfl⟩ | ⟨hm, rfl⟩
  · refine ⟨fun q i => ?_, spillAt_zero, fun _ _ _ => rfl⟩
    rw [assetSum_zero, spike_zero, Pi.zero_apply, ite_self]
  · rcases hp with hz | hp
    · rw [hz]
      have hw0 : spike j w = 0 := by
        have := congrFun hz (c.name ++ "-low_temperature_load_mwh")
        funext i
        have := congrFun this i
        rwa [bump_at] at this
      refine ⟨fun q i => ?_, spillAt_zero, fun _ _ _ => rfl⟩
      rw [assetSum_zero, hw0, Pi.zero_apply, ite_self]
    · refine ⟨fun q i => ?_, fun i => ?_, fun k i hne => bump_spike_off _ _ _ _ hne⟩
      · rw [piece_sum hc hw hp, rowSum_single rfl]
        simp only [Asset.name, bump_name]
        by_cases e : q = "low_temperature_load_mwh"
        · subst e; simp [Asset.flows]
        · rw [if_neg e]
          split
          · rw [if_neg]
            intro h
            apply e
            have : "-" ++ q = "-" ++ "low_temperature_load_mwh" := h
            rw [str_eq_iff] at this
            simp only [String.toList_append, List.append_cancel_left_eq] at this
            exact str_eq_iff.2 this
          · rfl
      · rw [piece_spill hc hw hp]
        simp only [Asset.penalised, rowSum, List.map_cons, List.sum_cons, List.map_nil, List.sum_nil, bump_name, String.reduceEq, if_false, add_zero]

/-- What a change of the gas of a CHP costs, when a boiler makes up for the heat. -/
theorem chp_gain (hc : s.ClearNames) (hw : ∀ a ∈ s.assets, a.WellNamed) (h : s.Dispatch flags V) (ho : s.NoGain flags V p e g) {c : ChpCfg}
    (ha : Asset.chp c ∈ s.assets) (he : 0 < c.electricEfficiency) (hh : 0 ≤ c.htEfficiency) (hl : 0 ≤ c.ltEfficiency) {b : BoilerCfg}
    (hb : Asset.boiler b ∈ s.assets) (hb0 : 0 < b.efficiency) (hj : j < s.data.n) {x y z : ℚ} (hset : s.Settles V j y z)
    (hyz : y - z = -(c.electricEfficiency * x))
    (hx : 0 ≤ V (c.name ++ "-electric_generation_mwh") j + c.electricEfficiency * x ∧
      c.powerMin * s.freqMins / 60 ≤ V (c.name ++ "-electric_generation_mwh") j + c.electricEfficiency * x ∧
      V (c.name ++ "-electric_generation_mwh") j + c.electricEfficiency * x ≤ c.powerMax * s.freqMins / 60)
    (hbx : 0 ≤ V (b.name ++ "-high_temperature_generation_mwh") j + -(c.htEfficiency * x) ∧
      b.heatMin * s.freqMins / 60 ≤ V (b.name ++ "-high_temperature_generation_mwh") j + -(c.htEfficiency * x) ∧
      V (b.name ++ "-high_temperature_generation_mwh") j + -(c.htEfficiency * x) ≤ b.heatMax * s.freqMins / 60)
    (hd : c.ltEfficiency * x = 0 ∨ ∃ c' : SpillCfg, Asset.spill c' ∈ s.assets ∧ 0 ≤ V (c'.name ++ "-low_temperature_load_mwh") j + c.ltEfficiency * x) :
    0 ≤ y * p j - z * e j + (x - c.htEfficiency * x / b.efficiency) * g j := by
  have pb : b.Plays s V := h.assets _ hb
  have q1 := chp_piece h ha he hh hl (f := spike j x) (fun i hi => by
    by_cases e : i = j
    · subst e; rw [spike_at]; exact .inr hx
    · exact .inl (spike_off _ e))
  have q2 := boiler_piece h hb hb0 (spike_range (j := j) (x := -(c.htEfficiency * x)) pb.heat hbx.2) (spike_nonneg (boiler_heat h hb hb0) hbx.1)
  obtain ⟨c', d, q3, hd'⟩ := dump_part (flags := flags) h hd
  obtain ⟨t1, t2, t3⟩ := dump_sums hc hw q3 hd'
  have ch : s.Change flags V _ (spike j y) (spike j z) := change_three hc (by simp) (by simp) (by simp) (.inr q1) (.inr q2) q3 (settles_spike h hset)
    (fun i _ => ?_) (fun i _ => ?_) (fun i _ => ?_)
  · have := noGain_at ho hj ch (fun k i hne => by
      simp only [Pi.add_apply, bump, spike_off _ hne, ite_self, zero_div, add_zero, mul_zero, t3 k i hne])
    rw [assetSum_add _ (_ + d), assetSum_add _ d, spillAt_add _ (_ + d), spillAt_add _ d, piece_sum hc hw q1, piece_sum hc hw q2, piece_spill hc hw q1, piece_spill hc hw q2, t1, t2,
      rowSum_single rfl, rowSum_single rfl] at this
    simp only [Asset.flows, Asset.penalised, Asset.name, rowSum, List.map_nil, List.sum_nil, List.mem_cons, List.not_mem_nil, or_false, String.reduceEq,
      or_true, true_or, if_true, if_false, String.reduceAppend, Pi.add_apply, bump_name, spike_at, zero_add, add_zero, mul_zero] at this
    rw [neg_div] at this
    linarith
  · simp only [assetSum_add, piece_sum hc hw q1, piece_sum hc hw q2, t1, rowSum_single (a := .chp _) rfl, rowSum_single (a := .boiler _) rfl, Asset.flows,
      Asset.name, List.mem_cons, List.not_mem_nil, or_false, String.reduceEq, or_true, true_or, if_true, if_false, String.reduceAppend, Pi.add_apply,
      bump_name, zero_add, add_zero]
    rw [spike_sum hyz]
    unfold spike
    split <;> ring
  · simp only [assetSum_add, piece_sum hc hw q1, piece_sum hc hw q2, t1, rowSum_single (a := .chp _) rfl, rowSum_single (a := .boiler _) rfl, Asset.flows,
      Asset.name, List.mem_cons, List.not_mem_nil, or_false, String.reduceEq, or_true, true_or, if_true, if_false, String.reduceAppend, Pi.add_apply,
      bump_name, zero_add, add_zero]
    unfold spike
    split <;> ring
  · simp only [assetSum_add, piece_sum hc hw q1, piece_sum hc hw q2, t1, rowSum_single (a := .chp _) rfl, rowSum_single (a := .boiler _) rfl, Asset.flows,
      Asset.name, List.mem_cons, List.not_mem_nil, or_false, String.reduceEq, or_true, true_or, if_true, if_false, String.reduceAppend, Pi.add_apply,
      bump_name, zero_add, add_zero]
    unfold spike
    split <;> ring

/-- What a change of the electricity of a heat pump costs, when a boiler makes up for the heat and a spill asset for the low temperature heat. -/
theorem pump_gain (hc : s.ClearNames) (hw : ∀ a ∈ s.assets, a.WellNamed) (h : s.Dispatch flags V) (ho : s.NoGain flags V p e g) {c : HeatPumpCfg}
    (ha : Asset.heatPump c ∈ s.assets) (hcop : 1 ≤ c.cop) {b : BoilerCfg}
    (hb : Asset.boiler b ∈ s.assets) (hb0 : 0 < b.efficiency) (hj : j < s.data.n) {x y z : ℚ} (hset : s.Settles V j y z) (hyz : y - z = x)
    (hx : 0 ≤ V (c.name ++ "-electric_load_mwh") j + x ∧ V (c.name ++ "-electric_load_mwh") j + x ≤ c.power * s.freqMins / 60)
    (hbx : 0 ≤ V (b.name ++ "-high_temperature_generation_mwh") j + -(c.cop * x) ∧
      b.heatMin * s.freqMins / 60 ≤ V (b.name ++ "-high_temperature_generation_mwh") j + -(c.cop * x) ∧
      V (b.name ++ "-high_temperature_generation_mwh") j + -(c.cop * x) ≤ b.heatMax * s.freqMins / 60)
    (hd : -((c.cop - 1) * x) = 0 ∨ ∃ c' : SpillCfg, Asset.spill c' ∈ s.assets ∧ 0 ≤ V (c'.name ++ "-low_temperature_load_mwh") j + -((c.cop - 1) * x)) :
    0 ≤ y * p j - z * e j - c.cop * x / b.efficiency * g j := by
  have pb : b.Plays s V := h.assets _ hb
  have pc : c.Plays s V := h.assets _ ha
  have q1 := pump_piece h ha hcop (spike_range (j := j) (x := x) pc.load hx)
  have q2 := boiler_piece h hb hb0 (spike_range (j := j) (x := -(c.cop * x)) pb.heat hbx.2) (spike_nonneg (boiler_heat h hb hb0) hbx.1)
  obtain ⟨c', d, q3, hd'⟩ := dump_part (flags := flags) h hd
  obtain ⟨t1, t2, t3⟩ := dump_sums hc hw q3 hd'
  have ch : s.Change flags V _ (spike j y) (spike j z) := change_three hc (by simp) (by simp) (by simp) (.inr q1) (.inr q2) q3 (settles_spike h hset)
    (fun i _ => ?_) (fun i _ => ?_) (fun i _ => ?_)
  · have := noGain_at ho hj ch (fun k i hne => by
      simp only [Pi.add_apply, bump, spike_off _ hne, ite_self, zero_div, add_zero, mul_zero, t3 k i hne])
    rw [assetSum_add _ (_ + d), assetSum_add _ d, spillAt_add _ (_ + d), spillAt_add _ d, piece_sum hc hw q1, piece_sum hc hw q2, piece_spill hc hw q1, piece_spill hc hw q2, t1, t2,
      rowSum_single rfl, rowSum_single rfl] at this
    simp only [Asset.flows, Asset.penalised, Asset.name, rowSum, List.map_nil, List.sum_nil, List.mem_cons, List.not_mem_nil, or_false, String.reduceEq,
      or_true, true_or, if_true, if_false, String.reduceAppend, Pi.add_apply, bump_name, spike_at, zero_add, add_zero, mul_zero] at this
    rw [neg_div] at this
    linarith
  · simp only [assetSum_add, piece_sum hc hw q1, piece_sum hc hw q2, t1, rowSum_single (a := .heatPump _) rfl, rowSum_single (a := .boiler _) rfl, Asset.flows,
      Asset.name, List.mem_cons, List.not_mem_nil, or_false, String.reduceEq, or_true, true_or, if_true, if_false, String.reduceAppend, Pi.add_apply,
      bump_name, zero_add, add_zero]
    rw [spike_sum hyz]
  · simp only [assetSum_add, piece_sum hc hw q1, piece_sum hc hw q2, t1, rowSum_single (a := .heatPump _) rfl, rowSum_single (a := .boiler _) rfl, Asset.flows,
      Asset.name, List.mem_cons, List.not_mem_nil, or_false, String.reduceEq, or_true, true_or, if_true, if_false, String.reduceAppend, Pi.add_apply,
      bump_name, zero_add, add_zero]
    unfold spike
    split <;> ring
  · simp only [assetSum_add, piece_sum hc hw q1, piece_sum hc hw q2, t1, rowSum_single (a := .heatPump _) rfl, rowSum_single (a := .boiler _) rfl, Asset.flows,
      Asset.name, List.mem_cons, List.not_mem_nil, or_false, String.reduceEq, or_true, true_or, if_true, if_false, String.reduceAppend, Pi.add_apply,
      bump_name, zero_add, add_zero]
    unfold spike
    split <;> ring

/-- A positive number below four positive numbers. -/
theorem small_four {a b c d : ℚ} (ha : 0 < a) (hb : 0 < b) (hc : 0 < c) (hd : 0 < d) : ∃ x : ℚ, 0 < x ∧ x ≤ a ∧ x ≤ b ∧ x ≤ c ∧ x ≤ d :=
  ⟨min (min a b) (min c d), lt_min (lt_min ha hb) (lt_min hc hd), (min_le_left _ _).trans (min_le_left _ _), (min_le_left _ _).trans (min_le_right _ _),
    (min_le_right _ _).trans (min_le_left _ _), (min_le_right _ _).trans (min_le_right _ _)⟩

/-- A factor that fits. -/
theorem small_factor {k a : ℚ} (hk : 0 ≤ k) (ha : 0 < a) : ∃ x : ℚ, 0 < x ∧ ∀ y, 0 ≤ y → y ≤ x → k * y ≤ a := by
  refine ⟨a / (k + 1), div_pos ha (by linarith), fun y hy hyx => ?_⟩
  have h1 : k * y ≤ (k + 1) * y := by linarith
  have h2 : (k + 1) * y ≤ (k + 1) * (a / (k + 1)) := mul_le_mul_of_nonneg_left hyx (by linarith)
  rw [mul_div_cancel₀ _ (show k + 1 ≠ 0 by intro h; linarith)] at h2
  linarith

section
variable {c : ChpCfg} {b : BoilerCfg} (hc : s.ClearNames) (hw : ∀ a ∈ s.assets, a.WellNamed) (h : s.Dispatch flags V) (ho : s.NoGain flags V p e g)
  (ha : Asset.chp c ∈ s.assets) (he : 0 < c.electricEfficiency) (hh : 0 ≤ c.htEfficiency) (hl : 0 ≤ c.ltEfficiency)
  (hb : Asset.boiler b ∈ s.assets) (hb0 : 0 < b.efficiency) (hj : j < s.data.n)
include hc hw h ho ha he hh hl hb hb0 hj

theorem chp_up (hr : c.CanRise s V j) (hd : c.htEfficiency = 0 ∨ b.CanDrop s V j) (hlow : c.ltEfficiency = 0 ∨ s.CanDump) (hgive : s.CanGive V j) :
    c.electricEfficiency * (if 0 < V "site-import_power_mwh" j then p j else e j) + c.htEfficiency / b.efficiency * g j ≤ g j := by
  have pb : b.Plays s V := h.assets _ hb
  have pc : c.Plays s V := h.assets _ ha
  obtain ⟨ε, h0, h1⟩ := give h hj hgive
  obtain ⟨x1, k1, l1⟩ := small_factor he.le h0
  obtain ⟨x2, k2, l2⟩ := small_factor he.le (sub_pos.2 hr.2)
  obtain ⟨x3, k3, l3⟩ : ∃ x : ℚ, 0 < x ∧ ∀ y, 0 ≤ y → y ≤ x → 0 ≤ V (b.name ++ "-high_temperature_generation_mwh") j + -(c.htEfficiency * y) ∧
      b.heatMin * s.freqMins / 60 ≤ V (b.name ++ "-high_temperature_generation_mwh") j + -(c.htEfficiency * y) := by
    rcases hd with z | ⟨z1, z2⟩
    · refine ⟨1, one_pos, fun y _ _ => ?_⟩
      rw [z, zero_mul, neg_zero, add_zero]
      exact ⟨boiler_heat h hb hb0 j hj, (pb.heat j hj).1⟩
    · obtain ⟨u, m, n⟩ := small_factor hh (lt_min z1 (sub_pos.2 z2))
      refine ⟨u, m, fun y hy hyu => ⟨?_, ?_⟩⟩
      · linarith [(n y hy hyu).trans (min_le_left _ _)]
      · linarith [(n y hy hyu).trans (min_le_right _ _)]
  obtain ⟨x, hx, y1, y2, y3, -⟩ := small_four k1 k2 k3 one_pos
  have hex : 0 < c.electricEfficiency * x := mul_pos he hx
  have hhx : 0 ≤ c.htEfficiency * x := mul_nonneg hh hx.le
  obtain ⟨y, z, m1, m2, m3⟩ := h1 _ hex.le (l1 x hx.le y1)
  have G := chp_gain hc hw h ho ha he hh hl hb hb0 hj m1 m2 (x := x)
    ⟨by linarith [(pc.positive j hj).2.1], by linarith [hr.1], by linarith [l2 x hx.le y2]⟩
    ⟨(l3 x hx.le y3).1, (l3 x hx.le y3).2, by linarith [(pb.heat j hj).2]⟩ (by
      rcases hlow with z | ⟨c', hc'⟩
      · left; rw [z, zero_mul]
      · exact .inr ⟨c', hc', add_nonneg ((h.assets _ hc' : c'.Plays s V).positive j hj).2.2.2 (mul_nonneg hl hx.le)⟩)
  rw [m3] at G
  by_contra hn
  have P := mul_pos hx (sub_pos.2 (not_le.1 hn))
  have e1 : c.htEfficiency * x / b.efficiency = x * (c.htEfficiency / b.efficiency) := by rw [mul_comm, mul_div_assoc]
  rw [e1] at G
  linarith

theorem chp_down (hr : c.CanDrop s V j) (hd : c.htEfficiency = 0 ∨ b.CanRise s V j) (hlow : c.ltEfficiency = 0 ∨ s.Dumps V j) (htake : s.CanTake V j) :
    g j ≤ c.electricEfficiency * (if 0 < V "site-export_power_mwh" j then e j else p j) + c.htEfficiency / b.efficiency * g j := by
  have pb : b.Plays s V := h.assets _ hb
  have pc : c.Plays s V := h.assets _ ha
  obtain ⟨ε, h0, h1⟩ := take h hj htake
  obtain ⟨x1, k1, l1⟩ := small_factor he.le h0
  obtain ⟨x2, k2, l2⟩ := small_factor he.le (lt_min hr.1 (sub_pos.2 hr.2))
  obtain ⟨x3, k3, l3⟩ : ∃ x : ℚ, 0 < x ∧ ∀ y, 0 ≤ y → y ≤ x →
      V (b.name ++ "-high_temperature_generation_mwh") j + c.htEfficiency * y ≤ b.heatMax * s.freqMins / 60 := by
    rcases hd with z | z
    · refine ⟨1, one_pos, fun y _ _ => ?_⟩
      rw [z, zero_mul, add_zero]
      exact (pb.heat j hj).2
    · obtain ⟨u, m, n⟩ := small_factor hh (sub_pos.2 z)
      exact ⟨u, m, fun y hy hyu => by linarith [n y hy hyu]⟩
  obtain ⟨x4, k4, l4⟩ : ∃ x : ℚ, 0 < x ∧ ∀ y, 0 ≤ y → y ≤ x → (c.ltEfficiency * -y = 0 ∨ ∃ c' : SpillCfg, Asset.spill c' ∈ s.assets ∧
      0 ≤ V (c'.name ++ "-low_temperature_load_mwh") j + c.ltEfficiency * -y) := by
    rcases hlow with z | ⟨c', m, n⟩
    · exact ⟨1, one_pos, fun y _ _ => .inl (by rw [z, zero_mul])⟩
    · obtain ⟨u, m', n'⟩ := small_factor hl n
      exact ⟨u, m', fun y hy hyu => .inr ⟨c', m, by rw [mul_neg]; linarith [n' y hy hyu]⟩⟩
  obtain ⟨x, hx, y1, y2, y3, y4⟩ := small_four k1 k2 k3 k4
  have hex : 0 < c.electricEfficiency * x := mul_pos he hx
  have hhx : 0 ≤ c.htEfficiency * x := mul_nonneg hh hx.le
  obtain ⟨y, z, m1, m2, m3⟩ := h1 _ hex.le (l1 x hx.le y1)
  have n1 := (l2 x hx.le y2).trans (min_le_left _ _)
  have n2 := (l2 x hx.le y2).trans (min_le_right _ _)
  have G := chp_gain hc hw h ho ha he hh hl hb hb0 hj m1 (x := -x) (by rw [m2]; ring)
    ⟨by linarith, by linarith, by linarith [(pc.range j hj).1]⟩
    ⟨by linarith [boiler_heat h hb hb0 j hj], by linarith [(pb.heat j hj).1], by linarith [l3 x hx.le y3]⟩ (l4 x hx.le y4)
  rw [m3] at G
  by_contra hn
  have P := mul_pos hx (sub_pos.2 (not_le.1 hn))
  have e1 : c.htEfficiency * -x / b.efficiency = -(x * (c.htEfficiency / b.efficiency)) := by rw [mul_neg, neg_div, mul_comm, mul_div_assoc]
  rw [e1] at G
  linarith

end

section
variable {c : HeatPumpCfg} {b : BoilerCfg} (hc : s.ClearNames) (hw : ∀ a ∈ s.assets, a.WellNamed) (h : s.Dispatch flags V) (ho : s.NoGain flags V p e g)
  (ha : Asset.heatPump c ∈ s.assets) (hcop : 1 ≤ c.cop) (hb : Asset.boiler b ∈ s.assets) (hb0 : 0 < b.efficiency) (hj : j < s.data.n)
include hc hw h ho ha hcop hb hb0 hj

theorem pump_up (hr : V (c.name ++ "-electric_load_mwh") j < c.power * s.freqMins / 60) (hd : b.CanDrop s V j) (hlow : c.cop = 1 ∨ s.Dumps V j)
    (htake : s.CanTake V j) : c.cop / b.efficiency * g j ≤ (if 0 < V "site-export_power_mwh" j then e j else p j) := by
  have pb : b.Plays s V := h.assets _ hb
  have pc : c.Plays s V := h.assets _ ha
  have h0c : 0 ≤ c.cop := by linarith
  obtain ⟨ε, h0, h1⟩ := take h hj htake
  obtain ⟨x3, k3, l3⟩ := small_factor h0c (lt_min hd.1 (sub_pos.2 hd.2))
  obtain ⟨x4, k4, l4⟩ : ∃ x : ℚ, 0 < x ∧ ∀ y, 0 ≤ y → y ≤ x → (-((c.cop - 1) * y) = 0 ∨ ∃ c' : SpillCfg, Asset.spill c' ∈ s.assets ∧
      0 ≤ V (c'.name ++ "-low_temperature_load_mwh") j + -((c.cop - 1) * y)) := by
    rcases hlow with z | ⟨c', m, n⟩
    · exact ⟨1, one_pos, fun y _ _ => .inl (by rw [z, sub_self, zero_mul, neg_zero])⟩
    · obtain ⟨u, m', n'⟩ := small_factor (sub_nonneg.2 hcop) n
      exact ⟨u, m', fun y hy hyu => .inr ⟨c', m, by linarith [n' y hy hyu]⟩⟩
  obtain ⟨x, hx, y1, y2, y3, y4⟩ := small_four h0 (sub_pos.2 hr) k3 k4
  have hhx : 0 ≤ c.cop * x := mul_nonneg h0c hx.le
  obtain ⟨y, z, m1, m2, m3⟩ := h1 _ hx.le y1
  have n1 := (l3 x hx.le y3).trans (min_le_left _ _)
  have n2 := (l3 x hx.le y3).trans (min_le_right _ _)
  have G := pump_gain hc hw h ho ha hcop hb hb0 hj m1 m2 ⟨by linarith [(pc.load j hj).1], by linarith⟩
    ⟨by linarith, by linarith, by linarith [(pb.heat j hj).2]⟩ (l4 x hx.le y4)
  rw [m3] at G
  by_contra hn
  have P := mul_pos hx (sub_pos.2 (not_le.1 hn))
  have e1 : c.cop * x / b.efficiency = x * (c.cop / b.efficiency) := by rw [mul_comm, mul_div_assoc]
  rw [e1] at G
  linarith

theorem pump_down (hr : 0 < V (c.name ++ "-electric_load_mwh") j) (hd : b.CanRise s V j) (hlow : c.cop = 1 ∨ s.CanDump) (hgive : s.CanGive V j) :
    (if 0 < V "site-import_power_mwh" j then p j else e j) ≤ c.cop / b.efficiency * g j := by
  have pb : b.Plays s V := h.assets _ hb
  have pc : c.Plays s V := h.assets _ ha
  have h0c : 0 ≤ c.cop := by linarith
  obtain ⟨ε, h0, h1⟩ := give h hj hgive
  obtain ⟨x3, k3, l3⟩ := small_factor h0c (sub_pos.2 hd)
  obtain ⟨x, hx, y1, y2, y3, -⟩ := small_four h0 hr k3 one_pos
  have hhx : 0 ≤ c.cop * x := mul_nonneg h0c hx.le
  obtain ⟨y, z, m1, m2, m3⟩ := h1 _ hx.le y1
  have G := pump_gain hc hw h ho ha hcop hb hb0 hj m1 m2 ⟨by linarith, by linarith [(pc.load j hj).2]⟩
    ⟨by linarith [boiler_heat h hb hb0 j hj], by linarith [(pb.heat j hj).1], by linarith [l3 x hx.le y3]⟩ (by
      rcases hlow with z | ⟨c', hc'⟩
      · left; rw [z, sub_self, zero_mul, neg_zero]
      · refine .inr ⟨c', hc', add_nonneg ((h.assets _ hc' : c'.Plays s V).positive j hj).2.2.2 ?_⟩
        rw [← mul_neg, neg_neg]
        exact mul_nonneg (sub_nonneg.2 hcop) hx.le)
  rw [m3] at G
  by_contra hn
  have P := mul_pos hx (sub_pos.2 (not_le.1 hn))
  have e1 : c.cop * -x / b.efficiency = -(x * (c.cop / b.efficiency)) := by rw [mul_neg, neg_div, mul_comm, mul_div_assoc]
  rw [e1] at G
  linarith

end

end

end EPL
