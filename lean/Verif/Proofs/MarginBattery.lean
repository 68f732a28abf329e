/-
A battery at the margin: moving a little energy from one interval to another.
-/
import Verif.Proofs.MarginAssets

namespace EPL

section
variable {s : Site} {flags : Flags} {V : String → Nat → ℚ} {p e g : Nat → ℚ}

/-- What the state of charge at the end of interval `k` gains when `y` goes in in interval `a` and out in interval `b`. -/
def carried (a b : Nat) (y : ℚ) (k : Nat) : ℚ := (if a ≤ k then y else 0) - (if b ≤ k then y else 0)

/-- The same at the start of the interval. -/
def carriedIn (a b : Nat) (y : ℚ) (k : Nat) : ℚ := (if a < k then y else 0) - (if b < k then y else 0)

theorem carriedIn_succ (a b : Nat) (y : ℚ) (k : Nat) : carriedIn a b y (k + 1) = carried a b y k := by
  simp only [carriedIn, carried, Nat.lt_succ_iff]

theorem carriedIn_zero (a b : Nat) (y : ℚ) : carriedIn a b y 0 = 0 := by simp [carriedIn]

theorem carried_step (a b : Nat) (y : ℚ) (k : Nat) : carried a b y k = carriedIn a b y k + spike a y k - spike b y k := by
  unfold carried carriedIn spike
  split_ifs <;> first | omega | ring

theorem carried_last {a b n : Nat} (ha : a < n) (hb : b < n) (y : ℚ) : carried a b y (n - 1) = 0 := by
  unfold carried
  rw [if_pos (by omega), if_pos (by omega), sub_self]

/-- The change of a battery that charges `x` more in `a` and discharges what is left of it in `b`. -/
def batteryChange (c : BatteryCfg) (a b : Nat) (x : ℚ) : String → Nat → ℚ :=
  bump (c.name ++ "-electric_charge_mwh") (spike a x) + (bump (c.name ++ "-electric_loss_mwh") (spike a ((1 - c.efficiency) * x)) +
    (bump (c.name ++ "-electric_discharge_mwh") (spike b (c.efficiency * x)) +
      (bump (c.name ++ "-electric_initial_charge_mwh") (carriedIn a b (c.efficiency * x)) +
        bump (c.name ++ "-electric_final_charge_mwh") (carried a b (c.efficiency * x)))))

theorem battery_piece (h : s.Dispatch flags V) {c : BatteryCfg} (hm : Asset.battery c ∈ s.assets) {a b : Nat} (ha : a < s.data.n) (hb : b < s.data.n)
    (hne : a ≠ b) {x : ℚ}
    (hch : 0 ≤ V (c.name ++ "-electric_charge_mwh") a + x ∧
      V (c.name ++ "-electric_charge_mwh") a + x ≤ min (c.chargePower * s.freqMins / 60) c.capacity)
    (hdis : 0 ≤ V (c.name ++ "-electric_discharge_mwh") b + c.efficiency * x ∧
      V (c.name ++ "-electric_discharge_mwh") b + c.efficiency * x ≤ min (c.dischargePower * s.freqMins / 60) c.capacity)
    (h0 : V (c.name ++ "-electric_discharge_mwh") a = 0) (h1 : V (c.name ++ "-electric_charge_mwh") b = 0)
    (hloss : 0 ≤ (1 - c.efficiency) * (V (c.name ++ "-electric_charge_mwh") a + x))
    (hst : ∀ k < s.data.n, 0 ≤ V (c.name ++ "-electric_final_charge_mwh") k + carried a b (c.efficiency * x) k ∧
      V (c.name ++ "-electric_final_charge_mwh") k + carried a b (c.efficiency * x) k ≤ c.capacity) :
    s.Piece flags V (.battery c) (batteryChange c a b x) := by
  have pc : c.Plays s V := h.assets _ hm
  refine ⟨hm, fun k hk => ?_, ⟨?_, ?_, ?_, ?_, ?_, ?_, ?_, ?_, ?_⟩⟩
  · show bump _ _ k + (bump _ _ k + (bump _ _ k + (bump _ _ k + bump _ _ k))) = 0
    rw [bump_own (a := .battery c) (k0 := c.name ++ "-electric_charge_mwh") (documented_col (a := .battery c) (attr := "electric_charge_mwh") (by simp [Asset.documentedColumns, Asset.name]) rfl) _ k hk,
      bump_own (a := .battery c) (k0 := c.name ++ "-electric_loss_mwh") (documented_col (a := .battery c) (attr := "electric_loss_mwh") (by simp [Asset.documentedColumns, Asset.name]) rfl) _ k hk,
      bump_own (a := .battery c) (k0 := c.name ++ "-electric_discharge_mwh") (documented_col (a := .battery c) (attr := "electric_discharge_mwh") (by simp [Asset.documentedColumns, Asset.name]) rfl) _ k hk,
      bump_own (a := .battery c) (k0 := c.name ++ "-electric_initial_charge_mwh") (documented_col (a := .battery c) (attr := "electric_initial_charge_mwh") (by simp [Asset.documentedColumns, Asset.name]) rfl) _ k hk,
      bump_own (a := .battery c) (k0 := c.name ++ "-electric_final_charge_mwh") (documented_col (a := .battery c) (attr := "electric_final_charge_mwh") (by simp [Asset.documentedColumns, Asset.name]) rfl) _ k hk]
    simp
  all_goals simp only [batteryChange, Pi.add_apply, bump_name, String.reduceEq, if_true, if_false, zero_add, add_zero]
  · exact spike_range (A := fun _ => 0) (B := fun _ => min (c.chargePower * s.freqMins / 60) c.capacity) pc.charge hch
  · exact spike_range (A := fun _ => 0) (B := fun _ => min (c.dischargePower * s.freqMins / 60) c.capacity) pc.discharge hdis
  · intro i hi
    by_cases e1 : i = a
    · subst e1
      right
      rw [spike_off _ hne, h0, add_zero]
    · by_cases e2 : i = b
      · subst e2
        left
        rw [spike_off _ e1, h1, add_zero]
      · rw [spike_off _ e1, spike_off _ e2, add_zero, add_zero]
        exact pc.exclusive i hi
  · intro i hi
    obtain ⟨l1, l2⟩ := pc.loss i hi
    by_cases e1 : i = a
    · subst e1
      rw [spike_at, spike_at, l1, ← mul_add]
      exact ⟨rfl, hloss⟩
    · rw [spike_off _ e1, spike_off _ e1, add_zero, add_zero]
      exact ⟨l1, l2⟩
  · intro i hi
    rw [pc.balance i hi, carried_step]
    unfold spike
    split_ifs <;> ring
  · intro i hi
    obtain ⟨q1, q2, -, -⟩ := pc.stored i hi
    refine ⟨?_, ?_, hst i hi⟩
    · rcases i with _ | i
      · rw [carriedIn_zero, add_zero]; exact q1
      · rw [carriedIn_succ, ← pc.chain i hi]; exact (hst i (by omega)).1
    · rcases i with _ | i
      · rw [carriedIn_zero, add_zero]; exact q2
      · rw [carriedIn_succ, ← pc.chain i hi]; exact (hst i (by omega)).2
  · intro i hi
    rw [carriedIn_succ, pc.chain i hi]
  · rw [carriedIn_zero, add_zero]
    exact pc.start
  · rw [carried_last ha hb, add_zero]
    exact pc.stop

/-- What moving energy with a battery costs. -/
theorem battery_gain (hc : s.ClearNames) (hw : ∀ a ∈ s.assets, a.WellNamed) (h : s.Dispatch flags V) (ho : s.NoGain flags V p e g) {c : BatteryCfg}
    {a b : Nat} (ha : a < s.data.n) (hb : b < s.data.n) (hne : a ≠ b) {x : ℚ} (hp : s.Piece flags V (.battery c) (batteryChange c a b x)) {y z u v : ℚ}
    (hset : s.Settles V a y z) (hyz : y - z = x) (hset' : s.Settles V b u v) (huv : u - v = -(c.efficiency * x)) :
    0 ≤ (y * p a - z * e a) + (u * p b - v * e b) := by
  have ch : s.Change flags V _ (spike a y + spike b u) (spike a z + spike b v) := change_one hc hw hp (fun i hi => ?_) (fun i _ => ?_) (fun i _ => ?_)
    (fun i _ => ?_)
  · have := ho _ _ _ ch
    have z1 : ∀ i, s.assetSum (batteryChange c a b x) "gas_consumption_mwh" i = 0 := fun i => by
      rw [piece_sum hc hw hp, rowSum_single rfl]
      simp [Asset.flows]
    have z2 : ∀ i, s.spillAt (batteryChange c a b x) i = 0 := fun i => by
      rw [piece_spill hc hw hp]
      rfl
    have e1 : s.sumIntervals (fun i => (spike a y + spike b u) i * p i - (spike a z + spike b v) i * e i +
        s.assetSum (batteryChange c a b x) "gas_consumption_mwh" i * g i + spillPenalty * s.spillAt (batteryChange c a b x) i) =
        s.sumIntervals (fun i => spike a y i * p i - spike a z i * e i) + s.sumIntervals (fun i => spike b u i * p i - spike b v i * e i) := by
      unfold Site.sumIntervals
      rw [← list_sum_add]
      refine list_sum_congr fun i _ => ?_
      rw [z1, z2]
      simp only [Pi.add_apply]
      ring
    rw [e1, sum_interval ha (fun i _ hn => by rw [spike_off _ hn, spike_off _ hn]; ring),
      sum_interval hb (fun i _ hn => by rw [spike_off _ hn, spike_off _ hn]; ring), spike_at, spike_at, spike_at, spike_at] at this
    exact this
  · simp only [Pi.add_apply]
    by_cases e1 : i = a
    · subst e1
      rw [spike_at, spike_at, spike_off _ hne, spike_off _ hne, add_zero, add_zero]
      exact hset
    · rw [spike_off _ e1, spike_off _ e1, zero_add, zero_add]
      by_cases e2 : i = b
      · subst e2
        rw [spike_at, spike_at]
        exact hset'
      · rw [spike_off _ e2, spike_off _ e2]
        exact settles_zero h hi
  · simp only [rowSum_single (a := .battery c) rfl, Asset.flows, Asset.name, List.mem_cons, List.not_mem_nil, or_false, String.reduceEq, or_true, true_or,
      String.reduceAppend, if_true, if_false, batteryChange, Pi.add_apply, bump_name, add_zero, zero_add]
    unfold spike
    split_ifs <;> linarith
  · simp only [rowSum_single (a := .battery c) rfl, Asset.flows, List.mem_cons, List.not_mem_nil, or_false, String.reduceEq, if_false]
  · simp only [rowSum_single (a := .battery c) rfl, Asset.flows, List.mem_cons, List.not_mem_nil, or_false, String.reduceEq, if_false]

theorem exists_small {n : Nat} {P : Nat → Prop} {m : Nat → ℚ} (h : ∀ k < n, P k → 0 < m k) : ∃ ε > 0, ∀ k < n, P k → ε ≤ m k := by
  induction n with
  | zero => exact ⟨1, one_pos, fun k hk => by omega⟩
  | succ n ih =>
    obtain ⟨ε, h0, h1⟩ := ih fun k hk => h k (by omega)
    by_cases hP : P n
    · refine ⟨min ε (m n), lt_min h0 (h n (by omega) hP), fun k hk hk' => ?_⟩
      rcases Nat.lt_succ_iff_lt_or_eq.1 hk with hlt | rfl
      · exact (min_le_left _ _).trans (h1 k hlt hk')
      · exact min_le_right _ _
    · refine ⟨ε, h0, fun k hk hk' => ?_⟩
      rcases Nat.lt_succ_iff_lt_or_eq.1 hk with hlt | rfl
      · exact h1 k hlt hk'
      · exact absurd hk' hP

theorem carried_range {a b k : Nat} {y v C : ℚ} (hy : 0 ≤ y) (hv : 0 ≤ v ∧ v ≤ C) (h1 : a ≤ k → k < b → v + y ≤ C) (h2 : b ≤ k → k < a → 0 ≤ v - y) :
    0 ≤ v + carried a b y k ∧ v + carried a b y k ≤ C := by
  unfold carried
  obtain ⟨v1, v2⟩ := hv
  split_ifs with ha hb hb
  · constructor <;> linarith
  · have := h1 ha (by omega)
    constructor <;> linarith
  · have := h2 hb (by omega)
    constructor <;> linarith
  · constructor <;> linarith

theorem carried_neg (a b k : Nat) (y : ℚ) : carried a b (-y) k = carried b a y k := by
  unfold carried
  split_ifs <;> ring

/-- No profitable move is left. -/
theorem battery_arbitrage (hc : s.ClearNames) (hw : ∀ a ∈ s.assets, a.WellNamed) (h : s.Dispatch flags V) (ho : s.NoGain flags V p e g) {c : BatteryCfg}
    (hm : Asset.battery c ∈ s.assets) (h0 : 0 < c.efficiency) (h1 : c.efficiency ≤ 1) {a b : Nat} (ha : a < s.data.n) (hb : b < s.data.n) (hne : a ≠ b)
    (hmove : c.CanMove s V a b) (htake : s.CanTake V a) (hgive : s.CanGive V b) :
    c.efficiency * (if 0 < V "site-import_power_mwh" b then p b else e b) ≤ (if 0 < V "site-export_power_mwh" a then e a else p a) := by
  have pc : c.Plays s V := h.assets _ hm
  obtain ⟨ε, he0, he⟩ := take h ha htake
  obtain ⟨δ, hd0, hd⟩ := give h hb hgive
  obtain ⟨θ, ht0, ht⟩ := exists_small (n := s.data.n) (P := fun k => a ≤ k ∧ k < b)
    (m := fun k => c.capacity - V (c.name ++ "-electric_final_charge_mwh") k) fun k _ hk => sub_pos.2 (hmove.notFull k hk.1 hk.2)
  obtain ⟨κ, hk0, hk⟩ := exists_small (n := s.data.n) (P := fun k => b ≤ k ∧ k < a)
    (m := fun k => V (c.name ++ "-electric_final_charge_mwh") k) fun k _ hk => hmove.notEmpty k hk.1 hk.2
  obtain ⟨x, hx0, q1, q2, q3, q4, q5, q6⟩ : ∃ x : ℚ, 0 < x ∧ x ≤ ε ∧ c.efficiency * x ≤ δ ∧ c.efficiency * x ≤ θ ∧ c.efficiency * x ≤ κ ∧
      V (c.name ++ "-electric_charge_mwh") a + x ≤ min (c.chargePower * s.freqMins / 60) c.capacity ∧
      V (c.name ++ "-electric_discharge_mwh") b + c.efficiency * x ≤ min (c.dischargePower * s.freqMins / 60) c.capacity := by
    have hA : 0 < min (c.chargePower * s.freqMins / 60) c.capacity - V (c.name ++ "-electric_charge_mwh") a := sub_pos.2 hmove.charge
    have hB : 0 < min (c.dischargePower * s.freqMins / 60) c.capacity - V (c.name ++ "-electric_discharge_mwh") b := sub_pos.2 hmove.discharge
    generalize min (c.chargePower * s.freqMins / 60) c.capacity = A at hA
    generalize min (c.dischargePower * s.freqMins / 60) c.capacity = B at hB
    refine ⟨min (min ε (A - V (c.name ++ "-electric_charge_mwh") a)) (min (min δ θ) (min κ (B - V (c.name ++ "-electric_discharge_mwh") b))),
      lt_min (lt_min he0 hA) (lt_min (lt_min hd0 ht0) (lt_min hk0 hB)), ?_⟩
    set x := min (min ε (A - V (c.name ++ "-electric_charge_mwh") a)) (min (min δ θ) (min κ (B - V (c.name ++ "-electric_discharge_mwh") b))) with hx
    have hx0 : 0 < x := lt_min (lt_min he0 hA) (lt_min (lt_min hd0 ht0) (lt_min hk0 hB))
    have hle : c.efficiency * x ≤ x := by
      have := mul_le_mul_of_nonneg_right h1 hx0.le
      linarith
    have r1 : x ≤ ε := (min_le_left _ _).trans (min_le_left _ _)
    have r2 : x ≤ A - V (c.name ++ "-electric_charge_mwh") a := (min_le_left _ _).trans (min_le_right _ _)
    have r3 : x ≤ δ := ((min_le_right _ _).trans (min_le_left _ _)).trans (min_le_left _ _)
    have r4 : x ≤ θ := ((min_le_right _ _).trans (min_le_left _ _)).trans (min_le_right _ _)
    have r5 : x ≤ κ := ((min_le_right _ _).trans (min_le_right _ _)).trans (min_le_left _ _)
    have r6 : x ≤ B - V (c.name ++ "-electric_discharge_mwh") b := ((min_le_right _ _).trans (min_le_right _ _)).trans (min_le_right _ _)
    exact ⟨r1, hle.trans r3, hle.trans r4, hle.trans r5, by linarith, by linarith⟩
  have hex : 0 < c.efficiency * x := mul_pos h0 hx0
  have hp := battery_piece (x := x) h hm ha hb hne ⟨by linarith [(pc.charge a ha).1], q5⟩ ⟨by linarith [(pc.discharge b hb).1], q6⟩
    hmove.noDischarge hmove.noCharge (mul_nonneg (by linarith) (by linarith [(pc.charge a ha).1])) (fun k hkn =>
      carried_range hex.le (pc.stored k hkn).2.2 (fun i1 i2 => by linarith [ht k hkn ⟨i1, i2⟩]) (fun i1 i2 => by linarith [hk k hkn ⟨i1, i2⟩]))
  obtain ⟨y, z, k1, k2, k3⟩ := he x hx0.le q1
  obtain ⟨u, v, k1', k2', k3'⟩ := hd (c.efficiency * x) hex.le q2
  have := battery_gain hc hw h ho ha hb hne hp k1 k2 k1' k2'
  rw [k3, k3'] at this
  by_contra hn
  have := mul_pos hx0 (sub_pos.2 (not_le.1 hn))
  linarith

/-- No move costs more than it brings. -/
theorem battery_worth (hc : s.ClearNames) (hw : ∀ a ∈ s.assets, a.WellNamed) (h : s.Dispatch flags V) (ho : s.NoGain flags V p e g) {c : BatteryCfg}
    (hm : Asset.battery c ∈ s.assets) (h0 : 0 < c.efficiency) {a b : Nat} (ha : a < s.data.n) (hb : b < s.data.n)
    (hmove : c.Moves V a b) (hgive : s.CanGive V a) (htake : s.CanTake V b) :
    (if 0 < V "site-import_power_mwh" a then p a else e a) ≤ c.efficiency * (if 0 < V "site-export_power_mwh" b then e b else p b) := by
  have pc : c.Plays s V := h.assets _ hm
  have hne : a ≠ b := by
    rintro rfl
    rcases pc.exclusive a ha with z | z
    · exact (ne_of_gt hmove.charge) z
    · exact (ne_of_gt hmove.discharge) z
  have hA0 : V (c.name ++ "-electric_discharge_mwh") a = 0 := (pc.exclusive a ha).resolve_left (ne_of_gt hmove.charge)
  have hB0 : V (c.name ++ "-electric_charge_mwh") b = 0 := (pc.exclusive b hb).resolve_right (ne_of_gt hmove.discharge)
  have h1 : 0 ≤ 1 - c.efficiency := by
    obtain ⟨l1, l2⟩ := pc.loss a ha
    rw [l1] at l2
    exact nonneg_of_mul_nonneg_left l2 hmove.charge
  obtain ⟨ε, he0, he⟩ := give h ha hgive
  obtain ⟨δ, hd0, hd⟩ := take h hb htake
  obtain ⟨θ, ht0, ht⟩ := exists_small (n := s.data.n) (P := fun k => b ≤ k ∧ k < a)
    (m := fun k => c.capacity - V (c.name ++ "-electric_final_charge_mwh") k) fun k _ hk => sub_pos.2 (hmove.notFull k hk.1 hk.2)
  obtain ⟨κ, hk0, hk⟩ := exists_small (n := s.data.n) (P := fun k => a ≤ k ∧ k < b)
    (m := fun k => V (c.name ++ "-electric_final_charge_mwh") k) fun k _ hk => hmove.notEmpty k hk.1 hk.2
  obtain ⟨x, hx0, q1, q2, q3, q4, q5, q6⟩ : ∃ x : ℚ, 0 < x ∧ x ≤ ε ∧ c.efficiency * x ≤ δ ∧ c.efficiency * x ≤ θ ∧ c.efficiency * x ≤ κ ∧
      x ≤ V (c.name ++ "-electric_charge_mwh") a ∧ c.efficiency * x ≤ V (c.name ++ "-electric_discharge_mwh") b := by
    have hA := hmove.charge
    have hB := hmove.discharge
    generalize V (c.name ++ "-electric_charge_mwh") a = A at hA
    generalize V (c.name ++ "-electric_discharge_mwh") b = B at hB
    set x := min (min ε A) (min (min δ θ) (min κ B)) with hx
    have hx0 : 0 < x := lt_min (lt_min he0 hA) (lt_min (lt_min hd0 ht0) (lt_min hk0 hB))
    have hle : c.efficiency * x ≤ x := by
      have := mul_le_mul_of_nonneg_right (show c.efficiency ≤ 1 by linarith) hx0.le
      linarith
    have r1 : x ≤ ε := (min_le_left _ _).trans (min_le_left _ _)
    have r2 : x ≤ A := (min_le_left _ _).trans (min_le_right _ _)
    have r3 : x ≤ δ := ((min_le_right _ _).trans (min_le_left _ _)).trans (min_le_left _ _)
    have r4 : x ≤ θ := ((min_le_right _ _).trans (min_le_left _ _)).trans (min_le_right _ _)
    have r5 : x ≤ κ := ((min_le_right _ _).trans (min_le_right _ _)).trans (min_le_left _ _)
    have r6 : x ≤ B := ((min_le_right _ _).trans (min_le_right _ _)).trans (min_le_right _ _)
    exact ⟨x, hx0, r1, hle.trans r3, hle.trans r4, hle.trans r5, r2, hle.trans r6⟩
  have hex : 0 < c.efficiency * x := mul_pos h0 hx0
  have en : c.efficiency * -x = -(c.efficiency * x) := by ring
  have hp := battery_piece (x := -x) h hm ha hb hne ⟨by linarith, by linarith [(pc.charge a ha).2]⟩
    ⟨by rw [en]; linarith, by rw [en]; linarith [(pc.discharge b hb).2]⟩ hA0 hB0 (mul_nonneg h1 (by linarith)) (fun k hkn => by
      rw [en, carried_neg]
      exact carried_range hex.le (pc.stored k hkn).2.2 (fun i1 i2 => by linarith [ht k hkn ⟨i1, i2⟩]) (fun i1 i2 => by linarith [hk k hkn ⟨i1, i2⟩]))
  obtain ⟨y, z, k1, k2, k3⟩ := he x hx0.le q1
  obtain ⟨u, v, k1', k2', k3'⟩ := hd (c.efficiency * x) hex.le q2
  have := battery_gain hc hw h ho ha hb hne hp k1 k2 k1' (by rw [k2', en]; ring)
  rw [k3, k3'] at this
  by_contra hn
  have := mul_pos hx0 (sub_pos.2 (not_le.1 hn))
  linarith

end

end EPL
