/-
A valid dispatch, spread evenly over shorter intervals, is a valid dispatch of the finer site with the same cost.
-/
import Verif.Proofs.Remap
import Verif.Proofs.Basic
import Verif.Spec.Resolution

namespace EPL

/-! ### lists -/

theorem repeatEach_length {α : Type} (k : Nat) (l : List α) : (repeatEach k l).length = l.length * k := by
  induction l with
  | nil => simp [repeatEach]
  | cons a t ih =>
    unfold repeatEach at ih ⊢
    rw [List.flatMap_cons, List.length_append, List.length_replicate, ih, List.length_cons, Nat.succ_mul, Nat.add_comm]

theorem repeatEach_get {α : Type} {k : Nat} (hk : 0 < k) (l : List α) (i : Nat) : (repeatEach k l)[i]? = l[i / k]? := by
  induction l generalizing i with
  | nil => simp [repeatEach]
  | cons a t ih =>
    unfold repeatEach at ih ⊢
    rw [List.flatMap_cons]
    rcases Nat.lt_or_ge i k with h | h
    · rw [List.getElem?_append_left (by simpa using h), Nat.div_eq_of_lt h, List.getElem?_replicate, if_pos h]
      rfl
    · rw [List.getElem?_append_right (by simpa using h), List.length_replicate, ih]
      have : i / k = (i - k) / k + 1 := by
        rw [← Nat.add_div_right _ hk, Nat.sub_add_cancel h]
      rw [this, List.getElem?_cons_succ]

theorem repeatEach_getD {α : Type} {k : Nat} (hk : 0 < k) (l : List α) (i : Nat) (d : α) : (repeatEach k l).getD i d = l.getD (i / k) d := by
  rw [List.getD_eq_getElem?_getD, List.getD_eq_getElem?_getD, repeatEach_get hk]

theorem spreadEach_getD {k : Nat} (hk : 0 < k) (l : List ℚ) (i : Nat) : (spreadEach k l).getD i 0 = l.getD (i / k) 0 / k := by
  unfold spreadEach
  rw [List.getD_eq_getElem?_getD, List.getElem?_map, repeatEach_get hk, List.getD_eq_getElem?_getD]
  cases l[i / k]? <;> simp

/-- A sum over the parts of the intervals. -/
theorem sum_parts {k : Nat} (hk : 0 < k) (n : Nat) (g : Nat → ℚ) :
    ((List.range (n * k)).map (fun i => g (i / k) / k)).sum = ((List.range n).map g).sum := by
  have hk' : (k : ℚ) ≠ 0 := by exact_mod_cast hk.ne'
  induction n with
  | zero => simp
  | succ n ih =>
    rw [Nat.succ_mul, List.range_add, List.map_append, List.sum_append, ih, List.range_succ, List.map_append, List.sum_append, List.map_map]
    congr 1
    have : (List.range k).map ((fun i => g (i / k) / (k : ℚ)) ∘ fun x => n * k + x) = (List.range k).map (fun _ => g n / (k : ℚ)) := by
      refine List.map_congr_left fun j hj => ?_
      rw [List.mem_range] at hj
      simp only [Function.comp_apply]
      rw [Nat.mul_comm, Nat.mul_add_div hk, Nat.div_eq_of_lt hj, Nat.add_zero]
    rw [this]
    simp only [List.map_const', List.length_range, List.sum_replicate, List.map_cons, List.map_nil, List.sum_cons, List.sum_nil, add_zero, nsmul_eq_mul]
    rw [mul_div_cancel₀ _ hk']

/-! ### the table -/

/-- From `a` to `b` in `k` even steps. -/
def along (k : Nat) (a b : ℚ) (j : Nat) : ℚ := a + (b - a) * (j / k)

/-- The columns that are not energies. -/
def rateColumns : List String := ["electricity_prices", "export_electricity_prices", "electricity_carbon_intensities", "gas_prices"]

/-- The columns with a state of charge. -/
def stateColumns : List String := ["electric_initial_charge_mwh", "electric_final_charge_mwh", "initial_soc_mwh", "final_soc_mwh"]

/-- The cell of the finer table. -/
def fineCell (k : Nat) (W : String → Nat → ℚ) (unit attr : String) (i : Nat) : ℚ :=
  if attr = "electric_initial_charge_mwh" then
    along k (W (unit ++ "-electric_initial_charge_mwh") (i / k)) (W (unit ++ "-electric_final_charge_mwh") (i / k)) (i % k)
  else if attr = "electric_final_charge_mwh" then
    along k (W (unit ++ "-electric_initial_charge_mwh") (i / k)) (W (unit ++ "-electric_final_charge_mwh") (i / k)) (i % k + 1)
  else if attr = "initial_soc_mwh" then
    along k (W (unit ++ "-" ++ "initial_soc_mwh") (i / k)) (W (unit ++ "-" ++ "final_soc_mwh") (i / k)) (i % k)
  else if attr = "final_soc_mwh" then
    along k (W (unit ++ "-" ++ "initial_soc_mwh") (i / k)) (W (unit ++ "-" ++ "final_soc_mwh") (i / k)) (i % k + 1)
  else if attr ∈ rateColumns then W (unit ++ "-" ++ attr) (i / k)
  else W (unit ++ "-" ++ attr) (i / k) / k

/-- The finer table. -/
def fineTable (k : Nat) (W : String → Nat → ℚ) : String → Nat → ℚ := remap (fineCell k W)

section
variable {k : Nat} {W : String → Nat → ℚ}

/-- An energy is split evenly. -/
theorem fine_dash {attr : String} (h : NoDash attr) (h' : attr ∉ stateColumns ++ rateColumns) (unit : String) (i : Nat) :
    fineTable k W (unit ++ "-" ++ attr) i = W (unit ++ "-" ++ attr) (i / k) / k := by
  unfold fineTable
  rw [remap_dash h]
  simp only [stateColumns, List.cons_append, List.nil_append, List.mem_cons, not_or] at h'
  obtain ⟨h1, h2, h3, h4, h5⟩ := h'
  unfold fineCell
  rw [if_neg h1, if_neg h2, if_neg h3, if_neg h4, if_neg h5]

theorem fine_lit {lit : String} (attr : String) (hl : lit = "-" ++ attr) (h : NoDash attr) (h' : attr ∉ stateColumns ++ rateColumns)
    (unit : String) (i : Nat) : fineTable k W (unit ++ lit) i = W (unit ++ lit) (i / k) / k := by
  rw [hl, ← String.append_assoc]
  exact fine_dash h h' unit i

theorem fine_site {col : String} (attr : String) (hl : col = "site" ++ "-" ++ attr) (h : NoDash attr) (h' : attr ∉ stateColumns ++ rateColumns)
    (i : Nat) : fineTable k W col i = W col (i / k) / k := by
  rw [hl]
  exact fine_dash h h' "site" i

theorem fine_rate {col : String} (attr : String) (hl : col = "site" ++ "-" ++ attr) (h : NoDash attr) (h' : attr ∉ stateColumns)
    (hr : attr ∈ rateColumns) (i : Nat) : fineTable k W col i = W col (i / k) := by
  rw [hl]
  unfold fineTable
  rw [remap_dash h]
  simp only [stateColumns, List.mem_cons, List.not_mem_nil, or_false, not_or] at h'
  obtain ⟨h1, h2, h3, h4⟩ := h'
  unfold fineCell
  rw [if_neg h1, if_neg h2, if_neg h3, if_neg h4, if_pos hr]

theorem fine_charge (u : String) (i : Nat) : fineTable k W (u ++ "-electric_charge_mwh") i = W (u ++ "-electric_charge_mwh") (i / k) / k :=
  fine_lit "electric_charge_mwh" rfl (by decide +kernel) (by decide +kernel) u i
theorem fine_discharge (u : String) (i : Nat) : fineTable k W (u ++ "-electric_discharge_mwh") i = W (u ++ "-electric_discharge_mwh") (i / k) / k :=
  fine_lit "electric_discharge_mwh" rfl (by decide +kernel) (by decide +kernel) u i
theorem fine_loss (u : String) (i : Nat) : fineTable k W (u ++ "-electric_loss_mwh") i = W (u ++ "-electric_loss_mwh") (i / k) / k :=
  fine_lit "electric_loss_mwh" rfl (by decide +kernel) (by decide +kernel) u i
theorem fine_generation (u : String) (i : Nat) : fineTable k W (u ++ "-electric_generation_mwh") i = W (u ++ "-electric_generation_mwh") (i / k) / k :=
  fine_lit "electric_generation_mwh" rfl (by decide +kernel) (by decide +kernel) u i
theorem fine_load (u : String) (i : Nat) : fineTable k W (u ++ "-electric_load_mwh") i = W (u ++ "-electric_load_mwh") (i / k) / k :=
  fine_lit "electric_load_mwh" rfl (by decide +kernel) (by decide +kernel) u i
theorem fine_gas (u : String) (i : Nat) : fineTable k W (u ++ "-gas_consumption_mwh") i = W (u ++ "-gas_consumption_mwh") (i / k) / k :=
  fine_lit "gas_consumption_mwh" rfl (by decide +kernel) (by decide +kernel) u i
theorem fine_ht (u : String) (i : Nat) :
    fineTable k W (u ++ "-high_temperature_generation_mwh") i = W (u ++ "-high_temperature_generation_mwh") (i / k) / k :=
  fine_lit "high_temperature_generation_mwh" rfl (by decide +kernel) (by decide +kernel) u i
theorem fine_htl (u : String) (i : Nat) :
    fineTable k W (u ++ "-high_temperature_load_mwh") i = W (u ++ "-high_temperature_load_mwh") (i / k) / k :=
  fine_lit "high_temperature_load_mwh" rfl (by decide +kernel) (by decide +kernel) u i
theorem fine_lt (u : String) (i : Nat) :
    fineTable k W (u ++ "-low_temperature_generation_mwh") i = W (u ++ "-low_temperature_generation_mwh") (i / k) / k :=
  fine_lit "low_temperature_generation_mwh" rfl (by decide +kernel) (by decide +kernel) u i
theorem fine_ltl (u : String) (i : Nat) :
    fineTable k W (u ++ "-low_temperature_load_mwh") i = W (u ++ "-low_temperature_load_mwh") (i / k) / k :=
  fine_lit "low_temperature_load_mwh" rfl (by decide +kernel) (by decide +kernel) u i

theorem fine_initial (u : String) (i : Nat) : fineTable k W (u ++ "-electric_initial_charge_mwh") i =
    along k (W (u ++ "-electric_initial_charge_mwh") (i / k)) (W (u ++ "-electric_final_charge_mwh") (i / k)) (i % k) := by
  unfold fineTable
  rw [remap_lit (lit := "-electric_initial_charge_mwh") u "electric_initial_charge_mwh" rfl (by decide +kernel)]
  rfl
theorem fine_final (u : String) (i : Nat) : fineTable k W (u ++ "-electric_final_charge_mwh") i =
    along k (W (u ++ "-electric_initial_charge_mwh") (i / k)) (W (u ++ "-electric_final_charge_mwh") (i / k)) (i % k + 1) := by
  unfold fineTable
  rw [remap_lit (lit := "-electric_final_charge_mwh") u "electric_final_charge_mwh" rfl (by decide +kernel)]
  unfold fineCell
  rw [if_neg (by decide), if_pos rfl]
theorem fine_soc (u : String) (i : Nat) : fineTable k W (u ++ "-" ++ "initial_soc_mwh") i =
    along k (W (u ++ "-" ++ "initial_soc_mwh") (i / k)) (W (u ++ "-" ++ "final_soc_mwh") (i / k)) (i % k) := by
  unfold fineTable
  rw [remap_dash (by decide +kernel)]
  unfold fineCell
  rw [if_neg (by decide), if_neg (by decide), if_pos rfl]
theorem fine_fsoc (u : String) (i : Nat) : fineTable k W (u ++ "-" ++ "final_soc_mwh") i =
    along k (W (u ++ "-" ++ "initial_soc_mwh") (i / k)) (W (u ++ "-" ++ "final_soc_mwh") (i / k)) (i % k + 1) := by
  unfold fineTable
  rw [remap_dash (by decide +kernel)]
  unfold fineCell
  rw [if_neg (by decide), if_neg (by decide), if_neg (by decide), if_pos rfl]

/-! ### along a straight line -/

theorem along_zero (a b : ℚ) : along k a b 0 = a := by simp [along]

theorem along_full (hk : 0 < k) (a b : ℚ) : along k a b k = b := by
  have hk' : (k : ℚ) ≠ 0 := by exact_mod_cast hk.ne'
  unfold along
  rw [div_self hk']
  ring

theorem along_step (a b : ℚ) (j : Nat) : along k a b (j + 1) = along k a b j + (b - a) / k := by
  unfold along
  push_cast
  ring

theorem along_between (hk : 0 < k) {a b c : ℚ} {j : Nat} (hj : j ≤ k) (ha : 0 ≤ a) (ha' : a ≤ c) (hb : 0 ≤ b) (hb' : b ≤ c) :
    0 ≤ along k a b j ∧ along k a b j ≤ c := by
  have hk' : (0 : ℚ) < k := by exact_mod_cast hk
  have hjq : (0 : ℚ) ≤ j := by exact_mod_cast Nat.zero_le j
  have hjk : (j : ℚ) ≤ k := by exact_mod_cast hj
  have h0 : (0 : ℚ) ≤ j / k := by
    rw [div_eq_mul_inv]
    exact mul_nonneg hjq (inv_nonneg.2 hk'.le)
  have h1 : (j : ℚ) / k ≤ 1 := by
    rw [div_eq_mul_inv, ← mul_inv_cancel₀ hk'.ne']
    exact mul_le_mul_of_nonneg_right hjk (inv_nonneg.2 hk'.le)
  have e : along k a b j = a * (1 - j / k) + b * (j / k) := by unfold along; ring
  rw [e]
  constructor
  · exact add_nonneg (mul_nonneg ha (by linarith)) (mul_nonneg hb h0)
  · have := mul_le_mul_of_nonneg_right ha' (show (0 : ℚ) ≤ 1 - j / k by linarith)
    have := mul_le_mul_of_nonneg_right hb' h0
    nlinarith

theorem succ_div {i : Nat} (hk : 0 < k) :
    ((i + 1) / k = i / k ∧ (i + 1) % k = i % k + 1) ∨ ((i + 1) / k = i / k + 1 ∧ (i + 1) % k = 0 ∧ i % k + 1 = k) := by
  have h := Nat.div_add_mod i k
  have hm := Nat.mod_lt i hk
  rcases Nat.lt_or_ge (i % k + 1) k with h1 | h1
  · left
    have e : i + 1 = k * (i / k) + (i % k + 1) := by omega
    constructor
    · rw [e, Nat.mul_add_div hk, Nat.div_eq_of_lt h1, Nat.add_zero]
    · rw [e, Nat.mul_add_mod, Nat.mod_eq_of_lt h1]
  · right
    have h2 : i % k + 1 = k := by omega
    have e : i + 1 = k * (i / k + 1) := by rw [Nat.mul_add]; omega
    refine ⟨?_, ?_, h2⟩
    · rw [e, Nat.mul_div_cancel_left _ hk]
    · rw [e, Nat.mul_mod_right]

theorem last_div {n : Nat} (hk : 0 < k) (hn : 0 < n) : (n * k - 1) / k = n - 1 ∧ (n * k - 1) % k + 1 = k := by
  obtain ⟨m, rfl⟩ : ∃ m, n = m + 1 := ⟨n - 1, by omega⟩
  have e : (m + 1) * k - 1 = k * m + (k - 1) := by rw [Nat.succ_mul, Nat.mul_comm]; omega
  have h1 : k - 1 < k := by omega
  constructor
  · rw [e, Nat.mul_add_div hk, Nat.div_eq_of_lt h1]; rfl
  · rw [e, Nat.mul_add_mod, Nat.mod_eq_of_lt h1]; omega

end

end EPL
