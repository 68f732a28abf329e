/-
Better, idle and joined assets.
-/
import Verif.Proofs.Swap

namespace EPL

/-- The table with the columns of one asset set. -/
noncomputable def setFlows (name : String) (flows : List String) (g : String → Nat → ℚ) (W : String → Nat → ℚ) : String → Nat → ℚ := fun k =>
  open Classical in if h : ∃ q ∈ flows, k = name ++ "-" ++ q then g h.choose else W k

section
variable {name : String} {flows : List String} {g W : String → Nat → ℚ}

theorem setFlows_at {q : String} (hq : q ∈ flows) : setFlows name flows g W (name ++ "-" ++ q) = g q := by
  have h : ∃ q' ∈ flows, name ++ "-" ++ q = name ++ "-" ++ q' := ⟨q, hq, rfl⟩
  unfold setFlows
  rw [dif_pos h]
  have := h.choose_spec.2
  rw [str_eq_iff] at this
  simp only [String.toList_append] at this
  exact congrArg g (str_eq_iff.2 (List.append_cancel_left this)).symm

theorem setFlows_col {q col : String} (hq : q ∈ flows) (e : "-" ++ q = col) : setFlows name flows g W (name ++ col) = g q := by
  rw [← e, ← String.append_assoc]
  exact setFlows_at hq

theorem setFlows_off {k : String} (hk : k ∉ flows.map (fun q => name ++ "-" ++ q)) : setFlows name flows g W k = W k := by
  unfold setFlows
  rw [dif_neg]
  rintro ⟨q, hq, rfl⟩
  exact hk (List.mem_map.2 ⟨q, hq, rfl⟩)

end

theorem colEq (name : String) {q col : String} (e : "-" ++ q = col) : name ++ "-" ++ q = name ++ col := by
  rw [← e, ← String.append_assoc]

section
variable {W W' : String → Nat → ℚ} {i : Nat}

theorem flow_one {a : Asset} (hu : a.units = [a.name]) (q : String) : flowOf [a] W q i = if q ∈ a.flows then W (a.name ++ "-" ++ q) i else 0 := by
  unfold flowOf Asset.reports
  rw [List.map_singleton, List.sum_singleton, hu]
  split <;> simp [rowSum]

theorem flow_two {a b : Asset} (q : String) : flowOf [a, b] W q i = flowOf [a] W q i + flowOf [b] W q i := by
  simp [flowOf]

theorem penalty_none {A : List Asset} (h : ∀ a ∈ A, a.penalised = []) : penaltyOf A W i = 0 :=
  list_sum_zero fun a ha => by rw [h a ha]; rfl

/-! ### Better efficiency -/

theorem thrifty_units {a a' : Asset} (h : a.Thriftier a') : a.units = [a.name] ∧ a'.units = [a.name] ∧ a'.flows = a.flows ∧ a'.name = a.name ∧
    a.penalised = [] ∧ a'.penalised = [] ∧ "gas_consumption_mwh" ∈ a.flows ∧ a'.documentedColumns = a.documentedColumns ∧
    ∀ q ∈ a.flows, a.name ++ "-" ++ q ∈ a.documentedColumns := by
  cases h <;> simp [Asset.units, Asset.flows, Asset.name, Asset.penalised, Asset.documentedColumns]

/-- The table with another gas column. -/
theorem thrifty_plays {s : Site} {flags : Flags} {a a' : Asset} (h : a.Thriftier a') (hp : a.Plays s flags W) : ∃ f : Nat → ℚ,
    (∀ i < s.data.n, f i ≤ W (a.name ++ "-" ++ "gas_consumption_mwh") i) ∧
    a'.Plays s flags (put (a.name ++ "-" ++ "gas_consumption_mwh") f W) := by
  have ne : ∀ (name : String) (q : String), q ≠ "gas_consumption_mwh" → name ++ "-" ++ q ≠ name ++ "-" ++ "gas_consumption_mwh" := by
    intro name q hq h
    rw [str_eq_iff] at h
    simp only [String.toList_append] at h
    exact hq (str_eq_iff.2 (List.append_cancel_left h))
  cases h with
  | boiler c η h0 h1 =>
    have P : c.Plays s W := hp
    have hη : 0 < η := h0.trans_le h1
    have eg : c.name ++ "-" ++ "gas_consumption_mwh" = c.name ++ "-gas_consumption_mwh" := colEq _ rfl
    have eh : c.name ++ "-" ++ "high_temperature_generation_mwh" = c.name ++ "-high_temperature_generation_mwh" := colEq _ rfl
    refine ⟨fun i => c.efficiency / η * W (c.name ++ "-" ++ "gas_consumption_mwh") i, fun i hi => ?_, ?_⟩
    · show _ ≤ W (c.name ++ "-" ++ "gas_consumption_mwh") i
      have g0 := P.gas i hi
      rw [← eg] at g0
      have : c.efficiency / η ≤ 1 := (div_le_one₀ hη).2 h1
      have := mul_le_mul_of_nonneg_right this g0
      linarith
    · have vg : put (c.name ++ "-" ++ "gas_consumption_mwh") (fun i => c.efficiency / η * W (c.name ++ "-" ++ "gas_consumption_mwh") i) W
          (c.name ++ "-gas_consumption_mwh") = fun i => c.efficiency / η * W (c.name ++ "-gas_consumption_mwh") i := by
        rw [← eg, put_at]
      have vh : put (c.name ++ "-" ++ "gas_consumption_mwh") (fun i => c.efficiency / η * W (c.name ++ "-" ++ "gas_consumption_mwh") i) W
          (c.name ++ "-high_temperature_generation_mwh") = W (c.name ++ "-high_temperature_generation_mwh") := by
        rw [← eh, put_off _ _ (ne _ _ (by decide))]
      show BoilerCfg.Plays { c with efficiency := η } s (put (c.name ++ "-" ++ "gas_consumption_mwh") _ W)
      refine ⟨fun i hi => ?_, fun i hi => ?_, fun i hi => ?_⟩
      · simp only
        rw [vg, vh, ← P.efficiency i hi, ← mul_assoc, mul_div_cancel₀ _ hη.ne']
      · simp only
        rw [vh]
        exact P.heat i hi
      · simp only
        rw [vg]
        exact mul_nonneg (div_nonneg h0.le hη.le) (P.gas i hi)
  | chp c k hk =>
    have P : c.Plays s W := hp
    have hk0 : 0 < k := lt_of_lt_of_le one_pos hk
    have eg : c.name ++ "-" ++ "gas_consumption_mwh" = c.name ++ "-gas_consumption_mwh" := colEq _ rfl
    have ee : c.name ++ "-" ++ "electric_generation_mwh" = c.name ++ "-electric_generation_mwh" := colEq _ rfl
    have eh : c.name ++ "-" ++ "high_temperature_generation_mwh" = c.name ++ "-high_temperature_generation_mwh" := colEq _ rfl
    have el : c.name ++ "-" ++ "low_temperature_generation_mwh" = c.name ++ "-low_temperature_generation_mwh" := colEq _ rfl
    refine ⟨fun i => W (c.name ++ "-" ++ "gas_consumption_mwh") i / k, fun i hi => ?_, ?_⟩
    · show _ ≤ W (c.name ++ "-" ++ "gas_consumption_mwh") i
      have g0 := (P.positive i hi).1
      rw [← eg] at g0
      rw [div_le_iff₀ hk0]
      exact le_mul_of_one_le_right g0 hk
    · have vg : put (c.name ++ "-" ++ "gas_consumption_mwh") (fun i => W (c.name ++ "-" ++ "gas_consumption_mwh") i / k) W
          (c.name ++ "-gas_consumption_mwh") = fun i => W (c.name ++ "-gas_consumption_mwh") i / k := by
        rw [← eg, put_at]
      have ve : put (c.name ++ "-" ++ "gas_consumption_mwh") (fun i => W (c.name ++ "-" ++ "gas_consumption_mwh") i / k) W
          (c.name ++ "-electric_generation_mwh") = W (c.name ++ "-electric_generation_mwh") := by
        rw [← ee, put_off _ _ (ne _ _ (by decide))]
      have vh : put (c.name ++ "-" ++ "gas_consumption_mwh") (fun i => W (c.name ++ "-" ++ "gas_consumption_mwh") i / k) W
          (c.name ++ "-high_temperature_generation_mwh") = W (c.name ++ "-high_temperature_generation_mwh") := by
        rw [← eh, put_off _ _ (ne _ _ (by decide))]
      have vl : put (c.name ++ "-" ++ "gas_consumption_mwh") (fun i => W (c.name ++ "-" ++ "gas_consumption_mwh") i / k) W
          (c.name ++ "-low_temperature_generation_mwh") = W (c.name ++ "-low_temperature_generation_mwh") := by
        rw [← el, put_off _ _ (ne _ _ (by decide))]
      show ChpCfg.Plays { c with electricEfficiency := k * c.electricEfficiency, htEfficiency := k * c.htEfficiency, ltEfficiency := k * c.ltEfficiency } s
        (put (c.name ++ "-" ++ "gas_consumption_mwh") _ W)
      refine ⟨fun i hi => ?_, fun i hi => ?_, fun i hi => ?_, fun i hi => ?_, fun i hi => ?_⟩
      · simp only
        intro hpos
        rw [vg, ve]
        show W (c.name ++ "-gas_consumption_mwh") i / k = _
        rw [P.electric i hi ((mul_pos_iff_of_pos_left hk0).1 hpos), div_div, mul_comm]
      · simp only
        rw [vg, vh, P.high i hi, mul_comm k, mul_assoc, mul_div_cancel₀ _ hk0.ne']
      · simp only
        rw [vg, vl, P.low i hi, mul_comm k, mul_assoc, mul_div_cancel₀ _ hk0.ne']
      · simp only
        rw [vg, ve, vh, vl]
        obtain ⟨q1, q2, q3, q4⟩ := P.positive i hi
        exact ⟨div_nonneg q1 hk0.le, q2, q3, q4⟩
      · simp only
        rw [ve]
        exact P.range i hi

/-! ### Standing still -/

/-- The penalised columns are reports. -/
theorem penalised_reports {a : Asset} {k : String} (h : k ∈ a.penalised) : ∃ q ∈ a.flows, k ∈ a.reports q := by
  cases a with
  | spill c =>
    simp only [Asset.penalised, List.mem_cons, List.not_mem_nil, or_false] at h
    rcases h with rfl | rfl | rfl
    · refine ⟨"electric_generation_mwh", by simp [Asset.flows], ?_⟩
      unfold Asset.reports
      rw [if_pos (by simp [Asset.flows])]
      exact List.mem_singleton.2 (colEq c.name (by decide)).symm
    · refine ⟨"electric_load_mwh", by simp [Asset.flows], ?_⟩
      unfold Asset.reports
      rw [if_pos (by simp [Asset.flows])]
      exact List.mem_singleton.2 (colEq c.name (by decide)).symm
    · refine ⟨"high_temperature_generation_mwh", by simp [Asset.flows], ?_⟩
      unfold Asset.reports
      rw [if_pos (by simp [Asset.flows])]
      exact List.mem_singleton.2 (colEq c.name (by decide)).symm
  | evs c =>
    simp only [Asset.penalised, List.mem_map] at h
    obtain ⟨ch, hch, rfl⟩ := h
    refine ⟨"electric_charge_mwh", by simp [Asset.flows], ?_⟩
    unfold Asset.reports
    rw [if_pos (by simp [Asset.flows]), List.mem_map]
    exact ⟨c.name ++ "-" ++ ch.name, List.mem_map.2 ⟨ch, List.mem_append_right _ hch, rfl⟩, colEq _ rfl⟩
  | _ => simp [Asset.penalised] at h

theorem still_flow {a : Asset} {n : Nat} (h : a.StandsStill W n) (hi : i < n) (q : String) : flowOf [a] W q i = 0 := by
  refine list_sum_zero fun b hb => ?_
  obtain rfl := List.mem_singleton.1 hb
  refine list_sum_zero fun k hk => ?_
  by_cases hq : q ∈ b.flows
  · exact h q hq k hk i hi
  · unfold Asset.reports at hk
    rw [if_neg hq] at hk
    simp at hk

theorem still_penalty {a : Asset} {n : Nat} (h : a.StandsStill W n) (hi : i < n) : penaltyOf [a] W i = 0 := by
  refine list_sum_zero fun b hb => ?_
  obtain rfl := List.mem_singleton.1 hb
  refine list_sum_zero fun k hk => ?_
  obtain ⟨q, hq, hk⟩ := penalised_reports hk
  exact h q hq k hk i hi

theorem sameName {name q q' : String} : name ++ "-" ++ q = name ++ "-" ++ q' ↔ q = q' := by
  refine ⟨fun h => ?_, fun h => by rw [h]⟩
  rw [str_eq_iff] at h
  simp only [String.toList_append] at h
  exact str_eq_iff.2 (List.append_cancel_left h)

/-! ### Joining -/

/-- A quantity within the sum of two ranges is the sum of two quantities within the ranges. -/
theorem split_range {h m M n N : ℚ} (hm : 0 ≤ m) (hM : m ≤ M) (hn : 0 ≤ n) (hN : n ≤ N) (h1 : m + n ≤ h) (h2 : h ≤ M + N) :
    ∃ w : ℚ, 0 ≤ w ∧ w ≤ 1 ∧ (m ≤ w * h ∧ w * h ≤ M) ∧ (n ≤ (1 - w) * h ∧ (1 - w) * h ≤ N) := by
  rcases eq_or_lt_of_le (show 0 ≤ h by linarith) with h0 | h0
  · subst h0
    refine ⟨0, le_refl _, zero_le_one, ?_, ?_⟩ <;> constructor <;> linarith
  · refine ⟨min M (h - n) / h, div_nonneg (le_min (by linarith) (by linarith)) h0.le, ?_, ?_, ?_⟩
    · rw [div_le_iff₀ h0, one_mul]
      exact (min_le_right _ _).trans (by linarith)
    · rw [div_mul_cancel₀ _ h0.ne']
      exact ⟨le_min hM (by linarith), min_le_left _ _⟩
    · rw [sub_mul, one_mul, div_mul_cancel₀ _ h0.ne']
      rcases le_total M (h - n) with k | k
      · rw [min_eq_left k]; constructor <;> linarith
      · rw [min_eq_right k]; constructor <;> linarith

theorem joins_units {a b d : Asset} (h : Asset.Joins a b d) : a.units = [a.name] ∧ b.units = [b.name] ∧ d.units = [d.name] ∧ a.flows = d.flows ∧ b.flows = d.flows ∧
    a.penalised = [] ∧ b.penalised = [] ∧ d.penalised = [] ∧ a.documentedColumns = d.flows.map (fun q => a.name ++ "-" ++ q) ∧
    b.documentedColumns = d.flows.map (fun q => b.name ++ "-" ++ q) ∧ d.documentedColumns = d.flows.map (fun q => d.name ++ "-" ++ q) := by
  cases h <;> exact ⟨rfl, rfl, rfl, rfl, rfl, rfl, rfl, rfl, rfl, rfl, rfl⟩

/-- The joined asset does what the two did. -/
theorem joins_plays {s : Site} {flags : Flags} {a b d : Asset} (h : Asset.Joins a b d) (hf : 0 ≤ s.freqMins) (ha : a.Plays s flags W) (hb : b.Plays s flags W) :
    d.Plays s flags (setFlows d.name d.flows (fun q i => W (a.name ++ "-" ++ q) i + W (b.name ++ "-" ++ q) i) W) := by
  cases h with
  | boiler b c d h0 e1 e2 m1 M1 m2 M2 em eM =>
    have P : b.Plays s W := ha
    have Q : c.Plays s W := hb
    have v : ∀ q col, "-" ++ q = col → q ∈ ["high_temperature_generation_mwh", "gas_consumption_mwh"] →
        setFlows d.name ["high_temperature_generation_mwh", "gas_consumption_mwh"]
          (fun q i => W (b.name ++ "-" ++ q) i + W (c.name ++ "-" ++ q) i) W (d.name ++ col) = fun i => W (b.name ++ col) i + W (c.name ++ col) i := by
      intro q col e hq
      rw [setFlows_col hq e, colEq _ e, colEq _ e]
    have v1 := v "high_temperature_generation_mwh" "-high_temperature_generation_mwh" rfl (by simp)
    have v2 := v "gas_consumption_mwh" "-gas_consumption_mwh" rfl (by simp)
    show d.Plays s (setFlows d.name _ _ W)
    refine ⟨fun i hi => ?_, fun i hi => ?_, fun i hi => ?_⟩
    · refine (congrArg (d.efficiency * ·) (congrFun v2 i)).trans (Eq.trans ?_ (congrFun v1 i).symm)
      have := P.efficiency i hi
      have := Q.efficiency i hi
      rw [e1] at *
      rw [e2] at *
      linarith
    · have k1 := P.heat i hi
      have k2 := Q.heat i hi
      have : d.heatMin * s.freqMins / 60 = b.heatMin * s.freqMins / 60 + c.heatMin * s.freqMins / 60 := by rw [em]; ring
      have : d.heatMax * s.freqMins / 60 = b.heatMax * s.freqMins / 60 + c.heatMax * s.freqMins / 60 := by rw [eM]; ring
      have z := congrFun v1 i
      constructor
      · refine le_trans ?_ (le_of_eq z.symm); linarith
      · refine (le_of_eq z).trans ?_; linarith
    · have k1 := P.gas i hi
      have k2 := Q.gas i hi
      exact le_trans (by linarith) (le_of_eq (congrFun v2 i).symm)
  | heatPump b c d h0 e1 e2 m1 m2 eM =>
    have P : b.Plays s W := ha
    have Q : c.Plays s W := hb
    have v : ∀ q col, "-" ++ q = col → q ∈ ["electric_load_mwh", "low_temperature_load_mwh", "high_temperature_generation_mwh"] →
        setFlows d.name ["electric_load_mwh", "low_temperature_load_mwh", "high_temperature_generation_mwh"]
          (fun q i => W (b.name ++ "-" ++ q) i + W (c.name ++ "-" ++ q) i) W (d.name ++ col) = fun i => W (b.name ++ col) i + W (c.name ++ col) i := by
      intro q col e hq
      rw [setFlows_col hq e, colEq _ e, colEq _ e]
    have v1 := v "electric_load_mwh" "-electric_load_mwh" rfl (by simp)
    have v2 := v "low_temperature_load_mwh" "-low_temperature_load_mwh" rfl (by simp)
    have v3 := v "high_temperature_generation_mwh" "-high_temperature_generation_mwh" rfl (by simp)
    show d.Plays s (setFlows d.name ["electric_load_mwh", "low_temperature_load_mwh", "high_temperature_generation_mwh"] (fun q i => W (b.name ++ "-" ++ q) i + W (c.name ++ "-" ++ q) i) W)
    refine ⟨fun i hi => ?_, fun i hi => ?_, fun i hi => ?_, fun i hi => ?_⟩
    · rw [v1, v3]
      have k1 := P.high i hi
      have k2 := Q.high i hi
      rw [e1] at k1
      rw [e2] at k2
      simp only [k1, k2]
      ring
    · rw [v1, v2]
      have k1 := P.low i hi
      have k2 := Q.low i hi
      rw [e1] at k1
      rw [e2] at k2
      simp only [k1, k2]
      ring
    · rw [v1]
      have k1 := P.load i hi
      have k2 := Q.load i hi
      have : d.power * s.freqMins / 60 = b.power * s.freqMins / 60 + c.power * s.freqMins / 60 := by rw [eM]; ring
      simp only []
      constructor <;> linarith
    · rw [v2, v3]
      have k1 := P.positive i hi
      have k2 := Q.positive i hi
      simp only []
      constructor <;> linarith
  | renewable b c d e1 e2 l0 l1 g1 g2 eg =>
    have P : b.Plays s W := ha
    have Q : c.Plays s W := hb
    have v1 : setFlows d.name ["electric_generation_mwh"] (fun q i => W (b.name ++ "-" ++ q) i + W (c.name ++ "-" ++ q) i) W
        (d.name ++ "-electric_generation_mwh") = fun i => W (b.name ++ "-electric_generation_mwh") i + W (c.name ++ "-electric_generation_mwh") i := by
      rw [setFlows_col (q := "electric_generation_mwh") (col := "-electric_generation_mwh") (by simp) rfl,
        colEq _ (col := "-electric_generation_mwh") rfl, colEq _ (col := "-electric_generation_mwh") rfl]
    show d.Plays s (setFlows d.name ["electric_generation_mwh"] (fun q i => W (b.name ++ "-" ++ q) i + W (c.name ++ "-" ++ q) i) W)
    refine ⟨fun i hi => ?_⟩
    rw [v1, eg]
    have k1 := P.generation i hi
    have k2 := Q.generation i hi
    rw [e1] at k1
    rw [e2] at k2
    simp only []
    constructor <;> linarith

/-- The two assets share what the joined one did. -/
theorem joins_split {s : Site} {flags : Flags} {a b d : Asset} (h : Asset.Joins a b d) (hf : 0 ≤ s.freqMins) (hd : d.Plays s flags W) :
    ∃ w : Nat → ℚ, ∀ X : String → Nat → ℚ, (∀ q ∈ d.flows, ∀ i, X (a.name ++ "-" ++ q) i = w i * W (d.name ++ "-" ++ q) i) →
      (∀ q ∈ d.flows, ∀ i, X (b.name ++ "-" ++ q) i = (1 - w i) * W (d.name ++ "-" ++ q) i) → a.Plays s flags X ∧ b.Plays s flags X := by
  have mins : ∀ q : ℚ, 0 ≤ q → 0 ≤ q * s.freqMins / 60 := fun q hq => div_nonneg (mul_nonneg hq hf) (by norm_num)
  have more : ∀ q r : ℚ, q ≤ r → q * s.freqMins / 60 ≤ r * s.freqMins / 60 := fun q r hq => by
    have := mul_le_mul_of_nonneg_right hq hf
    linarith
  cases h with
  | boiler b c d h0 e1 e2 m1 M1 m2 M2 em eM =>
    have D : d.Plays s W := hd
    have : ∀ i, ∃ w : ℚ, i < s.data.n → 0 ≤ w ∧ w ≤ 1 ∧
        (b.heatMin * s.freqMins / 60 ≤ w * W (d.name ++ "-high_temperature_generation_mwh") i ∧
          w * W (d.name ++ "-high_temperature_generation_mwh") i ≤ b.heatMax * s.freqMins / 60) ∧
        (c.heatMin * s.freqMins / 60 ≤ (1 - w) * W (d.name ++ "-high_temperature_generation_mwh") i ∧
          (1 - w) * W (d.name ++ "-high_temperature_generation_mwh") i ≤ c.heatMax * s.freqMins / 60) := by
      intro i
      by_cases hi : i < s.data.n
      · obtain ⟨k1, k2⟩ := D.heat i hi
        have t1 : d.heatMin * s.freqMins / 60 = b.heatMin * s.freqMins / 60 + c.heatMin * s.freqMins / 60 := by rw [em]; ring
        have t2 : d.heatMax * s.freqMins / 60 = b.heatMax * s.freqMins / 60 + c.heatMax * s.freqMins / 60 := by rw [eM]; ring
        obtain ⟨w, hw⟩ := split_range (mins _ m1) (more _ _ M1) (mins _ m2) (more _ _ M2) (t1 ▸ k1) (t2 ▸ k2)
        exact ⟨w, fun _ => hw⟩
      · exact ⟨0, fun h => absurd h hi⟩
    choose w hw using this
    refine ⟨w, fun X hX hY => ?_⟩
    have x : ∀ q col, "-" ++ q = col → q ∈ ["high_temperature_generation_mwh", "gas_consumption_mwh"] →
        (∀ i, X (b.name ++ col) i = w i * W (d.name ++ col) i) ∧ (∀ i, X (c.name ++ col) i = (1 - w i) * W (d.name ++ col) i) := by
      intro q col e hq
      have h1 := hX q hq
      have h2 := hY q hq
      rw [← colEq b.name e, ← colEq c.name e, ← colEq d.name e]
      exact ⟨h1, h2⟩
    obtain ⟨x1, y1⟩ := x "high_temperature_generation_mwh" "-high_temperature_generation_mwh" rfl (by simp)
    obtain ⟨x2, y2⟩ := x "gas_consumption_mwh" "-gas_consumption_mwh" rfl (by simp)
    refine ⟨?_, ?_⟩
    · show b.Plays s X
      refine ⟨fun i hi => ?_, fun i hi => ?_, fun i hi => ?_⟩
      · rw [x1, x2, ← D.efficiency i hi, e1]; ring
      · rw [x1]; exact (hw i hi).2.2.1
      · rw [x2]; exact mul_nonneg (hw i hi).1 (D.gas i hi)
    · show c.Plays s X
      refine ⟨fun i hi => ?_, fun i hi => ?_, fun i hi => ?_⟩
      · rw [y1, y2, ← D.efficiency i hi, e2]; ring
      · rw [y1]; exact (hw i hi).2.2.2
      · rw [y2]; exact mul_nonneg (by linarith [(hw i hi).2.1]) (D.gas i hi)
  | heatPump b c d h0 e1 e2 m1 m2 eM =>
    have D : d.Plays s W := hd
    have : ∀ i, ∃ w : ℚ, i < s.data.n → 0 ≤ w ∧ w ≤ 1 ∧
        (0 ≤ w * W (d.name ++ "-electric_load_mwh") i ∧ w * W (d.name ++ "-electric_load_mwh") i ≤ b.power * s.freqMins / 60) ∧
        (0 ≤ (1 - w) * W (d.name ++ "-electric_load_mwh") i ∧ (1 - w) * W (d.name ++ "-electric_load_mwh") i ≤ c.power * s.freqMins / 60) := by
      intro i
      by_cases hi : i < s.data.n
      · obtain ⟨k1, k2⟩ := D.load i hi
        have t2 : d.power * s.freqMins / 60 = b.power * s.freqMins / 60 + c.power * s.freqMins / 60 := by rw [eM]; ring
        obtain ⟨w, hw⟩ := split_range (le_refl 0) (mins _ m1) (le_refl 0) (mins _ m2) (by linarith) (t2 ▸ k2)
        exact ⟨w, fun _ => hw⟩
      · exact ⟨0, fun h => absurd h hi⟩
    choose w hw using this
    refine ⟨w, fun X hX hY => ?_⟩
    have x : ∀ q col, "-" ++ q = col → q ∈ ["electric_load_mwh", "low_temperature_load_mwh", "high_temperature_generation_mwh"] →
        (∀ i, X (b.name ++ col) i = w i * W (d.name ++ col) i) ∧ (∀ i, X (c.name ++ col) i = (1 - w i) * W (d.name ++ col) i) := by
      intro q col e hq
      have h1 := hX q hq
      have h2 := hY q hq
      rw [← colEq b.name e, ← colEq c.name e, ← colEq d.name e]
      exact ⟨h1, h2⟩
    obtain ⟨x1, y1⟩ := x "electric_load_mwh" "-electric_load_mwh" rfl (by simp)
    obtain ⟨x2, y2⟩ := x "low_temperature_load_mwh" "-low_temperature_load_mwh" rfl (by simp)
    obtain ⟨x3, y3⟩ := x "high_temperature_generation_mwh" "-high_temperature_generation_mwh" rfl (by simp)
    refine ⟨?_, ?_⟩
    · show b.Plays s X
      refine ⟨fun i hi => ?_, fun i hi => ?_, fun i hi => ?_, fun i hi => ?_⟩
      · rw [x1, x3, D.high i hi, e1]; ring
      · rw [x1, x2, D.low i hi, e1]; ring
      · rw [x1]; exact (hw i hi).2.2.1
      · rw [x2, x3]; exact ⟨mul_nonneg (hw i hi).1 (D.positive i hi).1, mul_nonneg (hw i hi).1 (D.positive i hi).2⟩
    · show c.Plays s X
      have h1 : ∀ i < s.data.n, 0 ≤ 1 - w i := fun i hi => by linarith [(hw i hi).2.1]
      refine ⟨fun i hi => ?_, fun i hi => ?_, fun i hi => ?_, fun i hi => ?_⟩
      · rw [y1, y3, D.high i hi, e2]; ring
      · rw [y1, y2, D.low i hi, e2]; ring
      · rw [y1]; exact (hw i hi).2.2.2
      · rw [y2, y3]; exact ⟨mul_nonneg (h1 i hi) (D.positive i hi).1, mul_nonneg (h1 i hi) (D.positive i hi).2⟩
  | renewable b c d e1 e2 l0 l1 g1 g2 eg =>
    have D : d.Plays s W := hd
    have : ∀ i, ∃ w : ℚ, i < s.data.n → 0 ≤ w ∧ w ≤ 1 ∧
        (d.lowerBoundPct * b.generation.getD i 0 ≤ w * W (d.name ++ "-electric_generation_mwh") i ∧
          w * W (d.name ++ "-electric_generation_mwh") i ≤ b.generation.getD i 0) ∧
        (d.lowerBoundPct * c.generation.getD i 0 ≤ (1 - w) * W (d.name ++ "-electric_generation_mwh") i ∧
          (1 - w) * W (d.name ++ "-electric_generation_mwh") i ≤ c.generation.getD i 0) := by
      intro i
      by_cases hi : i < s.data.n
      · obtain ⟨k1, k2⟩ := D.generation i hi
        rw [eg] at k1 k2
        have b1 := mul_le_mul_of_nonneg_right l1 (g1 i)
        have b2 := mul_le_mul_of_nonneg_right l1 (g2 i)
        obtain ⟨w, hw⟩ := split_range (mul_nonneg l0 (g1 i)) (by linarith : d.lowerBoundPct * b.generation.getD i 0 ≤ b.generation.getD i 0)
          (mul_nonneg l0 (g2 i)) (by linarith : d.lowerBoundPct * c.generation.getD i 0 ≤ c.generation.getD i 0) (by linarith) k2
        exact ⟨w, fun _ => hw⟩
      · exact ⟨0, fun h => absurd h hi⟩
    choose w hw using this
    refine ⟨w, fun X hX hY => ?_⟩
    have x : ∀ q col, "-" ++ q = col → q ∈ ["electric_generation_mwh"] →
        (∀ i, X (b.name ++ col) i = w i * W (d.name ++ col) i) ∧ (∀ i, X (c.name ++ col) i = (1 - w i) * W (d.name ++ col) i) := by
      intro q col e hq
      have h1 := hX q hq
      have h2 := hY q hq
      rw [← colEq b.name e, ← colEq c.name e, ← colEq d.name e]
      exact ⟨h1, h2⟩
    obtain ⟨x1, y1⟩ := x "electric_generation_mwh" "-electric_generation_mwh" rfl (by simp)
    refine ⟨?_, ?_⟩
    · show b.Plays s X
      refine ⟨fun i hi => ?_⟩
      rw [x1, e1]; exact (hw i hi).2.2.1
    · show c.Plays s X
      refine ⟨fun i hi => ?_⟩
      rw [y1, e2]; exact (hw i hi).2.2.2

end

end EPL
