/-
A valid dispatch, spread evenly over shorter intervals: asset by asset.
-/
import Verif.Proofs.Finer
import Verif.Proofs.Stretch
import Verif.Proofs.Units
import Verif.Proofs.Cost
import Verif.Spec.Cost

namespace EPL

section
variable {s : Site} {k : Nat} {W : String → Nat → ℚ} {flags : Flags}

theorem finer_n : (s.finer k).data.n = s.data.n * k := rfl
theorem finer_freq : (s.finer k).freqMins = s.freqMins / k := rfl

theorem div_lt_n (hk : 0 < k) {i : Nat} (hi : i < (s.finer k).data.n) : i / k < s.data.n := by
  rw [finer_n] at hi
  exact Nat.div_lt_of_lt_mul (by rwa [Nat.mul_comm])

/-- Energies are divided by `k`. -/
theorem fine_stretched (k : Nat) (W : String → Nat → ℚ) (unit : String) {lits : List String}
    (h : ∀ lit ∈ lits, lit ∈ ["-electric_generation_mwh", "-electric_load_mwh", "-high_temperature_generation_mwh", "-low_temperature_load_mwh",
      "-low_temperature_generation_mwh", "-high_temperature_load_mwh", "-gas_consumption_mwh"]) :
    Stretched ((k : ℚ)⁻¹) (fun i => i / k) W (fineTable k W) unit lits := by
  intro lit hl i
  have e : ∀ x : ℚ, (k : ℚ)⁻¹ * x = x / k := fun x => by rw [div_eq_mul_inv, mul_comm]
  simp only [e]
  have := h lit hl
  simp only [List.mem_cons, List.not_mem_nil, or_false] at this
  rcases this with rfl | rfl | rfl | rfl | rfl | rfl | rfl
  · exact fine_generation unit i
  · exact fine_load unit i
  · exact fine_ht unit i
  · exact fine_ltl unit i
  · exact fine_lt unit i
  · exact fine_htl unit i
  · exact fine_gas unit i

theorem limit_finer (x : ℚ) : x * (s.finer k).freqMins / 60 = (k : ℚ)⁻¹ * (x * s.freqMins / 60) := by
  rw [finer_freq, div_eq_mul_inv s.freqMins]
  ring

theorem inv_k (hk : 0 < k) : 0 < ((k : ℚ)⁻¹) := inv_pos.2 (by exact_mod_cast hk)

theorem inv_k_le (hk : 0 < k) : ((k : ℚ)⁻¹) ≤ 1 := by
  have : (1 : ℚ) ≤ k := by exact_mod_cast hk
  exact inv_le_one_of_one_le₀ this

theorem battery_finer (hk : 0 < k) (hn : 0 < s.data.n) {c : BatteryCfg} (h : c.Plays s W) : c.Plays (s.finer k) (fineTable k W) := by
  have e : ∀ x : ℚ, x / k = (k : ℚ)⁻¹ * x := fun x => by rw [div_eq_mul_inv, mul_comm]
  have hq := inv_k hk
  have part : ∀ {x a b : ℚ}, 0 ≤ x → x ≤ min a b → 0 ≤ (k : ℚ)⁻¹ * x ∧ (k : ℚ)⁻¹ * x ≤ min ((k : ℚ)⁻¹ * a) b := by
    intro x a b h0 h1
    refine ⟨mul_nonneg hq.le h0, le_min (mul_le_mul_of_nonneg_left (h1.trans (min_le_left _ _)) hq.le) ?_⟩
    have := mul_le_mul_of_nonneg_right (inv_k_le hk) h0
    rw [one_mul] at this
    exact this.trans (h1.trans (min_le_right _ _))
  have step : ∀ i < (s.finer k).data.n, W (c.name ++ "-electric_final_charge_mwh") (i / k) - W (c.name ++ "-electric_initial_charge_mwh") (i / k) =
      W (c.name ++ "-electric_charge_mwh") (i / k) - W (c.name ++ "-electric_discharge_mwh") (i / k) - W (c.name ++ "-electric_loss_mwh") (i / k) := by
    intro i hi
    have := h.balance _ (div_lt_n hk hi)
    linarith
  refine ⟨fun i hi => ?_, fun i hi => ?_, fun i hi => ?_, fun i hi => ?_, fun i hi => ?_, fun i hi => ?_, fun i hi => ?_, ?_, ?_⟩
  · rw [fine_charge, limit_finer, e]
    exact part (h.charge _ (div_lt_n hk hi)).1 (h.charge _ (div_lt_n hk hi)).2
  · rw [fine_discharge, limit_finer, e]
    exact part (h.discharge _ (div_lt_n hk hi)).1 (h.discharge _ (div_lt_n hk hi)).2
  · rw [fine_charge, fine_discharge]
    rcases h.exclusive _ (div_lt_n hk hi) with h0 | h0
    · exact .inl (by rw [h0, zero_div])
    · exact .inr (by rw [h0, zero_div])
  · rw [fine_loss, fine_charge, e, e]
    refine ⟨?_, mul_nonneg hq.le (h.loss _ (div_lt_n hk hi)).2⟩
    rw [(h.loss _ (div_lt_n hk hi)).1]
    ring
  · rw [fine_final, fine_initial, fine_charge, fine_discharge, fine_loss, along_step, step i hi]
    ring
  · obtain ⟨h1, h2, h3, h4⟩ := h.stored _ (div_lt_n hk hi)
    have hm := Nat.mod_lt i hk
    rw [fine_initial, fine_final]
    have a := along_between (k := k) hk (j := i % k) hm.le h1 h2 h3 h4
    have b := along_between (k := k) hk (j := i % k + 1) hm h1 h2 h3 h4
    exact ⟨a.1, a.2, b.1, b.2⟩
  · rw [fine_final, fine_initial]
    rcases succ_div (k := k) (i := i) hk with ⟨d1, d2⟩ | ⟨d1, d2, d3⟩
    · rw [d1, d2]
    · rw [d1, d2, d3, along_zero, along_full hk]
      refine h.chain _ ?_
      have := div_lt_n hk hi
      rwa [d1] at this
  · rw [fine_initial, Nat.zero_div, Nat.zero_mod, along_zero, h.start]
  · rw [fine_final, finer_n, (last_div hk hn).1, (last_div hk hn).2, along_full hk, h.stop]

/-! ### electric vehicles -/

/-- The arguments of the finer `EVs`. -/
def EvArgs.finer (k : Nat) (a : EvArgs) : EvArgs := { a with chargeEvents := a.chargeEvents.map (repeatEach k) }

theorem range_repeat {n : Nat} (hk : 0 < k) {β : Type} (f : Nat → β) : (List.range (n * k)).map (fun i => f (i / k)) = repeatEach k ((List.range n).map f) := by
  refine List.ext_getElem? fun i => ?_
  rw [repeatEach_get hk, List.getElem?_map, List.getElem?_map]
  rcases Nat.lt_or_ge i (n * k) with h | h
  · have h' : i / k < n := Nat.div_lt_of_lt_mul (by rwa [Nat.mul_comm])
    rw [List.getElem?_range h, List.getElem?_range h']
    rfl
  · have h' : n ≤ i / k := (Nat.le_div_iff_mul_le hk).2 h
    rw [List.getElem?_eq_none (by simpa using h), List.getElem?_eq_none (by simpa using h')]
    rfl

theorem transpose_finer (hk : 0 < k) (m : List (List ℚ)) (n : Nat) :
    transpose (m.map (repeatEach k)) (n * k) = repeatEach k (transpose m n) := by
  unfold transpose
  rw [← range_repeat hk]
  refine List.map_congr_left fun i _ => ?_
  rw [List.map_map]
  refine List.map_congr_left fun row _ => ?_
  exact repeatEach_getD hk row i 0

theorem evs_make_finer (hk : 0 < k) {a : EvArgs} {c : EvsCfg} (h : a.make = .ok c) :
    (a.finer k).make = .ok { c with chargeEvents := repeatEach k c.chargeEvents } := by
  unfold EvArgs.make at h ⊢
  unfold EvArgs.finer
  revert h
  obtain ⟨ev, pw, cp, ef, td, nm, fm⟩ := a
  cases ev with
  | nil =>
    intro h
    simp only [Evs.new] at h
    obtain ⟨_, -, h⟩ := bind_ok.1 h
    cases h
  | cons row rows =>
    intro h
    simp only [Evs.new] at h
    simp only [Evs.new, List.map_cons]
    split at h
    · rename_i hr
      rw [if_pos]
      · obtain ⟨u, h1, h⟩ := bind_ok.1 h
        obtain ⟨v, h2, h⟩ := bind_ok.1 h
        cases h
        have h2' : pyValidate (decide (List.length (List.map (fun p : ℚ × Nat =>
            { name := "charge-event-" ++ toString p.2, capacity := p.1, efficiency := ef : ChargeEventCfg }) cp.zipIdx) =
              (repeatEach k row :: rows.map (repeatEach k)).length)) "charge events" = .ok v := by
          rw [← h2]
          simp
        rw [h1, ok_bind, h2', ok_bind]
        have := transpose_finer hk (row :: rows) row.length
        rw [List.map_cons] at this
        rw [repeatEach_length, this]
      · rw [List.all_map]
        rw [List.all_eq_true] at hr ⊢
        intro r hm
        have := hr r hm
        simp only [beq_iff_eq] at this
        simp [repeatEach_length, this]
    · cases h

theorem evs_finer (hk : 0 < k) (hn : 0 < s.data.n) {a : EvArgs} {x : EvSchedule} (h : a.Plays s flags W x) :
    (a.finer k).Plays (s.finer k) flags (fineTable k W)
      ⟨fun i e j => x.charge (i / k) e j / k, fun i e j => x.discharge (i / k) e j / k, fun i e => x.spill (i / k) e / k⟩ := by
  have hk' : (k : ℚ) ≠ 0 := by exact_mod_cast hk.ne'
  have hq := inv_k hk
  have e : ∀ x : ℚ, x / k = (k : ℚ)⁻¹ * x := fun x => by rw [div_eq_mul_inv, mul_comm]
  have hsum : ∀ (n : Nat) (f : Nat → ℚ), sumTo n (fun j => f j / k) = sumTo n f / k := by
    intro n f
    unfold sumTo
    simp only [div_eq_mul_inv]
    exact list_sum_mul_right _ _ _
  have hz : ∀ y : ℚ, y / k ≠ 0 → y ≠ 0 := by
    rintro y hy rfl
    exact hy (zero_div _)
  have hch : ∀ (u attr : String), NoDash attr → attr ∉ stateColumns ++ rateColumns → ∀ i, fineTable k W (u ++ "-" ++ attr) i = W (u ++ "-" ++ attr) (i / k) / k :=
    fun u attr h1 h2 i => fine_dash h1 h2 u i
  have d1 : NoDash "electric_charge_mwh" := by decide +kernel
  have d2 : NoDash "electric_discharge_mwh" := by decide +kernel
  have n1 : "electric_charge_mwh" ∉ stateColumns ++ rateColumns := by decide +kernel
  have n2 : "electric_discharge_mwh" ∉ stateColumns ++ rateColumns := by decide +kernel
  have E := h.explains
  have X := h.valid
  have key : ∀ i < (s.finer k).data.n, ∀ e < a.capacities.length,
      W (a.eventCol e "final_soc_mwh") (i / k) - W (a.eventCol e "initial_soc_mwh") (i / k) =
      a.efficiency * sumTo a.powers.length (fun j => x.charge (i / k) e j) + x.spill (i / k) e - sumTo a.powers.length (fun j => x.discharge (i / k) e j) := by
    intro i hi e he
    have := X.soc _ (div_lt_n hk hi) e he
    linarith
  refine ⟨⟨fun i hi j hj => ?_, fun i hi j hj => ?_, fun i hi e he => ?_, fun i hi e he => ?_, fun i hi => ?_, fun i hi => ?_⟩,
    ⟨fun i hi e he hp => ?_, fun i hi e he j hj j' hj' => ?_, fun i hi j hj e he e' he' => ?_, fun i hi e he j hj power hp => ?_,
      fun hd i hi e he j hj => ?_, fun i hi e he => ?_⟩,
    fun i hi ev he => ?_, fun i hi ev he => ?_, fun ev capacity hc => ?_⟩
  · have := E.charger_charge _ (div_lt_n hk hi) j hj
    exact (hch _ _ d1 n1 i).trans ((congrArg (· / (k : ℚ)) this).trans (hsum _ _).symm)
  · have := E.charger_discharge _ (div_lt_n hk hi) j hj
    exact (hch _ _ d2 n2 i).trans ((congrArg (· / (k : ℚ)) this).trans (hsum _ _).symm)
  · have := E.event_charge _ (div_lt_n hk hi) e he
    exact (hch _ _ d1 n1 i).trans ((congrArg (· / (k : ℚ)) this).trans (hsum _ _).symm)
  · have := E.event_discharge _ (div_lt_n hk hi) e he
    exact (hch _ _ d2 n2 i).trans ((congrArg (· / (k : ℚ)) this).trans (hsum _ _).symm)
  · have := E.spill_charge _ (div_lt_n hk hi)
    exact (hch _ _ d1 n1 i).trans ((congrArg (· / (k : ℚ)) this).trans (hsum _ _).symm)
  · have := E.spill_discharge _ (div_lt_n hk hi)
    exact (hch _ _ d2 n2 i).trans ((congrArg (· / (k : ℚ)) this).trans (zero_div _))
  · have hp' : a.present (i / k) e < 1 := by
      have : (a.finer k).present i e = a.present (i / k) e := by
        unfold EvArgs.present EvArgs.finer
        rw [← repeatEach_getD hk]
        congr 1
        rw [List.getD_eq_getElem?_getD, List.getD_eq_getElem?_getD, List.getElem?_map]
        cases a.chargeEvents[e]? <;> simp [repeatEach]
      rwa [this] at hp
    obtain ⟨x1, x2⟩ := X.absent _ (div_lt_n hk hi) e he hp'
    refine ⟨fun j hj => ?_, ?_⟩
    · simp only [(x1 j hj).1, (x1 j hj).2, zero_div, and_self]
    · simp only [x2, zero_div]
  · obtain ⟨x1, x2, x3⟩ := X.oneCharger _ (div_lt_n hk hi) e he j hj j' hj'
    exact ⟨fun p p' => x1 (hz _ p) (hz _ p'), fun p p' => x2 (hz _ p) (hz _ p'), fun p => x3 ⟨hz _ p.1, hz _ p.2⟩⟩
  · obtain ⟨x1, x2, x3⟩ := X.oneEvent _ (div_lt_n hk hi) j hj e he e' he'
    exact ⟨fun p p' => x1 (hz _ p) (hz _ p'), fun p p' => x2 (hz _ p) (hz _ p'), fun p => x3 ⟨hz _ p.1, hz _ p.2⟩⟩
  · obtain ⟨x1, x2, x3, x4, x5⟩ := X.limits _ (div_lt_n hk hi) e he j hj power hp
    have part : ∀ y : ℚ, (y = 0 ∨ (power * a.turndown * s.freqMins / 60 ≤ y ∧ y ≤ power * s.freqMins / 60)) →
        (y / k = 0 ∨ (power * a.turndown * (s.finer k).freqMins / 60 ≤ y / k ∧ y / k ≤ power * (s.finer k).freqMins / 60)) := by
      intro y hy
      rcases hy with hy | ⟨h1, h2⟩
      · exact .inl (by rw [hy, zero_div])
      · right
        rw [limit_finer, limit_finer, div_eq_mul_inv y, mul_comm y]
        exact ⟨mul_le_mul_of_nonneg_left h1 hq.le, mul_le_mul_of_nonneg_left h2 hq.le⟩
    have pos : ∀ y : ℚ, 0 ≤ y → 0 ≤ y / k := fun y hy => by rw [div_eq_mul_inv]; exact mul_nonneg hy hq.le
    exact ⟨part _ x1, part _ x2, pos _ x3, pos _ x4, pos _ x5⟩
  · show x.discharge (i / k) e j / k = 0
    rw [X.noDischarge hd _ (div_lt_n hk hi) e he j hj, zero_div]
  · have h1 := fine_fsoc (k := k) (W := W) (a.name ++ "-charge-event-" ++ toString e) i
    have h2 := fine_soc (k := k) (W := W) (a.name ++ "-charge-event-" ++ toString e) i
    have h3 := key i hi e he
    show fineTable k W (a.name ++ "-charge-event-" ++ toString e ++ "-" ++ "final_soc_mwh") i =
      fineTable k W (a.name ++ "-charge-event-" ++ toString e ++ "-" ++ "initial_soc_mwh") i +
      a.efficiency * sumTo a.powers.length (fun j => x.charge (i / k) e j / k) + x.spill (i / k) e / k -
      sumTo a.powers.length (fun j => x.discharge (i / k) e j / k)
    unfold EvArgs.eventCol at h3
    rw [h1, h2, along_step, h3, hsum, hsum]
    ring
  · obtain ⟨l1, l2⟩ := h.spill _ (div_lt_n hk hi) ev he
    rw [limit_finer]
    simp only [e]
    exact ⟨mul_nonneg hq.le l1, mul_le_mul_of_nonneg_left l2 hq.le⟩
  · obtain ⟨l1, l2⟩ := h.losses _ (div_lt_n hk hi) ev he
    have pos : ∀ y z : ℚ, 0 ≤ z * y → 0 ≤ z * (y / k) := fun y z hy => by rw [← mul_div_assoc, div_eq_mul_inv]; exact mul_nonneg hy hq.le
    exact ⟨pos _ _ l1, fun j hj => pos _ _ (l2 j hj)⟩
  · obtain ⟨c1, c2, c3, c4⟩ := h.stored ev capacity hc
    have f1 := fun i => fine_soc (k := k) (W := W) (a.name ++ "-charge-event-" ++ toString ev) i
    have f2 := fun i => fine_fsoc (k := k) (W := W) (a.name ++ "-charge-event-" ++ toString ev) i
    unfold EvArgs.eventCol at c1 c2 c3 c4 ⊢
    simp only [EvArgs.finer]
    refine ⟨?_, ?_, fun i hi => ?_, fun i hi => ?_⟩
    · rw [f1, Nat.zero_div, Nat.zero_mod, along_zero, c1]
    · rw [f2, finer_n, (last_div hk hn).1, (last_div hk hn).2, along_full hk, c2]
    · rw [f1, f2]
      rcases succ_div (k := k) (i := i) hk with ⟨d1, d2⟩ | ⟨d1, d2, d3⟩
      · rw [d1, d2]
      · rw [d1, d2, d3, along_zero, along_full hk]
        refine c3 _ ?_
        have := div_lt_n hk hi
        rwa [d1] at this
    · obtain ⟨h1, h2, h3, h4⟩ := c4 _ (div_lt_n hk hi)
      have hm := Nat.mod_lt i hk
      rw [f1, f2]
      have a := along_between (k := k) hk (j := i % k) hm.le h1 h2 h3 h4
      have b := along_between (k := k) hk (j := i % k + 1) hm h1 h2 h3 h4
      exact ⟨a.1, a.2, b.1, b.2⟩

/-- Every asset. -/
theorem asset_finer (hk : 0 < k) (hn : 0 < s.data.n) {a : Asset} (h : a.Plays s flags W) : (a.finer k).Plays (s.finer k) flags (fineTable k W) := by
  have hq := inv_k hk
  have hg : ∀ i < (s.finer k).data.n, i / k < s.data.n := fun i hi => div_lt_n hk hi
  cases a with
  | battery c => exact battery_finer hk hn h
  | boiler c =>
    exact boiler_stretch hq hg rfl rfl (limit_finer _) (limit_finer _) (fine_stretched k W _ (by simp)) h
  | chp c =>
    exact chp_stretch hq hg rfl rfl rfl rfl (limit_finer _) (limit_finer _) (fine_stretched k W _ (by simp)) h
  | evs c =>
    obtain ⟨a, x, ha, hx⟩ := h
    exact ⟨a.finer k, _, evs_make_finer hk ha, evs_finer hk hn hx⟩
  | heatPump c =>
    exact heatPump_stretch hq hg rfl rfl (limit_finer _) (fine_stretched k W _ (by simp)) h
  | renewable c =>
    refine renewable_stretch (c := c) hq hg rfl rfl (fun i => ?_) (fine_stretched k W _ (by simp)) h
    show (spreadEach k c.generation).getD i 0 = _
    rw [spreadEach_getD hk, div_eq_mul_inv, mul_comm]
  | spill c =>
    exact spill_stretch hq hg (fine_stretched k W _ (by simp)) h
  | valve c =>
    exact valve_stretch hq hg (fine_stretched k W _ (by simp)) h

/-! ### the site -/

theorem reports_finer (a : Asset) (flow : String) : (a.finer k).reports flow = a.reports flow := by cases a <;> rfl

theorem penalised_finer (a : Asset) : (a.finer k).penalised = a.penalised := by cases a <;> rfl

theorem rowSum_finer {cols : List String} (h : ∀ c ∈ cols, ∃ u attr, c = u ++ "-" ++ attr ∧ NoDash attr ∧ attr ∉ stateColumns ++ rateColumns) (i : Nat) :
    rowSum (fineTable k W) cols i = rowSum W cols (i / k) / k := by
  unfold rowSum
  rw [div_eq_mul_inv, ← list_sum_mul_right]
  congr 1
  refine List.map_congr_left fun c hc => ?_
  obtain ⟨u, attr, rfl, h1, h2⟩ := h c hc
  rw [fine_dash h1 h2, div_eq_mul_inv]

theorem flows_plain {flow : String} (h : flow ∈ totalFlows) : NoDash flow ∧ flow ∉ stateColumns ++ rateColumns := by
  revert flow
  unfold NoDash
  decide +kernel

theorem assetSum_finer {flow : String} (h : flow ∈ totalFlows) (i : Nat) :
    (s.finer k).assetSum (fineTable k W) flow i = s.assetSum W flow (i / k) / k := by
  unfold Site.assetSum
  rw [div_eq_mul_inv, ← list_sum_mul_right]
  show (((s.assets.map (Asset.finer k)).map _)).sum = _
  rw [List.map_map]
  congr 1
  refine List.map_congr_left fun a _ => ?_
  simp only [Function.comp_apply, reports_finer]
  rw [rowSum_finer, div_eq_mul_inv]
  intro c hc
  unfold Asset.reports at hc
  split at hc
  · obtain ⟨u, -, rfl⟩ := List.mem_map.1 hc
    exact ⟨u, flow, rfl, flows_plain h⟩
  · simp at hc

theorem dispatch_finer (hk : 0 < k) (hn : 0 < s.data.n) (h : s.Dispatch flags W) : (s.finer k).Dispatch flags (fineTable k W) := by
  have hq := inv_k hk
  have e : ∀ x : ℚ, x / k = (k : ℚ)⁻¹ * x := fun x => by rw [div_eq_mul_inv, mul_comm]
  have fs : ∀ (col attr : String), col = "site" ++ "-" ++ attr → NoDash attr → attr ∉ stateColumns ++ rateColumns → ∀ i,
      fineTable k W col i = W col (i / k) / k := fun col attr h1 h2 h3 i => fine_site attr h1 h2 h3 i
  have si := fs "site-import_power_mwh" "import_power_mwh" rfl (by decide +kernel) (by decide +kernel)
  have se := fs "site-export_power_mwh" "export_power_mwh" rfl (by decide +kernel) (by decide +kernel)
  have sl := fs "site-electric_load_mwh" "electric_load_mwh" rfl (by decide +kernel) (by decide +kernel)
  have sh := fs "site-high_temperature_load_mwh" "high_temperature_load_mwh" rfl (by decide +kernel) (by decide +kernel)
  have sll := fs "site-low_temperature_load_mwh" "low_temperature_load_mwh" rfl (by decide +kernel) (by decide +kernel)
  have slg := fs "site-low_temperature_generation_mwh" "low_temperature_generation_mwh" rfl (by decide +kernel) (by decide +kernel)
  have fr : ∀ (col attr : String), col = "site" ++ "-" ++ attr → NoDash attr → attr ∉ stateColumns → attr ∈ rateColumns → ∀ i,
      fineTable k W col i = W col (i / k) := fun col attr h1 h2 h3 h4 i => fine_rate attr h1 h2 h3 h4 i
  have r1 := fr "site-electricity_prices" "electricity_prices" rfl (by decide +kernel) (by decide +kernel) (by decide +kernel)
  have r2 := fr "site-export_electricity_prices" "export_electricity_prices" rfl (by decide +kernel) (by decide +kernel) (by decide +kernel)
  have r3 := fr "site-electricity_carbon_intensities" "electricity_carbon_intensities" rfl (by decide +kernel) (by decide +kernel) (by decide +kernel)
  have r4 := fr "site-gas_prices" "gas_prices" rfl (by decide +kernel) (by decide +kernel) (by decide +kernel)
  have A : ∀ flow, flow ∈ totalFlows → ∀ i, (s.finer k).assetSum (fineTable k W) flow i = (k : ℚ)⁻¹ * s.assetSum W flow (i / k) :=
    fun flow hf i => by rw [assetSum_finer hf, e]
  refine ⟨⟨fun i hi => ?_, fun i hi => ?_⟩, fun i hi => ?_, fun i hi => ?_, fun i hi => ?_, fun i hi => ?_, fun i hi => ?_, fun i hi => ?_, fun a ha => ?_⟩
  · obtain ⟨p1, p2, p3, p4⟩ := h.inputs.prices _ (div_lt_n hk hi)
    rw [r1, r2, r3, r4, p1, p2, p3, p4]
    simp only [Site.finer, SiteData.finer, repeatEach_getD hk, and_self]
  · obtain ⟨p1, p2, p3, p4⟩ := h.inputs.loads _ (div_lt_n hk hi)
    rw [sl, sh, sll, slg, p1, p2, p3, p4]
    simp only [Site.finer, SiteData.finer, spreadEach_getD hk, and_self]
  · obtain ⟨p1, p2⟩ := h.imports _ (div_lt_n hk hi)
    rw [si, limit_finer, e]
    exact ⟨mul_nonneg hq.le p1, mul_le_mul_of_nonneg_left p2 hq.le⟩
  · obtain ⟨p1, p2⟩ := h.exports _ (div_lt_n hk hi)
    rw [se, limit_finer, e]
    exact ⟨mul_nonneg hq.le p1, mul_le_mul_of_nonneg_left p2 hq.le⟩
  · rw [si, se]
    rcases h.oneWay _ (div_lt_n hk hi) with h0 | h0
    · exact .inl (by rw [h0, zero_div])
    · exact .inr (by rw [h0, zero_div])
  · rw [si, se, sl, A _ (by decide), A _ (by decide), A _ (by decide), A _ (by decide), e, e, e, ← mul_add, ← mul_add,
      h.electricity _ (div_lt_n hk hi)]
    ring
  · rw [sh, A _ (by decide), A _ (by decide), h.high _ (div_lt_n hk hi), e, ← mul_add]
  · rw [slg, sll, A _ (by decide), A _ (by decide), e, e, ← mul_add, h.low _ (div_lt_n hk hi), ← mul_add]
  · obtain ⟨b, hb, rfl⟩ := List.mem_map.1 ha
    exact asset_finer hk hn (h.assets b hb)

theorem values_finer (hk : 0 < k) : (s.finer k).readCost (fineTable k W) = s.readCost W ∧ (s.finer k).readEmissions (fineTable k W) = s.readEmissions W ∧
    (s.finer k).readSpill (fineTable k W) = s.readSpill W := by
  have fs : ∀ (col attr : String), col = "site" ++ "-" ++ attr → NoDash attr → attr ∉ stateColumns ++ rateColumns → ∀ i,
      fineTable k W col i = W col (i / k) / k := fun col attr h1 h2 h3 i => fine_site attr h1 h2 h3 i
  have si := fs "site-import_power_mwh" "import_power_mwh" rfl (by decide +kernel) (by decide +kernel)
  have se := fs "site-export_power_mwh" "export_power_mwh" rfl (by decide +kernel) (by decide +kernel)
  have fr : ∀ (col attr : String), col = "site" ++ "-" ++ attr → NoDash attr → attr ∉ stateColumns → attr ∈ rateColumns → ∀ i,
      fineTable k W col i = W col (i / k) := fun col attr h1 h2 h3 h4 i => fine_rate attr h1 h2 h3 h4 i
  have r1 := fr "site-electricity_prices" "electricity_prices" rfl (by decide +kernel) (by decide +kernel) (by decide +kernel)
  have r2 := fr "site-export_electricity_prices" "export_electricity_prices" rfl (by decide +kernel) (by decide +kernel) (by decide +kernel)
  have r3 := fr "site-electricity_carbon_intensities" "electricity_carbon_intensities" rfl (by decide +kernel) (by decide +kernel) (by decide +kernel)
  have r4 := fr "site-gas_prices" "gas_prices" rfl (by decide +kernel) (by decide +kernel) (by decide +kernel)
  have A : ∀ i, (s.finer k).assetSum (fineTable k W) "gas_consumption_mwh" i = s.assetSum W "gas_consumption_mwh" (i / k) / k :=
    fun i => assetSum_finer (by decide) i
  refine ⟨?_, ?_, ?_⟩
  · unfold Site.readCost Site.sumIntervals
    refine Eq.trans ?_ (sum_parts hk _ _)
    rw [finer_n]
    congr 1
    refine List.map_congr_left fun i _ => ?_
    rw [si, se, r1, r2, r4, A]
    ring
  · unfold Site.readEmissions Site.sumIntervals
    refine Eq.trans ?_ (sum_parts hk _ _)
    rw [finer_n]
    congr 1
    refine List.map_congr_left fun i _ => ?_
    rw [si, se, r3, A]
    ring
  · unfold Site.readSpill Site.sumIntervals
    refine Eq.trans ?_ (sum_parts hk _ _)
    rw [finer_n]
    congr 1
    refine List.map_congr_left fun i _ => ?_
    rw [div_eq_mul_inv, ← list_sum_mul_right]
    show (((s.assets.map (Asset.finer k)).map _)).sum = _
    rw [List.map_map]
    congr 1
    refine List.map_congr_left fun a _ => ?_
    simp only [Function.comp_apply, penalised_finer]
    rw [rowSum_finer, div_eq_mul_inv]
    intro c hc
    cases a with
    | spill b =>
      simp only [Asset.penalised, List.mem_cons, List.not_mem_nil, or_false] at hc
      rcases hc with rfl | rfl | rfl
      · exact ⟨b.name, "electric_generation_mwh", by rw [String.append_assoc]; rfl, flows_plain (by decide)⟩
      · exact ⟨b.name, "electric_load_mwh", by rw [String.append_assoc]; rfl, flows_plain (by decide)⟩
      · exact ⟨b.name, "high_temperature_generation_mwh", by rw [String.append_assoc]; rfl, flows_plain (by decide)⟩
    | evs b =>
      simp only [Asset.penalised, List.mem_map] at hc
      obtain ⟨ch, -, rfl⟩ := hc
      exact ⟨b.name ++ "-" ++ ch.name, "electric_charge_mwh", (String.append_assoc : (b.name ++ "-" ++ ch.name) ++ "-" ++ "electric_charge_mwh" =
        (b.name ++ "-" ++ ch.name) ++ ("-" ++ "electric_charge_mwh")).symm, flows_plain (by decide)⟩
    | _ => simp [Asset.penalised] at hc

end

end EPL
