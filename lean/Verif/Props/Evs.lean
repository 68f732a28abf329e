/-
Properties of electric vehicles.
-/
import Verif.Proofs.EvTable
import Verif.Spec.DemoEvs

namespace EPL

section sums

theorem sumTo_succ (n : Nat) (g : Nat → ℚ) : sumTo (n + 1) g = sumTo n g + g n := by
  simp [sumTo, List.range_succ]

theorem sumTo_congr {n : Nat} {g g' : Nat → ℚ} (h : ∀ k < n, g k = g' k) : sumTo n g = sumTo n g' := by
  unfold sumTo
  congr 1
  apply List.map_congr_left
  intro k hk
  exact h k (List.mem_range.1 hk)

theorem sumTo_zero {n : Nat} {g : Nat → ℚ} (h : ∀ k < n, g k = 0) : sumTo n g = 0 := by
  rw [sumTo_congr h]
  simp [sumTo]

theorem sumTo_nonneg {n : Nat} {g : Nat → ℚ} (h : ∀ k < n, 0 ≤ g k) : 0 ≤ sumTo n g := by
  induction n with
  | zero => simp [sumTo]
  | succ n ih =>
    rw [sumTo_succ]
    exact add_nonneg (ih (fun k hk => h k (by omega))) (h n (by omega))

theorem le_sumTo {n : Nat} {g : Nat → ℚ} (h : ∀ k < n, 0 ≤ g k) {k : Nat} (hk : k < n) : g k ≤ sumTo n g := by
  induction n with
  | zero => omega
  | succ n ih =>
    rw [sumTo_succ]
    by_cases hkn : k = n
    · subst hkn
      linarith [sumTo_nonneg (n := k) (g := g) (fun j hj => h j (by omega))]
    · linarith [ih (fun j hj => h j (by omega)) (by omega), h n (by omega)]

theorem two_le_sumTo {n : Nat} {g : Nat → ℚ} (h : ∀ k < n, 0 ≤ g k) {k k' : Nat} (hk : k < n) (hk' : k' < n) (hne : k ≠ k') :
    g k + g k' ≤ sumTo n g := by
  induction n with
  | zero => omega
  | succ n ih =>
    rw [sumTo_succ]
    by_cases h1 : k = n
    · subst h1
      linarith [le_sumTo (n := k) (g := g) (fun j hj => h j (by omega)) (k := k') (by omega)]
    · by_cases h2 : k' = n
      · subst h2
        linarith [le_sumTo (n := k') (g := g) (fun j hj => h j (by omega)) (k := k) (by omega)]
      · linarith [ih (fun j hj => h j (by omega)) (by omega) (by omega), h n (by omega)]

/-- At most one flow is on when the binaries of both directions sum to at most one. -/
theorem exclusive {n : Nat} {x y bx bY : Nat → ℚ} (hx : ∀ k < n, 0 ≤ bx k ∧ (x k ≠ 0 → bx k = 1))
    (hy : ∀ k < n, 0 ≤ bY k ∧ (y k ≠ 0 → bY k = 1)) (h : sumTo n bx + sumTo n bY ≤ 1) {k k' : Nat} (hk : k < n) (hk' : k' < n) :
    (x k ≠ 0 → x k' ≠ 0 → k = k') ∧ (y k ≠ 0 → y k' ≠ 0 → k = k') ∧ ¬ (x k ≠ 0 ∧ y k' ≠ 0) := by
  have nx : ∀ k < n, 0 ≤ bx k := fun k hk => (hx k hk).1
  have ny : ∀ k < n, 0 ≤ bY k := fun k hk => (hy k hk).1
  have sx := sumTo_nonneg nx
  have sy := sumTo_nonneg ny
  refine ⟨?_, ?_, ?_⟩
  · intro h1 h2
    by_contra hne
    have := two_le_sumTo nx hk hk' hne
    rw [(hx k hk).2 h1, (hx k' hk').2 h2] at this
    linarith
  · intro h1 h2
    by_contra hne
    have := two_le_sumTo ny hk hk' hne
    rw [(hy k hk).2 h1, (hy k' hk').2 h2] at this
    linarith
  · rintro ⟨h1, h2⟩
    have l1 := le_sumTo nx hk
    have l2 := le_sumTo ny hk'
    rw [(hx k hk).2 h1] at l1
    rw [(hy k' hk').2 h2] at l2
    linarith

end sums

theorem FlowOk.bin_one {x b lo hi pr : ℚ} (h : FlowOk x b lo hi pr) (hx : x ≠ 0) : b = 1 := by
  rcases h with ⟨h, _⟩ | ⟨h, _⟩
  · exact absurd h hx
  · exact h

theorem FlowOk.bound {x b lo hi pr : ℚ} (h : FlowOk x b lo hi pr) : x = 0 ∨ (lo ≤ x ∧ x ≤ hi) := by
  rcases h with ⟨h, _⟩ | ⟨_, _, h1, h2, _⟩
  · exact .inl h
  · exact .inr ⟨h1, h2⟩

section
variable {s : Site} {objective : Objective} {flags : Flags} {S : Solver} {r : SimResult} {V : String → Nat → ℚ}

/-- The schedule of an assignment. -/
def EvsCfg.scheduleOf (c : EvsCfg) (flags : Flags) (σ : Assign) : EvSchedule where
  charge := fun i e k => c.chargeOf flags σ i e ("charger-" ++ toString k) false
  discharge := fun i e k => c.dischargeOf flags σ i e ("charger-" ++ toString k)
  spill := fun i e => c.chargeOf flags σ i e ("charger-spill-" ++ c.name) true

/-- The columns of a feasible result come from its schedule, which follows the rules. -/
theorem evs_schedule_of {p : Prob} {σ : Assign} (hco : Core s objective flags S r V p σ) {a : EvArgs} {c : EvsCfg} (ha : a.make = .ok c)
    (hc : Asset.evs c ∈ s.assets) : (c.scheduleOf flags σ).Explains a V s.data.n ∧ (c.scheduleOf flags σ).Valid a s flags V := by
  have hm := ev_made ha
  have hw : pyIn "evs" c.name = true := by rw [hm.name]; exact hm.well
  have hE := hm.events_length
  have ecol : ∀ e attr, a.eventCol e attr = c.name ++ "-charge-event-" ++ toString e ++ "-" ++ attr := fun e attr => by
    rw [hm.name]; rfl
  have ecol' : ∀ e attr, a.eventCol e attr = c.name ++ "-" ++ ("charge-event-" ++ toString e) ++ "-" ++ attr := fun e attr => by
    rw [ecol, str_eq_iff]; simp [String.toList_append]
  have ccol : ∀ k attr, a.chargerCol k attr = c.name ++ "-" ++ ("charger-" ++ toString k) ++ "-" ++ attr := fun k attr => by
    rw [hm.name, str_eq_iff]; simp [String.toList_append, EvArgs.chargerCol]
  have scol : ∀ attr, a.spillCol attr = c.name ++ "-" ++ ("charger-spill-" ++ a.name) ++ "-" ++ attr := fun attr => by
    rw [hm.name, str_eq_iff]; simp [String.toList_append, EvArgs.spillCol]
  have hpow : ∀ k < a.powers.length, ∃ power, a.powers[k]? = some power := fun k hk => ⟨_, List.getElem?_eq_getElem hk⟩
  have hcap : ∀ e < a.capacities.length, ∃ q, a.capacities[e]? = some q := fun k hk => ⟨_, List.getElem?_eq_getElem hk⟩
  have hfacts : ∀ i < s.data.n, EvFacts c s.freq flags σ i := fun i hi => evs_facts hco.prog hco.feas hc hi
  have hpres : ∀ i < s.data.n, ∀ e, c.present i e = a.present i e := by
    intro i hi e
    obtain ⟨hsh, hrow⟩ := (hco.prog.buildable hi hc : c.Shape ∧ c.HasRow i)
    refine hm.present i ?_ e
    have hpos : 0 < c.events.length := List.length_pos_iff.2 hsh.events
    have := hrow 0 hpos
    simp only [matIndex, bind_ok, pyIndex_nat] at this
    obtain ⟨row, h1, _⟩ := this
    exact (List.getElem?_eq_some_iff.1 h1).1
  have hspill : (⟨"charger-spill-" ++ a.name, 10000, 0⟩ : ChargerCfg) ∈ c.spillChargers := by rw [hm.spill]; simp
  have hsum : ∀ g : Nat → ℚ, c.sumEvents g = sumTo a.capacities.length g := fun g => by rw [← hE]; rfl
  have hx : c.scheduleOf flags σ = ⟨fun i e k => c.chargeOf flags σ i e ("charger-" ++ toString k) false,
    fun i e k => c.dischargeOf flags σ i e ("charger-" ++ toString k),
    fun i e => c.chargeOf flags σ i e ("charger-spill-" ++ a.name) true⟩ := by
    unfold EvsCfg.scheduleOf
    rw [hm.name]
  rw [hx]
  refine ⟨?_, ?_⟩
  · constructor
    · intro i hi k hk
      obtain ⟨power, hp⟩ := hpow k hk
      have := (ev_charger_cell hco hc hw hi (List.mem_of_getElem? (hm.charger hp))).1
      rw [ccol, this, hsum]
    · intro i hi k hk
      obtain ⟨power, hp⟩ := hpow k hk
      have := (ev_charger_cell hco hc hw hi (List.mem_of_getElem? (hm.charger hp))).2.2.1
      rw [ccol, this, hsum]
    · intro i hi e he
      obtain ⟨q, hq⟩ := hcap e he
      have := (ev_event_cell hco hc hw hi (hm.event hq)).1
      rw [ecol', this]
      exact hm.sum_chargers (fun n => c.chargeOf flags σ i e n false)
    · intro i hi e he
      obtain ⟨q, hq⟩ := hcap e he
      have := (ev_event_cell hco hc hw hi (hm.event hq)).2.1
      rw [ecol', this]
      exact hm.sum_chargers (fun n => c.dischargeOf flags σ i e n)
    · intro i hi
      have := (ev_spill_cell hco hc hw hi hspill).1
      rw [scol, this, hsum]
    · intro i hi
      have := (ev_spill_cell hco hc hw hi hspill).2.1
      rw [scol, this]
  · -- facts about one pair
    have hch : ∀ i < s.data.n, ∀ e < a.capacities.length, ∀ (k : Nat) (power : ℚ), a.powers[k]? = some power →
        FlowOk (c.chargeOf flags σ i e ("charger-" ++ toString k) false) (c.chargeBinOf flags σ i e ("charger-" ++ toString k) false)
          (s.freq.mwToMwh (power * a.turndown)) (s.freq.mwToMwh power) (a.present i e) := by
      intro i hi e he k power hp
      obtain ⟨q, hq⟩ := hcap e he
      rw [← hpres i hi e]
      exact (hfacts i hi).charge e _ (hm.event hq) _ (List.mem_of_getElem? (hm.charger hp))
    have hdi : ∀ i < s.data.n, ∀ e < a.capacities.length, ∀ (k : Nat) (power : ℚ), a.powers[k]? = some power →
        FlowOk (c.dischargeOf flags σ i e ("charger-" ++ toString k)) (c.dischargeBinOf flags σ i e ("charger-" ++ toString k))
          (s.freq.mwToMwh (power * a.turndown)) (s.freq.mwToMwh power) (a.present i e) := by
      intro i hi e he k power hp
      obtain ⟨q, hq⟩ := hcap e he
      rw [← hpres i hi e]
      exact (hfacts i hi).discharge e _ (hm.event hq) _ (List.mem_of_getElem? (hm.charger hp))
    have hsp : ∀ i < s.data.n, ∀ e < a.capacities.length, FlowOk (c.chargeOf flags σ i e ("charger-spill-" ++ a.name) true)
        (c.chargeBinOf flags σ i e ("charger-spill-" ++ a.name) true) (s.freq.mwToMwh 0) (s.freq.mwToMwh 10000) (a.present i e) := by
      intro i hi e he
      obtain ⟨q, hq⟩ := hcap e he
      rw [← hpres i hi e]
      exact (hfacts i hi).spill e _ (hm.event hq) _ hspill
    constructor
    · intro i hi e he hab
      refine ⟨?_, ((hsp i hi e he).absent hab).1⟩
      intro k hk
      obtain ⟨power, hp⟩ := hpow k hk
      exact ⟨((hch i hi e he k power hp).absent hab).1, ((hdi i hi e he k power hp).absent hab).1⟩
    · intro i hi e he k hk k' hk'
      have hone := (hfacts i hi).eventOnce e (by rw [hE]; exact he)
      rw [hm.sum_chargers (fun n => c.chargeBinOf flags σ i e n false), hm.sum_chargers (fun n => c.dischargeBinOf flags σ i e n)] at hone
      refine exclusive (x := fun k => c.chargeOf flags σ i e ("charger-" ++ toString k) false)
        (y := fun k => c.dischargeOf flags σ i e ("charger-" ++ toString k)) ?_ ?_ hone hk hk'
      · intro k hk
        obtain ⟨power, hp⟩ := hpow k hk
        exact ⟨(hch i hi e he k power hp).bin_nonneg, (hch i hi e he k power hp).bin_one⟩
      · intro k hk
        obtain ⟨power, hp⟩ := hpow k hk
        exact ⟨(hdi i hi e he k power hp).bin_nonneg, (hdi i hi e he k power hp).bin_one⟩
    · intro i hi k hk e he e' he'
      obtain ⟨power, hp⟩ := hpow k hk
      have hone := (hfacts i hi).chargerOnce _ (List.mem_of_getElem? (hm.charger hp))
      rw [hsum, hsum] at hone
      refine exclusive (x := fun e => c.chargeOf flags σ i e ("charger-" ++ toString k) false)
        (y := fun e => c.dischargeOf flags σ i e ("charger-" ++ toString k)) ?_ ?_ hone he he'
      · intro e he
        exact ⟨(hch i hi e he k power hp).bin_nonneg, (hch i hi e he k power hp).bin_one⟩
      · intro e he
        exact ⟨(hdi i hi e he k power hp).bin_nonneg, (hdi i hi e he k power hp).bin_one⟩
    · intro i hi e he k hk power hp
      have h1 := hch i hi e he k power hp
      have h2 := hdi i hi e he k power hp
      exact ⟨h1.bound, h2.bound, h1.nonneg, h2.nonneg, (hsp i hi e he).nonneg⟩
    · intro hfl i hi e he k hk
      simp [EvsCfg.dischargeOf, hfl]
    · intro i hi e he
      obtain ⟨q, hq⟩ := hcap e he
      have hb := (hfacts i hi).balance e _ (hm.event hq)
      have c1 := (ev_event_cell hco hc hw hi (hm.event hq)).2.2.2.1
      have c2 := (ev_event_cell hco hc hw hi (hm.event hq)).2.2.2.2
      rw [ecol, ecol, c1, c2, hb]
      have e1 : c.eventCharge flags σ i e = sumTo a.powers.length (fun k => c.chargeOf flags σ i e ("charger-" ++ toString k) false) :=
        hm.sum_chargers (fun n => c.chargeOf flags σ i e n false)
      have e2 : c.eventDischarge flags σ i e = sumTo a.powers.length (fun k => c.dischargeOf flags σ i e ("charger-" ++ toString k)) :=
        hm.sum_chargers (fun n => c.dischargeOf flags σ i e n)
      have e3 : c.eventSpill flags σ i e = c.chargeOf flags σ i e ("charger-spill-" ++ a.name) true := by
        simp [EvsCfg.eventSpill, hm.spill]
      rw [e1, e2, e3]

/-- Behind the columns of every feasible result there is a schedule that follows the rules. -/
theorem evs_schedule (h : Run s objective flags S r V) {a : EvArgs} {c : EvsCfg} (ha : a.make = .ok c)
    (hc : Asset.evs c ∈ s.assets) : ∃ x : EvSchedule, x.Explains a V s.data.n ∧ x.Valid a s flags V := by
  obtain ⟨p, σ, hco⟩ := h.core
  exact ⟨_, evs_schedule_of hco ha hc⟩

/-! ### C16: only while plugged in -/

/-- A charge event that is not active in interval `i` neither charges nor discharges, and gets nothing from the spill charger. -/
theorem C16_only_active (h : Run s objective flags S r V) {a : EvArgs} {c : EvsCfg} (ha : a.make = .ok c)
    (hc : Asset.evs c ∈ s.assets) :
    (∀ i < s.data.n, ∀ e < a.capacities.length, a.present i e = 0 →
      V (a.eventCol e "electric_charge_mwh") i = 0 ∧ V (a.eventCol e "electric_discharge_mwh") i = 0) ∧
    ∃ x : EvSchedule, x.Explains a V s.data.n ∧
      ∀ i < s.data.n, ∀ e < a.capacities.length, a.present i e = 0 →
        (∀ k < a.powers.length, x.charge i e k = 0 ∧ x.discharge i e k = 0) ∧ x.spill i e = 0 := by
  obtain ⟨x, hx, hv⟩ := evs_schedule h ha hc
  have key : ∀ i < s.data.n, ∀ e < a.capacities.length, a.present i e = 0 →
      (∀ k < a.powers.length, x.charge i e k = 0 ∧ x.discharge i e k = 0) ∧ x.spill i e = 0 :=
    fun i hi e he h0 => hv.absent i hi e he (by rw [h0]; norm_num)
  refine ⟨?_, x, hx, key⟩
  intro i hi e he h0
  obtain ⟨h1, _⟩ := key i hi e he h0
  rw [hx.event_charge i hi e he, hx.event_discharge i hi e he]
  exact ⟨sumTo_zero (fun k hk => (h1 k hk).1), sumTo_zero (fun k hk => (h1 k hk).2)⟩

/-- When no charge event is active, all charger columns are zero. -/
theorem C16_idle (h : Run s objective flags S r V) {a : EvArgs} {c : EvsCfg} (ha : a.make = .ok c)
    (hc : Asset.evs c ∈ s.assets) {i : Nat} (hi : i < s.data.n) (hidle : ∀ e < a.capacities.length, a.present i e = 0) :
    (∀ k < a.powers.length, V (a.chargerCol k "electric_charge_mwh") i = 0 ∧ V (a.chargerCol k "electric_discharge_mwh") i = 0) ∧
    V (a.spillCol "electric_charge_mwh") i = 0 := by
  obtain ⟨_, x, hx, key⟩ := C16_only_active h ha hc
  rw [hx.spill_charge i hi]
  refine ⟨?_, sumTo_zero (fun e he => (key i hi e he (hidle e he)).2)⟩
  intro k hk
  rw [hx.charger_charge i hi k hk, hx.charger_discharge i hi k hk]
  exact ⟨sumTo_zero (fun e he => ((key i hi e he (hidle e he)).1 k hk).1),
    sumTo_zero (fun e he => ((key i hi e he (hidle e he)).1 k hk).2)⟩

/-! ### C17: one charger per charge event and one charge event per charger -/

/-- The columns come from a schedule in which every charge event uses at most one charger in one direction, and every charger serves
at most one charge event in one direction. -/
theorem C17_one_to_one (h : Run s objective flags S r V) {a : EvArgs} {c : EvsCfg} (ha : a.make = .ok c)
    (hc : Asset.evs c ∈ s.assets) :
    ∃ x : EvSchedule, x.Explains a V s.data.n ∧
      (∀ i < s.data.n, ∀ e < a.capacities.length, ∀ k < a.powers.length, ∀ k' < a.powers.length,
        (x.charge i e k ≠ 0 → x.charge i e k' ≠ 0 → k = k') ∧ (x.discharge i e k ≠ 0 → x.discharge i e k' ≠ 0 → k = k') ∧
        ¬ (x.charge i e k ≠ 0 ∧ x.discharge i e k' ≠ 0)) ∧
      (∀ i < s.data.n, ∀ k < a.powers.length, ∀ e < a.capacities.length, ∀ e' < a.capacities.length,
        (x.charge i e k ≠ 0 → x.charge i e' k ≠ 0 → e = e') ∧ (x.discharge i e k ≠ 0 → x.discharge i e' k ≠ 0 → e = e') ∧
        ¬ (x.charge i e k ≠ 0 ∧ x.discharge i e' k ≠ 0)) := by
  obtain ⟨x, hx, hv⟩ := evs_schedule h ha hc
  exact ⟨x, hx, hv.oneCharger, hv.oneEvent⟩

/-- In the columns: no charger and no charge event charges and discharges in the same interval. -/
theorem C17_one_direction (h : Run s objective flags S r V) {a : EvArgs} {c : EvsCfg} (ha : a.make = .ok c)
    (hc : Asset.evs c ∈ s.assets) {i : Nat} (hi : i < s.data.n) :
    (∀ k < a.powers.length, V (a.chargerCol k "electric_charge_mwh") i = 0 ∨ V (a.chargerCol k "electric_discharge_mwh") i = 0) ∧
    (∀ e < a.capacities.length, V (a.eventCol e "electric_charge_mwh") i = 0 ∨ V (a.eventCol e "electric_discharge_mwh") i = 0) := by
  obtain ⟨x, hx, hv⟩ := evs_schedule h ha hc
  refine ⟨?_, ?_⟩
  · intro k hk
    rw [hx.charger_charge i hi k hk, hx.charger_discharge i hi k hk]
    by_cases hz : ∃ e < a.capacities.length, x.charge i e k ≠ 0
    · obtain ⟨e, he, hne⟩ := hz
      right
      apply sumTo_zero
      intro e' he'
      by_contra hd
      exact (hv.oneEvent i hi k hk e he e' he').2.2 ⟨hne, hd⟩
    · left
      apply sumTo_zero
      intro e he
      by_contra hd
      exact hz ⟨e, he, hd⟩
  · intro e he
    rw [hx.event_charge i hi e he, hx.event_discharge i hi e he]
    by_cases hz : ∃ k < a.powers.length, x.charge i e k ≠ 0
    · obtain ⟨k, hk, hne⟩ := hz
      right
      apply sumTo_zero
      intro k' hk'
      by_contra hd
      exact (hv.oneCharger i hi e he k hk k' hk').2.2 ⟨hne, hd⟩
    · left
      apply sumTo_zero
      intro k hk
      by_contra hd
      exact hz ⟨k, hk, hd⟩

/-! ### C18: from empty to full -/

theorem ev_soc_cells (h : Run s objective flags S r V) {a : EvArgs} {c : EvsCfg} (ha : a.make = .ok c)
    (hc : Asset.evs c ∈ s.assets) : ∃ p σ, Core s objective flags S r V p σ ∧ ∀ i < s.data.n, ∀ (e : Nat) (q : ℚ), a.capacities[e]? = some q →
      c.events[e]? = some ⟨"charge-event-" ++ toString e, q, a.efficiency⟩ ∧
      V (a.eventCol e "initial_soc_mwh") i = c.initialSocOf σ i ⟨"charge-event-" ++ toString e, q, a.efficiency⟩ ∧
      V (a.eventCol e "final_soc_mwh") i = c.finalSocOf σ i ⟨"charge-event-" ++ toString e, q, a.efficiency⟩ := by
  obtain ⟨p, σ, hco⟩ := h.core
  have hm := ev_made ha
  have hw : pyIn "evs" c.name = true := by rw [hm.name]; exact hm.well
  have ecol : ∀ e attr, a.eventCol e attr = c.name ++ "-charge-event-" ++ toString e ++ "-" ++ attr := fun e attr => by
    rw [hm.name]; rfl
  refine ⟨p, σ, hco, ?_⟩
  intro i hi e q hq
  have hcell := (ev_event_cell hco hc hw hi (hm.event hq)).2.2.2
  rw [ecol, ecol]
  exact ⟨hm.event hq, hcell.1, hcell.2⟩

/-- Every charge event starts empty, ends full, stays between the two, and is connected from row to row. -/
theorem C18_soc (h : Run s objective flags S r V) {a : EvArgs} {c : EvsCfg} (ha : a.make = .ok c)
    (hc : Asset.evs c ∈ s.assets) {e : Nat} {capacity : ℚ} (he : a.capacities[e]? = some capacity) :
    0 < s.data.n ∧ V (a.eventCol e "initial_soc_mwh") 0 = 0 ∧ V (a.eventCol e "final_soc_mwh") (s.data.n - 1) = capacity ∧
    (∀ i, i + 1 < s.data.n → V (a.eventCol e "initial_soc_mwh") (i + 1) = V (a.eventCol e "final_soc_mwh") i) ∧
    (∀ i < s.data.n, 0 ≤ V (a.eventCol e "initial_soc_mwh") i ∧ V (a.eventCol e "initial_soc_mwh") i ≤ capacity ∧
      0 ≤ V (a.eventCol e "final_soc_mwh") i ∧ V (a.eventCol e "final_soc_mwh") i ≤ capacity) := by
  obtain ⟨p, σ, hco, hcell⟩ := ev_soc_cells h ha hc
  have hpos := hco.outcome.pos
  obtain ⟨hev, c0, _⟩ := hcell 0 hpos e capacity he
  obtain ⟨_, _, cn⟩ := hcell (s.data.n - 1) (by omega) e capacity he
  obtain ⟨e0, en⟩ := evs_ends hco.prog hco.feas hc hev
  refine ⟨hpos, by rw [c0, e0], by rw [cn, en], ?_, ?_⟩
  · intro i hi
    rw [(hcell (i + 1) hi e capacity he).2.1, (hcell i (by omega) e capacity he).2.2]
    exact evs_connect hco.prog hco.feas hc hi hev
  · intro i hi
    rw [(hcell i hi e capacity he).2.1, (hcell i hi e capacity he).2.2]
    exact (evs_facts hco.prog hco.feas hc hi).soc e _ hev

/-! ### C19: energy accounting -/

/-- The state of charge moves by the charged energy times the efficiency, plus the energy of the spill charger (which loses nothing),
minus the discharged energy; over the horizon this adds up to the capacity. -/
theorem C19_energy (h : Run s objective flags S r V) {a : EvArgs} {c : EvsCfg} (ha : a.make = .ok c)
    (hc : Asset.evs c ∈ s.assets) :
    ∃ x : EvSchedule, x.Explains a V s.data.n ∧
      (∀ i < s.data.n, ∀ e < a.capacities.length, V (a.eventCol e "final_soc_mwh") i = V (a.eventCol e "initial_soc_mwh") i +
        a.efficiency * V (a.eventCol e "electric_charge_mwh") i + x.spill i e - V (a.eventCol e "electric_discharge_mwh") i) ∧
      (∀ (e : Nat) (capacity : ℚ), a.capacities[e]? = some capacity →
        a.efficiency * colSum V s.data.n (a.eventCol e "electric_charge_mwh") + sumTo s.data.n (fun i => x.spill i e) -
          colSum V s.data.n (a.eventCol e "electric_discharge_mwh") = capacity) := by
  obtain ⟨x, hx, hv⟩ := evs_schedule h ha hc
  have hrow : ∀ i < s.data.n, ∀ e < a.capacities.length, V (a.eventCol e "final_soc_mwh") i = V (a.eventCol e "initial_soc_mwh") i +
        a.efficiency * V (a.eventCol e "electric_charge_mwh") i + x.spill i e - V (a.eventCol e "electric_discharge_mwh") i := by
    intro i hi e he
    rw [hx.event_charge i hi e he, hx.event_discharge i hi e he]
    exact hv.soc i hi e he
  refine ⟨x, hx, hrow, ?_⟩
  intro e capacity he
  obtain ⟨hpos, h0, hn, hcon, _⟩ := C18_soc h ha hc he
  have hlt : e < a.capacities.length := (List.getElem?_eq_some_iff.1 he).1
  have key : ∀ k, k < s.data.n → V (a.eventCol e "final_soc_mwh") k =
      a.efficiency * sumTo (k + 1) (V (a.eventCol e "electric_charge_mwh")) + sumTo (k + 1) (fun i => x.spill i e) -
        sumTo (k + 1) (V (a.eventCol e "electric_discharge_mwh")) := by
    intro k
    induction k with
    | zero =>
      intro hk
      rw [hrow 0 hk e hlt, h0]
      simp [sumTo]
    | succ k ih =>
      intro hk
      rw [hrow (k + 1) hk e hlt, hcon k hk, ih (by omega), sumTo_succ (k + 1), sumTo_succ (k + 1), sumTo_succ (k + 1)]
      ring
  have := key (s.data.n - 1) (by omega)
  rw [hn, Nat.sub_add_cancel hpos] at this
  exact this.symm

/-! ### C20: vehicle to grid -/

/-- Without the flag nothing discharges; the spill charger never does. -/
theorem C20_discharge_flag (h : Run s objective flags S r V) {a : EvArgs} {c : EvsCfg} (ha : a.make = .ok c)
    (hc : Asset.evs c ∈ s.assets) {i : Nat} (hi : i < s.data.n) :
    (flags.allowEvsDischarge = false →
      (∀ k < a.powers.length, V (a.chargerCol k "electric_discharge_mwh") i = 0) ∧
      (∀ e < a.capacities.length, V (a.eventCol e "electric_discharge_mwh") i = 0)) ∧
    V (a.spillCol "electric_discharge_mwh") i = 0 := by
  obtain ⟨x, hx, hv⟩ := evs_schedule h ha hc
  refine ⟨?_, hx.spill_discharge i hi⟩
  intro hfl
  refine ⟨?_, ?_⟩
  · intro k hk
    rw [hx.charger_discharge i hi k hk]
    exact sumTo_zero (fun e he => hv.noDischarge hfl i hi e he k hk)
  · intro e he
    rw [hx.event_discharge i hi e he]
    exact sumTo_zero (fun k hk => hv.noDischarge hfl i hi e he k hk)

/-! ### C21: charger power -/

/-- At most one summand: the sum has the bounds of a summand. -/
theorem sumTo_single {n : Nat} {x : Nat → ℚ} {lo hi : ℚ} (hone : ∀ k < n, ∀ k' < n, x k ≠ 0 → x k' ≠ 0 → k = k')
    (hb : ∀ k < n, x k = 0 ∨ (lo ≤ x k ∧ x k ≤ hi)) : sumTo n x = 0 ∨ (lo ≤ sumTo n x ∧ sumTo n x ≤ hi) := by
  by_cases hz : ∃ k < n, x k ≠ 0
  · obtain ⟨k, hk, hne⟩ := hz
    have : sumTo n x = x k := by
      clear hb
      induction n with
      | zero => omega
      | succ n ih =>
        rw [sumTo_succ]
        by_cases hkn : k = n
        · subst hkn
          rw [sumTo_zero, zero_add]
          intro j hj
          by_contra hj0
          have := hone j (by omega) k (by omega) hj0 hne
          omega
        · rw [ih (fun a ha b hb => hone a (by omega) b (by omega)) (by omega)]
          have : x n = 0 := by
            by_contra hn0
            exact hkn (hone k hk n (by omega) hne hn0)
          rw [this, add_zero]
    rw [this]
    exact hb k hk
  · left
    apply sumTo_zero
    intro k hk
    by_contra hd
    exact hz ⟨k, hk, hd⟩

/-- A charger either does nothing or works between its turn-down and its power: for every charge event, and in its columns. -/
theorem C21_charger_power (h : Run s objective flags S r V) {a : EvArgs} {c : EvsCfg} (ha : a.make = .ok c)
    (hc : Asset.evs c ∈ s.assets) {k : Nat} {power : ℚ} (hk : a.powers[k]? = some power) :
    (∃ x : EvSchedule, x.Explains a V s.data.n ∧ ∀ i < s.data.n, ∀ e < a.capacities.length,
      (x.charge i e k = 0 ∨ (a.turndown * power * s.freqMins / 60 ≤ x.charge i e k ∧ x.charge i e k ≤ power * s.freqMins / 60)) ∧
      (x.discharge i e k = 0 ∨
        (a.turndown * power * s.freqMins / 60 ≤ x.discharge i e k ∧ x.discharge i e k ≤ power * s.freqMins / 60))) ∧
    ∀ i < s.data.n,
      (V (a.chargerCol k "electric_charge_mwh") i = 0 ∨
        (a.turndown * power * s.freqMins / 60 ≤ V (a.chargerCol k "electric_charge_mwh") i ∧
          V (a.chargerCol k "electric_charge_mwh") i ≤ power * s.freqMins / 60)) ∧
      (V (a.chargerCol k "electric_discharge_mwh") i = 0 ∨
        (a.turndown * power * s.freqMins / 60 ≤ V (a.chargerCol k "electric_discharge_mwh") i ∧
          V (a.chargerCol k "electric_discharge_mwh") i ≤ power * s.freqMins / 60)) := by
  obtain ⟨x, hx, hv⟩ := evs_schedule h ha hc
  have hlt : k < a.powers.length := (List.getElem?_eq_some_iff.1 hk).1
  have key : ∀ i < s.data.n, ∀ e < a.capacities.length,
      (x.charge i e k = 0 ∨ (a.turndown * power * s.freqMins / 60 ≤ x.charge i e k ∧ x.charge i e k ≤ power * s.freqMins / 60)) ∧
      (x.discharge i e k = 0 ∨
        (a.turndown * power * s.freqMins / 60 ≤ x.discharge i e k ∧ x.discharge i e k ≤ power * s.freqMins / 60)) := by
    intro i hi e he
    obtain ⟨h1, h2, _⟩ := hv.limits i hi e he k hlt power hk
    rw [mul_comm a.turndown power]
    exact ⟨h1, h2⟩
  refine ⟨⟨x, hx, key⟩, ?_⟩
  intro i hi
  rw [hx.charger_charge i hi k hlt, hx.charger_discharge i hi k hlt]
  exact ⟨sumTo_single (fun e he e' he' => (hv.oneEvent i hi k hlt e he e' he').1) (fun e he => (key i hi e he).1),
    sumTo_single (fun e he e' he' => (hv.oneEvent i hi k hlt e he e' he').2.1) (fun e he => (key i hi e he).2)⟩

end

/-- The EVs of the demonstration. -/
def demoEvArgs : EvArgs where
  chargeEvents := [[1, 0], [0, 1]]
  powers := [4]
  capacities := [2, 1]
  efficiency := 1/2
  turndown := 1/10
  name := "evs"
  freqMins := Defaults.freqMins

example : ∃ s r V c, Run s (.str "price") {} (checkSolver (tab demoEvs.answer)) r V ∧ demoEvArgs.make = .ok c ∧
    Asset.evs c ∈ s.assets ∧ s.data.n = 2 := by
  obtain ⟨s, r, V, _, h, ht⟩ := Demo.run demoEvs_test
  simp only [Bool.and_eq_true, decide_eq_true_eq] at ht
  exact ⟨s, r, V, demoEvsCfg, h, demoEvsCfg_new, by simp [ht.1.1], ht.1.2⟩

end EPL
