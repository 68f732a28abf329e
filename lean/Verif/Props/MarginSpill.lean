/-
C92: the spill charger is the last resort.
-/
import Verif.Proofs.MarginSpill
import Verif.Props.Margin
import Verif.Spec.DemoMarginSpill

namespace EPL

section
variable {s : Site} {flags : Flags} {S : Solver} {r : SimResult} {V : String → Nat → ℚ} {a : EvArgs} {c : EvsCfg} {e i j : Nat}
  (hm : Asset.evs c ∈ s.assets) (hmake : a.make = .ok c) (he : e < a.capacities.length) (hi : i < s.data.n)
include hm hmake he hi

/-- C92: the spill charger charges a vehicle that a charger could charge only if the electricity the charger loses costs more than the penalty. -/
theorem C92_now_price (h : Run s (.str "price") flags S r V) (hS : S.Exact) (hs : s.Ordinary) (heff : 0 ≤ a.efficiency) (hsp : a.Spills V e i)
    (hmore : a.CanCharge s V e i) (htake : s.CanTake V i) : spillPenalty * a.efficiency ≤ (1 - a.efficiency) * s.takePrice V i := by
  obtain ⟨p, σ, hco⟩ := h.core
  obtain ⟨y, hy⟩ := evs_plays h hco hs.freq hm hmake
  have M := ev_made hmake
  have := spare_now hs.clear hs.named (run_dispatch h hs) (run_cheapest h hS hs) hm hmake M.name M.chargers_length M.events_length hy heff he hi hsp hmore
    (.inr htake)
  unfold Site.takePrice
  exact this

/-- C92: for carbon. -/
theorem C92_now_carbon (h : Run s (.str "carbon") flags S r V) (hS : S.Exact) (hs : s.Ordinary) (heff : 0 ≤ a.efficiency) (hsp : a.Spills V e i)
    (hmore : a.CanCharge s V e i) (htake : s.CanTake V i) :
    spillPenalty * a.efficiency ≤ (1 - a.efficiency) * s.data.electricityCarbonIntensities.getD i 0 := by
  obtain ⟨p, σ, hco⟩ := h.core
  obtain ⟨y, hy⟩ := evs_plays h hco hs.freq hm hmake
  have M := ev_made hmake
  have := spare_now hs.clear hs.named (run_dispatch h hs) (run_greenest h hS hs) hm hmake M.name M.chargers_length M.events_length hy heff he hi hsp hmore
    (.inr htake)
  rwa [ite_self] at this

/-- C92: next to chargers without losses the spill charger only charges a vehicle that no charger could charge, whatever electricity costs. -/
theorem C92_lossless {objective : String} (ho : objective = "price" ∨ objective = "carbon") (h : Run s (.str objective) flags S r V) (hS : S.Exact)
    (hs : s.Ordinary) (heff : a.efficiency = 1) (hsp : a.Spills V e i) : ¬ a.CanCharge s V e i := by
  intro hmore
  have M := ev_made hmake
  have key : spillPenalty * a.efficiency ≤ 0 := by
    rcases ho with rfl | rfl
    · obtain ⟨p, σ, hco⟩ := h.core
      obtain ⟨y, hy⟩ := evs_plays h hco hs.freq hm hmake
      have := spare_now hs.clear hs.named (run_dispatch h hs) (run_cheapest h hS hs) hm hmake M.name M.chargers_length M.events_length hy
        (by rw [heff]; norm_num) he hi hsp hmore (.inl heff)
      rwa [heff, sub_self, zero_mul, ← heff] at this
    · obtain ⟨p, σ, hco⟩ := h.core
      obtain ⟨y, hy⟩ := evs_plays h hco hs.freq hm hmake
      have := spare_now hs.clear hs.named (run_dispatch h hs) (run_greenest h hS hs) hm hmake M.name M.chargers_length M.events_length hy
        (by rw [heff]; norm_num) he hi hsp hmore (.inl heff)
      rwa [heff, sub_self, zero_mul, ← heff] at this
  rw [heff] at key
  norm_num [spillPenalty] at key

/-- C92: and if a charger could charge the vehicle in another interval, electricity there costs more than the penalty. -/
theorem C92_later_price (hj : j < s.data.n) (hne : i ≠ j) (h : Run s (.str "price") flags S r V) (hS : S.Exact) (hs : s.Ordinary)
    (heff : 0 ≤ a.efficiency) (hsp : a.CanSpare s V e i j) (hgive : s.CanGive V i) (htake : s.CanTake V j) :
    a.efficiency * (spillPenalty + s.givePrice V i) ≤ s.takePrice V j := by
  obtain ⟨p, σ, hco⟩ := h.core
  obtain ⟨y, hy⟩ := evs_plays h hco hs.freq hm hmake
  have M := ev_made hmake
  have := spare_later hs.clear hs.named (run_dispatch h hs) (run_cheapest h hS hs) hm hmake M.name M.chargers_length M.events_length hy heff he hi hj hne hsp
    hgive htake
  unfold Site.givePrice Site.takePrice
  exact this

/-- C92: for carbon. -/
theorem C92_later_carbon (hj : j < s.data.n) (hne : i ≠ j) (h : Run s (.str "carbon") flags S r V) (hS : S.Exact) (hs : s.Ordinary)
    (heff : 0 ≤ a.efficiency) (hsp : a.CanSpare s V e i j) (hgive : s.CanGive V i) (htake : s.CanTake V j) :
    a.efficiency * (spillPenalty + s.data.electricityCarbonIntensities.getD i 0) ≤ s.data.electricityCarbonIntensities.getD j 0 := by
  obtain ⟨p, σ, hco⟩ := h.core
  obtain ⟨y, hy⟩ := evs_plays h hco hs.freq hm hmake
  have M := ev_made hmake
  have := spare_later hs.clear hs.named (run_dispatch h hs) (run_greenest h hS hs) hm hmake M.name M.chargers_length M.events_length hy heff he hi hj hne hsp
    hgive htake
  rwa [ite_self, ite_self] at this

end

/-! ### Concrete cases -/

/-- The first demonstration is an ordinary site where the spill charger helps and the charger could work later. -/
theorem spare_ready {q : ℚ} {s : Site} {r : SimResult} {V : String → Nat → ℚ}
    (d : MarginDemo [.evs spareCfg] spareData 10000 10000 q spareCells s r V) :
    s.Ordinary ∧ Asset.evs spareCfg ∈ s.assets ∧ s.data.n = 2 ∧ spareArgs.CanSpare s V 0 0 1 ∧ s.CanGive V 0 ∧ s.CanTake V 1 := by
  have hn : s.data.n = 2 := by rw [d.data]; rfl
  have h0 : 0 < s.data.n := by rw [hn]; decide
  have h1 : 1 < s.data.n := by rw [hn]; decide
  have e0 := d.cells ("evs-charge-event-0-initial_soc_mwh", 0, 0) (by simp [spareCells]) h0
  have e1 := d.cells ("evs-charge-event-0-electric_charge_mwh", 0, 2) (by simp [spareCells]) h0
  have e1' := d.cells ("evs-charge-event-0-electric_discharge_mwh", 0, 0) (by simp [spareCells]) h0
  have e2 := d.cells ("evs-charge-event-0-electric_charge_mwh", 1, 0) (by simp [spareCells]) h1
  have e3 := d.cells ("evs-charge-event-0-electric_discharge_mwh", 1, 0) (by simp [spareCells]) h1
  have e4 := d.cells ("evs-charger-0-electric_charge_mwh", 1, 0) (by simp [spareCells]) h1
  have e5 := d.cells ("evs-charger-0-electric_discharge_mwh", 1, 0) (by simp [spareCells]) h1
  have e6 := d.cells ("evs-charge-event-0-final_soc_mwh", 0, 3) (by simp [spareCells]) h0
  have e7 := d.cells ("site-import_power_mwh", 0, 3) (by simp [spareCells]) h0
  have e8 := d.cells ("site-import_power_mwh", 1, 0) (by simp [spareCells]) h1
  simp only at e0 e1 e1' e2 e3 e4 e5 e6 e7 e8
  have c0 : spareArgs.eventCol 0 "initial_soc_mwh" = "evs-charge-event-0-initial_soc_mwh" := by decide +kernel
  have c1 : spareArgs.eventCol 0 "electric_charge_mwh" = "evs-charge-event-0-electric_charge_mwh" := by decide +kernel
  have c2 : spareArgs.eventCol 0 "electric_discharge_mwh" = "evs-charge-event-0-electric_discharge_mwh" := by decide +kernel
  have c3 : spareArgs.eventCol 0 "final_soc_mwh" = "evs-charge-event-0-final_soc_mwh" := by decide +kernel
  have c4 : spareArgs.chargerCol 0 "electric_charge_mwh" = "evs-charger-0-electric_charge_mwh" := by decide +kernel
  have c5 : spareArgs.chargerCol 0 "electric_discharge_mwh" = "evs-charger-0-electric_discharge_mwh" := by decide +kernel
  refine ⟨⟨⟨?_, ?_, ?_, ?_, ?_, ?_⟩, ?_, d.constraints, ?_, ?_, ?_⟩, by rw [d.assets]; simp, hn, ⟨?_, .inr ⟨?_, ?_, ?_, 0, 2, rfl, ?_, ?_, ?_, ?_⟩, ?_, ?_⟩,
    .inl ?_, .inr ?_⟩
  · rw [d.assets]; decide +kernel
  · rw [d.assets]; decide +kernel
  · rw [d.assets]; decide +kernel
  · intro c hc
    rw [d.assets, List.mem_singleton] at hc
    cases hc
    rw [d.assets]
    decide +kernel
  · rw [d.data]; decide +kernel
  · rw [d.data]; decide +kernel
  · rw [d.assets]; decide +kernel
  · intro c hc
    rw [d.assets, List.mem_singleton] at hc
    cases hc
    refine ⟨spareArgs, spareCfg_new, ?_, ?_⟩ <;> decide +kernel
  · intro c hc; rw [d.assets] at hc; simp at hc
  · rw [d.freq]; norm_num
  · unfold EvArgs.Spills
    rw [c0, c1, c2, c3, e0, e1, e1', e6]
    show 0 + 1 * 2 - 0 < (3 : ℚ)
    norm_num
  · rw [c1, e2]
  · rw [c2, e3]
  · decide +kernel
  · rw [d.freq]; norm_num
  · rw [d.freq]; show (2 : ℚ) * 0 * 60 / 60 ≤ 0; norm_num
  · rw [c4, e4]
  · rw [c5, e5]
  · intro k _ hk
    obtain rfl : k = 0 := by omega
    rw [c3, e6]; norm_num
  · intro k _ hk; omega
  · rw [e7]; norm_num
  · rw [e8, d.importLimit, d.freq]; norm_num

/-- The second demonstration is an ordinary site where the spill charger does what the charger could do. -/
theorem lossy_ready {q : ℚ} {s : Site} {r : SimResult} {V : String → Nat → ℚ}
    (d : MarginDemo [.evs lossyCfg] lossyData 10000 10000 q lossyCells s r V) :
    s.Ordinary ∧ Asset.evs lossyCfg ∈ s.assets ∧ s.data.n = 1 ∧ lossyArgs.Spills V 0 0 ∧ lossyArgs.CanCharge s V 0 0 ∧ s.CanTake V 0 := by
  have hn : s.data.n = 1 := by rw [d.data]; rfl
  have h0 : 0 < s.data.n := by rw [hn]; decide
  have e0 := d.cells ("evs-charge-event-0-initial_soc_mwh", 0, 0) (by simp [lossyCells]) h0
  have e2 := d.cells ("evs-charge-event-0-electric_charge_mwh", 0, 0) (by simp [lossyCells]) h0
  have e3 := d.cells ("evs-charge-event-0-electric_discharge_mwh", 0, 0) (by simp [lossyCells]) h0
  have e4 := d.cells ("evs-charger-0-electric_charge_mwh", 0, 0) (by simp [lossyCells]) h0
  have e5 := d.cells ("evs-charger-0-electric_discharge_mwh", 0, 0) (by simp [lossyCells]) h0
  have e6 := d.cells ("evs-charge-event-0-final_soc_mwh", 0, 1) (by simp [lossyCells]) h0
  have e8 := d.cells ("site-import_power_mwh", 0, 1) (by simp [lossyCells]) h0
  simp only at e0 e2 e3 e4 e5 e6 e8
  have c0 : lossyArgs.eventCol 0 "initial_soc_mwh" = "evs-charge-event-0-initial_soc_mwh" := by decide +kernel
  have c1 : lossyArgs.eventCol 0 "electric_charge_mwh" = "evs-charge-event-0-electric_charge_mwh" := by decide +kernel
  have c2 : lossyArgs.eventCol 0 "electric_discharge_mwh" = "evs-charge-event-0-electric_discharge_mwh" := by decide +kernel
  have c3 : lossyArgs.eventCol 0 "final_soc_mwh" = "evs-charge-event-0-final_soc_mwh" := by decide +kernel
  have c4 : lossyArgs.chargerCol 0 "electric_charge_mwh" = "evs-charger-0-electric_charge_mwh" := by decide +kernel
  have c5 : lossyArgs.chargerCol 0 "electric_discharge_mwh" = "evs-charger-0-electric_discharge_mwh" := by decide +kernel
  refine ⟨⟨⟨?_, ?_, ?_, ?_, ?_, ?_⟩, ?_, d.constraints, ?_, ?_, ?_⟩, by rw [d.assets]; simp, hn, ?_, .inr ⟨?_, ?_, ?_, 0, 2, rfl, ?_, ?_, ?_, ?_⟩, .inr ?_⟩
  · rw [d.assets]; decide +kernel
  · rw [d.assets]; decide +kernel
  · rw [d.assets]; decide +kernel
  · intro c hc
    rw [d.assets, List.mem_singleton] at hc
    cases hc
    rw [d.assets]
    decide +kernel
  · rw [d.data]; decide +kernel
  · rw [d.data]; decide +kernel
  · rw [d.assets]; decide +kernel
  · intro c hc
    rw [d.assets, List.mem_singleton] at hc
    cases hc
    refine ⟨lossyArgs, lossyCfg_new, ?_, ?_⟩ <;> decide +kernel
  · intro c hc; rw [d.assets] at hc; simp at hc
  · rw [d.freq]; norm_num
  · unfold EvArgs.Spills
    rw [c0, c1, c2, c3, e0, e2, e3, e6]
    norm_num
  · rw [c1, e2]
  · rw [c2, e3]
  · decide +kernel
  · rw [d.freq]; norm_num
  · rw [d.freq]; show (2 : ℚ) * 0 * 60 / 60 ≤ 0; norm_num
  · rw [c4, e4]
  · rw [c5, e5]
  · rw [e8, d.importLimit, d.freq]; norm_num

/-- C92: at a price of 10^12 the spill charger replaces a charger that loses half. -/
example : ∃ (s : Site) (S : Solver) (r : SimResult) (V : String → Nat → ℚ), Run s (.str "price") {} S r V ∧ S.Exact ∧ s.Ordinary ∧
    Asset.evs lossyCfg ∈ s.assets ∧ lossyArgs.make = .ok lossyCfg ∧ 0 ≤ lossyArgs.efficiency ∧ s.data.n = 1 ∧ lossyArgs.Spills V 0 0 ∧
    lossyArgs.CanCharge s V 0 0 ∧ s.CanTake V 0 := by
  obtain ⟨s, r, V, S, hs, hS, h, ht⟩ := Demo.runOptimal demoLossy_price
  have d := marginDemo h ht
  obtain ⟨k1, k2, k3, k4, k5, k6⟩ := lossy_ready d
  exact ⟨s, S, r, V, h, hS, k1, k2, lossyCfg_new, by decide +kernel, k3, k4, k5, k6⟩

/-- C92: the same for carbon. -/
example : ∃ (s : Site) (S : Solver) (r : SimResult) (V : String → Nat → ℚ), Run s (.str "carbon") {} S r V ∧ S.Exact ∧ s.Ordinary ∧
    Asset.evs lossyCfg ∈ s.assets ∧ lossyArgs.make = .ok lossyCfg ∧ 0 ≤ lossyArgs.efficiency ∧ s.data.n = 1 ∧ lossyArgs.Spills V 0 0 ∧
    lossyArgs.CanCharge s V 0 0 ∧ s.CanTake V 0 := by
  obtain ⟨s, r, V, S, hs, hS, h, ht⟩ := Demo.runOptimal demoLossy_carbon
  have d := marginDemo h ht
  obtain ⟨k1, k2, k3, k4, k5, k6⟩ := lossy_ready d
  exact ⟨s, S, r, V, h, hS, k1, k2, lossyCfg_new, by decide +kernel, k3, k4, k5, k6⟩

/-- C92: a vehicle that charges at the spill charger although the charger could serve it in the next interval, at a price of 10^12. -/
example : ∃ (s : Site) (S : Solver) (r : SimResult) (V : String → Nat → ℚ), Run s (.str "price") {} S r V ∧ S.Exact ∧ s.Ordinary ∧
    Asset.evs spareCfg ∈ s.assets ∧ spareArgs.make = .ok spareCfg ∧ spareArgs.efficiency = 1 ∧ s.data.n = 2 ∧ spareArgs.CanSpare s V 0 0 1 ∧
    spareArgs.Spills V 0 0 ∧ s.CanGive V 0 ∧ s.CanTake V 1 := by
  obtain ⟨s, r, V, S, hs, hS, h, ht⟩ := Demo.runOptimal demoSpare_price
  have d := marginDemo h ht
  obtain ⟨k1, k2, k3, k4, k5, k6⟩ := spare_ready d
  exact ⟨s, S, r, V, h, hS, k1, k2, spareCfg_new, rfl, k3, k4, k4.spills, k5, k6⟩

/-- C92: the same for carbon. -/
example : ∃ (s : Site) (S : Solver) (r : SimResult) (V : String → Nat → ℚ), Run s (.str "carbon") {} S r V ∧ S.Exact ∧ s.Ordinary ∧
    Asset.evs spareCfg ∈ s.assets ∧ spareArgs.make = .ok spareCfg ∧ spareArgs.efficiency = 1 ∧ s.data.n = 2 ∧ spareArgs.CanSpare s V 0 0 1 ∧
    spareArgs.Spills V 0 0 ∧ s.CanGive V 0 ∧ s.CanTake V 1 := by
  obtain ⟨s, r, V, S, hs, hS, h, ht⟩ := Demo.runOptimal demoSpare_carbon
  have d := marginDemo h ht
  obtain ⟨k1, k2, k3, k4, k5, k6⟩ := spare_ready d
  exact ⟨s, S, r, V, h, hS, k1, k2, spareCfg_new, rfl, k3, k4, k4.spills, k5, k6⟩

end EPL
