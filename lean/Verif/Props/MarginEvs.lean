/-
C89: vehicles charge in the cheapest intervals they can.
-/
import Verif.Proofs.MarginEvs
import Verif.Props.Margin
import Verif.Spec.DemoMarginEvs

namespace EPL

section
variable {s : Site} {flags : Flags} {S : Solver} {r : SimResult} {V : String → Nat → ℚ} {a : EvArgs} {c : EvsCfg} {e i j : Nat}
  (hm : Asset.evs c ∈ s.assets) (hmake : a.make = .ok c) (heff : 0 ≤ a.efficiency) (he : e < a.capacities.length) (hi : i < s.data.n) (hj : j < s.data.n)
  (hne : i ≠ j)
include hm hmake heff he hi hj hne

/-- C89: if some of the charging of a vehicle could move from one interval to another and the grid connection has room for it, then what it saves in the
first is no more than what it costs in the second. -/
theorem C89_price (h : Run s (.str "price") flags S r V) (hS : S.Exact) (hs : s.Ordinary) (hshift : a.CanShift s V e i j) (hgive : s.CanGive V i)
    (htake : s.CanTake V j) : s.givePrice V i ≤ s.takePrice V j := by
  obtain ⟨p, σ, hco⟩ := h.core
  obtain ⟨y, hy⟩ := evs_plays h hco hs.freq hm hmake
  have M := ev_made hmake
  have := evs_cheapest hs.clear hs.named (run_dispatch h hs) (run_cheapest h hS hs) hm hmake M.name M.chargers_length M.events_length hy heff he hi hj hne hshift
    hgive htake
  unfold Site.givePrice Site.takePrice
  exact this

/-- C89: for carbon: no interval with a lower carbon intensity is left. -/
theorem C89_carbon (h : Run s (.str "carbon") flags S r V) (hS : S.Exact) (hs : s.Ordinary) (hshift : a.CanShift s V e i j) (hgive : s.CanGive V i)
    (htake : s.CanTake V j) : s.data.electricityCarbonIntensities.getD i 0 ≤ s.data.electricityCarbonIntensities.getD j 0 := by
  obtain ⟨p, σ, hco⟩ := h.core
  obtain ⟨y, hy⟩ := evs_plays h hco hs.freq hm hmake
  have M := ev_made hmake
  have := evs_cheapest hs.clear hs.named (run_dispatch h hs) (run_greenest h hS hs) hm hmake M.name M.chargers_length M.events_length hy heff he hi hj hne hshift
    hgive htake
  rwa [ite_self, ite_self] at this

end

/-! ### Concrete cases -/

/-- The demonstration is an ordinary site and the charging could move to the second interval. -/
theorem cheapHour_ready {q : ℚ} {s : Site} {r : SimResult} {V : String → Nat → ℚ}
    (d : MarginDemo [.evs marginEvCfg] cheapHourData 10000 10000 q cheapHourCells s r V) :
    s.Ordinary ∧ Asset.evs marginEvCfg ∈ s.assets ∧ s.data.n = 2 ∧ marginEvArgs.CanShift s V 0 0 1 ∧ s.CanGive V 0 ∧ s.CanTake V 1 := by
  have hn : s.data.n = 2 := by rw [d.data]; rfl
  have h0 : 0 < s.data.n := by rw [hn]; decide
  have h1 : 1 < s.data.n := by rw [hn]; decide
  have e1 := d.cells ("evs-charge-event-0-electric_charge_mwh", 0, 1) (by simp [cheapHourCells]) h0
  have e2 := d.cells ("evs-charge-event-0-electric_charge_mwh", 1, 0) (by simp [cheapHourCells]) h1
  have e3 := d.cells ("evs-charge-event-0-electric_discharge_mwh", 1, 0) (by simp [cheapHourCells]) h1
  have e4 := d.cells ("evs-charger-0-electric_charge_mwh", 1, 0) (by simp [cheapHourCells]) h1
  have e5 := d.cells ("evs-charger-0-electric_discharge_mwh", 1, 0) (by simp [cheapHourCells]) h1
  have e6 := d.cells ("evs-charge-event-0-final_soc_mwh", 0, 1) (by simp [cheapHourCells]) h0
  have e7 := d.cells ("site-import_power_mwh", 0, 1) (by simp [cheapHourCells]) h0
  have e8 := d.cells ("site-import_power_mwh", 1, 0) (by simp [cheapHourCells]) h1
  simp only at e1 e2 e3 e4 e5 e6 e7 e8
  have c1 : marginEvArgs.eventCol 0 "electric_charge_mwh" = "evs-charge-event-0-electric_charge_mwh" := by decide +kernel
  have c2 : marginEvArgs.eventCol 0 "electric_discharge_mwh" = "evs-charge-event-0-electric_discharge_mwh" := by decide +kernel
  have c3 : marginEvArgs.eventCol 0 "final_soc_mwh" = "evs-charge-event-0-final_soc_mwh" := by decide +kernel
  have c4 : marginEvArgs.chargerCol 0 "electric_charge_mwh" = "evs-charger-0-electric_charge_mwh" := by decide +kernel
  have c5 : marginEvArgs.chargerCol 0 "electric_discharge_mwh" = "evs-charger-0-electric_discharge_mwh" := by decide +kernel
  refine ⟨⟨⟨?_, ?_, ?_, ?_, ?_, ?_⟩, ?_, d.constraints, ?_, ?_, ?_⟩, by rw [d.assets]; simp, hn, ⟨?_, ?_, .inr ⟨?_, ?_, ?_, 0, 2, rfl, ?_, ?_, ?_, ?_⟩, ?_, ?_⟩,
    .inl ?_, .inr ?_⟩
  · rw [d.assets]; decide +kernel
  · rw [d.assets]; decide +kernel
  · rw [d.assets]; decide +kernel
  · intro c hc
    rw [d.assets, List.mem_singleton] at hc
    cases hc
    rw [d.assets]
    decide +kernel
  · rw [d.data]; decide +kernel
  · rw [d.data]; decide +kernel
  · rw [d.assets]; decide +kernel
  · intro c hc
    rw [d.assets, List.mem_singleton] at hc
    cases hc
    refine ⟨marginEvArgs, marginEvCfg_new, ?_, ?_⟩ <;> decide +kernel
  · intro c hc; rw [d.assets] at hc; simp at hc
  · rw [d.freq]; norm_num
  · rw [c1, e1]; norm_num
  · intro power _
    rw [c1, e1, d.freq]
    show power * 0 * 60 / 60 < 1
    norm_num
  · rw [c1, e2]
  · rw [c2, e3]
  · decide +kernel
  · rw [d.freq]; norm_num
  · rw [d.freq]; show (2 : ℚ) * 0 * 60 / 60 ≤ 0; norm_num
  · rw [c4, e4]
  · rw [c5, e5]
  · intro k _ hk
    obtain rfl : k = 0 := by omega
    rw [c3, e6]; norm_num
  · intro k _ hk; omega
  · rw [e7]; norm_num
  · rw [e8, d.importLimit, d.freq]; norm_num

/-- C89: a vehicle that could charge at 100 charges at 10. -/
example : ∃ (s : Site) (S : Solver) (r : SimResult) (V : String → Nat → ℚ), Run s (.str "price") {} S r V ∧ S.Exact ∧ s.Ordinary ∧
    Asset.evs marginEvCfg ∈ s.assets ∧ marginEvArgs.make = .ok marginEvCfg ∧ 0 ≤ marginEvArgs.efficiency ∧ s.data.n = 2 ∧ marginEvArgs.CanShift s V 0 0 1 ∧
    s.CanGive V 0 ∧ s.CanTake V 1 ∧ s.data.electricityPrices = [10, 100] := by
  obtain ⟨s, r, V, S, hs, hS, h, ht⟩ := Demo.runOptimal demoCheapHour_price
  have d := marginDemo h ht
  obtain ⟨k1, k2, k3, k4, k5, k6⟩ := cheapHour_ready d
  exact ⟨s, S, r, V, h, hS, k1, k2, marginEvCfg_new, by decide +kernel, k3, k4, k5, k6, by rw [d.data]; rfl⟩

/-- C89: the same for carbon. -/
example : ∃ (s : Site) (S : Solver) (r : SimResult) (V : String → Nat → ℚ), Run s (.str "carbon") {} S r V ∧ S.Exact ∧ s.Ordinary ∧
    Asset.evs marginEvCfg ∈ s.assets ∧ marginEvArgs.make = .ok marginEvCfg ∧ 0 ≤ marginEvArgs.efficiency ∧ s.data.n = 2 ∧ marginEvArgs.CanShift s V 0 0 1 ∧
    s.CanGive V 0 ∧ s.CanTake V 1 ∧ s.data.electricityCarbonIntensities = [1/10, 1] := by
  obtain ⟨s, r, V, S, hs, hS, h, ht⟩ := Demo.runOptimal demoCheapHour_carbon
  have d := marginDemo h ht
  obtain ⟨k1, k2, k3, k4, k5, k6⟩ := cheapHour_ready d
  exact ⟨s, S, r, V, h, hS, k1, k2, marginEvCfg_new, by decide +kernel, k3, k4, k5, k6, by rw [d.data]; rfl⟩

end EPL
