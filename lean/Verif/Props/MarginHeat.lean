/-
C90, C91: when a CHP and a heat pump run beside a boiler in an optimal dispatch.
-/
import Verif.Proofs.MarginHeat
import Verif.Props.Margin
import Verif.Spec.DemoMarginHeat

namespace EPL

section
variable {s : Site} {flags : Flags} {S : Solver} {r : SimResult} {V : String → Nat → ℚ} {i : Nat} {b : BoilerCfg}
  (hb : Asset.boiler b ∈ s.assets) (hb0 : 0 < b.efficiency) (hi : i < s.data.n)

/-! ### C90: CHPs -/

section
variable {c : ChpCfg} (ha : Asset.chp c ∈ s.assets) (he : 0 < c.electricEfficiency) (hh : 0 ≤ c.htEfficiency) (hl : 0 ≤ c.ltEfficiency)
include hb hb0 hi ha he hh hl

/-- C90: a CHP that could make more, beside a boiler that could make less, leaves nothing to gain: the electricity from one more MWh of gas and the gas
that the boiler would save are worth no more than the gas. -/
theorem C90_more (h : Run s (.str "price") flags S r V) (hS : S.Exact) (hs : s.Ordinary) (hr : c.CanRise s V i)
    (hd : c.htEfficiency = 0 ∨ b.CanDrop s V i) (hlow : c.ltEfficiency = 0 ∨ s.CanDump) (hgive : s.CanGive V i) :
    c.electricEfficiency * s.givePrice V i + c.htEfficiency / b.efficiency * s.data.gasPrices.getD i 0 ≤ s.data.gasPrices.getD i 0 := by
  have := chp_up hs.clear hs.named (run_dispatch h hs) (run_cheapest h hS hs) ha he hh hl hb hb0 hi hr hd hlow hgive
  unfold Site.givePrice
  exact this

/-- C90: a CHP that could make less, beside a boiler that could make more, pays for itself: the electricity from its last MWh of gas and the gas that the
boiler saves are worth at least the gas. -/
theorem C90_less (h : Run s (.str "price") flags S r V) (hS : S.Exact) (hs : s.Ordinary) (hr : c.CanDrop s V i)
    (hd : c.htEfficiency = 0 ∨ b.CanRise s V i) (hlow : c.ltEfficiency = 0 ∨ s.Dumps V i) (htake : s.CanTake V i) :
    s.data.gasPrices.getD i 0 ≤ c.electricEfficiency * s.takePrice V i + c.htEfficiency / b.efficiency * s.data.gasPrices.getD i 0 := by
  have := chp_down hs.clear hs.named (run_dispatch h hs) (run_cheapest h hS hs) ha he hh hl hb hb0 hi hr hd hlow htake
  unfold Site.takePrice
  exact this

/-- C90: for carbon, with 185 kg per MWh of gas. -/
theorem C90_carbon (h : Run s (.str "carbon") flags S r V) (hS : S.Exact) (hs : s.Ordinary) :
    (c.CanRise s V i → (c.htEfficiency = 0 ∨ b.CanDrop s V i) → (c.ltEfficiency = 0 ∨ s.CanDump) → s.CanGive V i →
      c.electricEfficiency * s.data.electricityCarbonIntensities.getD i 0 + c.htEfficiency / b.efficiency * (185 / 1000) ≤ 185 / 1000) ∧
    (c.CanDrop s V i → (c.htEfficiency = 0 ∨ b.CanRise s V i) → (c.ltEfficiency = 0 ∨ s.Dumps V i) → s.CanTake V i →
      185 / 1000 ≤ c.electricEfficiency * s.data.electricityCarbonIntensities.getD i 0 + c.htEfficiency / b.efficiency * (185 / 1000)) :=
  ⟨fun hr hd hlow hgive => by
      have := chp_up hs.clear hs.named (run_dispatch h hs) (run_greenest h hS hs) ha he hh hl hb hb0 hi hr hd hlow hgive
      rwa [ite_self] at this,
    fun hr hd hlow htake => by
      have := chp_down hs.clear hs.named (run_dispatch h hs) (run_greenest h hS hs) ha he hh hl hb hb0 hi hr hd hlow htake
      rwa [ite_self] at this⟩

end

/-! ### C91: heat pumps -/

section
variable {c : HeatPumpCfg} (ha : Asset.heatPump c ∈ s.assets) (hcop : 1 ≤ c.cop)
include hb hb0 hi ha hcop

/-- C91: a heat pump that could take more, beside a boiler that could make less, while low temperature heat is thrown away, leaves nothing to gain: the gas
that one more MWh of electricity would save costs no more than the electricity. -/
theorem C91_more (h : Run s (.str "price") flags S r V) (hS : S.Exact) (hs : s.Ordinary) (hr : V (c.name ++ "-electric_load_mwh") i < c.power * s.freqMins / 60)
    (hd : b.CanDrop s V i) (hlow : c.cop = 1 ∨ s.Dumps V i) (htake : s.CanTake V i) :
    c.cop / b.efficiency * s.data.gasPrices.getD i 0 ≤ s.takePrice V i := by
  have := pump_up hs.clear hs.named (run_dispatch h hs) (run_cheapest h hS hs) ha hcop hb hb0 hi hr hd hlow htake
  unfold Site.takePrice
  exact this

/-- C91: a heat pump that runs beside a boiler that could make more pays for itself: the gas that its last MWh of electricity saves costs at least as much
as the electricity. -/
theorem C91_less (h : Run s (.str "price") flags S r V) (hS : S.Exact) (hs : s.Ordinary) (hr : 0 < V (c.name ++ "-electric_load_mwh") i)
    (hd : b.CanRise s V i) (hlow : c.cop = 1 ∨ s.CanDump) (hgive : s.CanGive V i) :
    s.givePrice V i ≤ c.cop / b.efficiency * s.data.gasPrices.getD i 0 := by
  have := pump_down hs.clear hs.named (run_dispatch h hs) (run_cheapest h hS hs) ha hcop hb hb0 hi hr hd hlow hgive
  unfold Site.givePrice
  exact this

/-- C91: for carbon, with 185 kg per MWh of gas. -/
theorem C91_carbon (h : Run s (.str "carbon") flags S r V) (hS : S.Exact) (hs : s.Ordinary) :
    (V (c.name ++ "-electric_load_mwh") i < c.power * s.freqMins / 60 → b.CanDrop s V i → (c.cop = 1 ∨ s.Dumps V i) → s.CanTake V i →
      c.cop / b.efficiency * (185 / 1000) ≤ s.data.electricityCarbonIntensities.getD i 0) ∧
    (0 < V (c.name ++ "-electric_load_mwh") i → b.CanRise s V i → (c.cop = 1 ∨ s.CanDump) → s.CanGive V i →
      s.data.electricityCarbonIntensities.getD i 0 ≤ c.cop / b.efficiency * (185 / 1000)) :=
  ⟨fun hr hd hlow htake => by
      have := pump_up hs.clear hs.named (run_dispatch h hs) (run_greenest h hS hs) ha hcop hb hb0 hi hr hd hlow htake
      rwa [ite_self] at this,
    fun hr hd hlow hgive => by
      have := pump_down hs.clear hs.named (run_dispatch h hs) (run_greenest h hS hs) ha hcop hb hb0 hi hr hd hlow hgive
      rwa [ite_self] at this⟩

end

end

/-! ### Concrete cases -/

/-- The CHP is off. -/
theorem cogen_off {p k q : ℚ} {s : Site} {r : SimResult} {V : String → Nat → ℚ}
    (d : MarginDemo cogenAssets (heatData p k 0) 10000 10000 q (cogenCells 5 0 5 0) s r V) :
    s.Ordinary ∧ Asset.chp marginChp ∈ s.assets ∧ Asset.boiler marginBoiler ∈ s.assets ∧ 0 < s.data.n ∧ marginChp.CanRise s V 0 ∧
    marginBoiler.CanDrop s V 0 ∧ s.CanDump ∧ s.CanGive V 0 := by
  have hn : 0 < s.data.n := by rw [d.data]; exact Nat.one_pos
  have e1 := d.cells ("site-import_power_mwh", 0, 5) (by simp [cogenCells]) hn
  have e2 := d.cells ("chp-electric_generation_mwh", 0, 0) (by simp [cogenCells]) hn
  have e3 := d.cells ("boiler-high_temperature_generation_mwh", 0, 5) (by simp [cogenCells]) hn
  simp only at e1 e2 e3
  have c1 : marginChp.name ++ "-electric_generation_mwh" = "chp-electric_generation_mwh" := by decide +kernel
  have c2 : marginBoiler.name ++ "-high_temperature_generation_mwh" = "boiler-high_temperature_generation_mwh" := by decide +kernel
  refine ⟨marginDemo_ordinary d (by decide +kernel) rfl, by rw [d.assets]; simp [cogenAssets], by rw [d.assets]; simp [cogenAssets], hn, ⟨?_, ?_⟩, ⟨?_, ?_⟩,
    ⟨⟨"spill"⟩, by rw [d.assets]; simp [cogenAssets]⟩, .inl (by rw [e1]; norm_num)⟩
  · rw [c1, e2, d.freq]; show (0 : ℚ) * 60 / 60 ≤ 0; norm_num
  · rw [c1, e2, d.freq]; show (0 : ℚ) < 1 * 60 / 60; norm_num
  · rw [c2, e3]; norm_num
  · rw [c2, e3, d.freq]; show (0 : ℚ) * 60 / 60 < 5; norm_num

/-- The CHP is on. -/
theorem cogen_on {p k q : ℚ} {s : Site} {r : SimResult} {V : String → Nat → ℚ}
    (d : MarginDemo cogenAssets (heatData p k 0) 10000 10000 q (cogenCells 4 1 4 (1/4)) s r V) :
    s.Ordinary ∧ Asset.chp marginChp ∈ s.assets ∧ Asset.boiler marginBoiler ∈ s.assets ∧ 0 < s.data.n ∧ marginChp.CanDrop s V 0 ∧
    marginBoiler.CanRise s V 0 ∧ s.Dumps V 0 ∧ s.CanTake V 0 := by
  have hn : 0 < s.data.n := by rw [d.data]; exact Nat.one_pos
  have e1 := d.cells ("site-import_power_mwh", 0, 4) (by simp [cogenCells]) hn
  have e2 := d.cells ("chp-electric_generation_mwh", 0, 1) (by simp [cogenCells]) hn
  have e3 := d.cells ("boiler-high_temperature_generation_mwh", 0, 4) (by simp [cogenCells]) hn
  have e4 := d.cells ("spill-low_temperature_load_mwh", 0, 1/4) (by simp [cogenCells]) hn
  simp only at e1 e2 e3 e4
  have c1 : marginChp.name ++ "-electric_generation_mwh" = "chp-electric_generation_mwh" := by decide +kernel
  have c2 : marginBoiler.name ++ "-high_temperature_generation_mwh" = "boiler-high_temperature_generation_mwh" := by decide +kernel
  have c3 : (⟨"spill"⟩ : SpillCfg).name ++ "-low_temperature_load_mwh" = "spill-low_temperature_load_mwh" := by decide +kernel
  refine ⟨marginDemo_ordinary d (by decide +kernel) rfl, by rw [d.assets]; simp [cogenAssets], by rw [d.assets]; simp [cogenAssets], hn, ⟨?_, ?_⟩, ?_,
    ⟨⟨"spill"⟩, by rw [d.assets]; simp [cogenAssets], by rw [c3, e4]; norm_num⟩, .inr (by rw [e1, d.importLimit, d.freq]; norm_num)⟩
  · rw [c1, e2]; norm_num
  · rw [c1, e2, d.freq]; show (0 : ℚ) * 60 / 60 < 1; norm_num
  · unfold BoilerCfg.CanRise
    rw [c2, e3, d.freq]; show (4 : ℚ) < 10 * 60 / 60; norm_num

/-- C90: at 10 per MWh of electricity the CHP stays off. -/
example : ∃ (s : Site) (S : Solver) (r : SimResult) (V : String → Nat → ℚ), Run s (.str "price") {} S r V ∧ S.Exact ∧ s.Ordinary ∧
    Asset.chp marginChp ∈ s.assets ∧ Asset.boiler marginBoiler ∈ s.assets ∧ 0 < s.data.n ∧ marginChp.CanRise s V 0 ∧ marginBoiler.CanDrop s V 0 ∧
    s.CanDump ∧ s.CanGive V 0 ∧ s.data.electricityPrices = [10] := by
  obtain ⟨s, r, V, S, hs, hS, h, ht⟩ := Demo.runOptimal demoCogen_off_price
  have d := marginDemo h ht
  obtain ⟨k1, k2, k3, k4, k5, k6, k7, k8⟩ := cogen_off d
  exact ⟨s, S, r, V, h, hS, k1, k2, k3, k4, k5, k6, k7, k8, by rw [d.data]; rfl⟩

/-- C90: at 50 per MWh of electricity the CHP runs at full power. -/
example : ∃ (s : Site) (S : Solver) (r : SimResult) (V : String → Nat → ℚ), Run s (.str "price") {} S r V ∧ S.Exact ∧ s.Ordinary ∧
    Asset.chp marginChp ∈ s.assets ∧ Asset.boiler marginBoiler ∈ s.assets ∧ 0 < s.data.n ∧ marginChp.CanDrop s V 0 ∧ marginBoiler.CanRise s V 0 ∧
    s.Dumps V 0 ∧ s.CanTake V 0 ∧ s.data.electricityPrices = [50] := by
  obtain ⟨s, r, V, S, hs, hS, h, ht⟩ := Demo.runOptimal demoCogen_on_price
  have d := marginDemo h ht
  obtain ⟨k1, k2, k3, k4, k5, k6, k7, k8⟩ := cogen_on d
  exact ⟨s, S, r, V, h, hS, k1, k2, k3, k4, k5, k6, k7, k8, by rw [d.data]; rfl⟩

/-- C90: at 100 kg per MWh of electricity the CHP stays off for carbon. -/
example : ∃ (s : Site) (S : Solver) (r : SimResult) (V : String → Nat → ℚ), Run s (.str "carbon") {} S r V ∧ S.Exact ∧ s.Ordinary ∧
    Asset.chp marginChp ∈ s.assets ∧ Asset.boiler marginBoiler ∈ s.assets ∧ 0 < s.data.n ∧ marginChp.CanRise s V 0 ∧ marginBoiler.CanDrop s V 0 ∧
    s.CanDump ∧ s.CanGive V 0 ∧ s.data.electricityCarbonIntensities = [1/10] := by
  obtain ⟨s, r, V, S, hs, hS, h, ht⟩ := Demo.runOptimal demoCogen_off_carbon
  have d := marginDemo h ht
  obtain ⟨k1, k2, k3, k4, k5, k6, k7, k8⟩ := cogen_off d
  exact ⟨s, S, r, V, h, hS, k1, k2, k3, k4, k5, k6, k7, k8, by rw [d.data]; rfl⟩

/-- C90: at one tonne per MWh of electricity it runs. -/
example : ∃ (s : Site) (S : Solver) (r : SimResult) (V : String → Nat → ℚ), Run s (.str "carbon") {} S r V ∧ S.Exact ∧ s.Ordinary ∧
    Asset.chp marginChp ∈ s.assets ∧ Asset.boiler marginBoiler ∈ s.assets ∧ 0 < s.data.n ∧ marginChp.CanDrop s V 0 ∧ marginBoiler.CanRise s V 0 ∧
    s.Dumps V 0 ∧ s.CanTake V 0 ∧ s.data.electricityCarbonIntensities = [1] := by
  obtain ⟨s, r, V, S, hs, hS, h, ht⟩ := Demo.runOptimal demoCogen_on_carbon
  have d := marginDemo h ht
  obtain ⟨k1, k2, k3, k4, k5, k6, k7, k8⟩ := cogen_on d
  exact ⟨s, S, r, V, h, hS, k1, k2, k3, k4, k5, k6, k7, k8, by rw [d.data]; rfl⟩

/-- The heat pump is off. -/
theorem lift_off {p k q : ℚ} {s : Site} {r : SimResult} {V : String → Nat → ℚ}
    (d : MarginDemo liftAssets (heatData p k 10) 10000 10000 q (liftCells 5 0 5 10) s r V) :
    s.Ordinary ∧ Asset.heatPump marginPump ∈ s.assets ∧ Asset.boiler marginBoiler ∈ s.assets ∧ 0 < s.data.n ∧
    V "heat-pump-electric_load_mwh" 0 < marginPump.power * s.freqMins / 60 ∧ marginBoiler.CanDrop s V 0 ∧ s.Dumps V 0 ∧ s.CanTake V 0 := by
  have hn : 0 < s.data.n := by rw [d.data]; exact Nat.one_pos
  have e1 := d.cells ("site-import_power_mwh", 0, 5) (by simp [liftCells]) hn
  have e2 := d.cells ("heat-pump-electric_load_mwh", 0, 0) (by simp [liftCells]) hn
  have e3 := d.cells ("boiler-high_temperature_generation_mwh", 0, 5) (by simp [liftCells]) hn
  have e4 := d.cells ("spill-low_temperature_load_mwh", 0, 10) (by simp [liftCells]) hn
  simp only at e1 e2 e3 e4
  have c2 : marginBoiler.name ++ "-high_temperature_generation_mwh" = "boiler-high_temperature_generation_mwh" := by decide +kernel
  have c3 : (⟨"spill"⟩ : SpillCfg).name ++ "-low_temperature_load_mwh" = "spill-low_temperature_load_mwh" := by decide +kernel
  refine ⟨marginDemo_ordinary d (by decide +kernel) rfl, by rw [d.assets]; simp [liftAssets], by rw [d.assets]; simp [liftAssets], hn, ?_, ⟨?_, ?_⟩,
    ⟨⟨"spill"⟩, by rw [d.assets]; simp [liftAssets], by rw [c3, e4]; norm_num⟩, .inr (by rw [e1, d.importLimit, d.freq]; norm_num)⟩
  · rw [e2, d.freq]; show (0 : ℚ) < 1 * 60 / 60; norm_num
  · rw [c2, e3]; norm_num
  · rw [c2, e3, d.freq]; show (0 : ℚ) * 60 / 60 < 5; norm_num

/-- The heat pump is on. -/
theorem lift_on {p k q : ℚ} {s : Site} {r : SimResult} {V : String → Nat → ℚ}
    (d : MarginDemo liftAssets (heatData p k 10) 10000 10000 q (liftCells 6 1 2 8) s r V) :
    s.Ordinary ∧ Asset.heatPump marginPump ∈ s.assets ∧ Asset.boiler marginBoiler ∈ s.assets ∧ 0 < s.data.n ∧
    0 < V "heat-pump-electric_load_mwh" 0 ∧ marginBoiler.CanRise s V 0 ∧ s.CanDump ∧ s.CanGive V 0 := by
  have hn : 0 < s.data.n := by rw [d.data]; exact Nat.one_pos
  have e1 := d.cells ("site-import_power_mwh", 0, 6) (by simp [liftCells]) hn
  have e2 := d.cells ("heat-pump-electric_load_mwh", 0, 1) (by simp [liftCells]) hn
  have e3 := d.cells ("boiler-high_temperature_generation_mwh", 0, 2) (by simp [liftCells]) hn
  simp only at e1 e2 e3
  have c2 : marginBoiler.name ++ "-high_temperature_generation_mwh" = "boiler-high_temperature_generation_mwh" := by decide +kernel
  refine ⟨marginDemo_ordinary d (by decide +kernel) rfl, by rw [d.assets]; simp [liftAssets], by rw [d.assets]; simp [liftAssets], hn, ?_, ?_,
    ⟨⟨"spill"⟩, by rw [d.assets]; simp [liftAssets]⟩, .inl (by rw [e1]; norm_num)⟩
  · rw [e2]; norm_num
  · unfold BoilerCfg.CanRise
    rw [c2, e3, d.freq]; show (2 : ℚ) < 10 * 60 / 60; norm_num

/-- C91: at 100 per MWh of electricity the heat pump stays off. -/
example : ∃ (s : Site) (S : Solver) (r : SimResult) (V : String → Nat → ℚ), Run s (.str "price") {} S r V ∧ S.Exact ∧ s.Ordinary ∧
    Asset.heatPump marginPump ∈ s.assets ∧ Asset.boiler marginBoiler ∈ s.assets ∧ 0 < s.data.n ∧
    V "heat-pump-electric_load_mwh" 0 < marginPump.power * s.freqMins / 60 ∧ marginBoiler.CanDrop s V 0 ∧ s.Dumps V 0 ∧ s.CanTake V 0 ∧
    s.data.electricityPrices = [100] := by
  obtain ⟨s, r, V, S, hs, hS, h, ht⟩ := Demo.runOptimal demoLift_off_price
  have d := marginDemo h ht
  obtain ⟨k1, k2, k3, k4, k5, k6, k7, k8⟩ := lift_off d
  exact ⟨s, S, r, V, h, hS, k1, k2, k3, k4, k5, k6, k7, k8, by rw [d.data]; rfl⟩

/-- C91: at 10 per MWh of electricity it runs. -/
example : ∃ (s : Site) (S : Solver) (r : SimResult) (V : String → Nat → ℚ), Run s (.str "price") {} S r V ∧ S.Exact ∧ s.Ordinary ∧
    Asset.heatPump marginPump ∈ s.assets ∧ Asset.boiler marginBoiler ∈ s.assets ∧ 0 < s.data.n ∧ 0 < V "heat-pump-electric_load_mwh" 0 ∧
    marginBoiler.CanRise s V 0 ∧ s.CanDump ∧ s.CanGive V 0 ∧ s.data.electricityPrices = [10] := by
  obtain ⟨s, r, V, S, hs, hS, h, ht⟩ := Demo.runOptimal demoLift_on_price
  have d := marginDemo h ht
  obtain ⟨k1, k2, k3, k4, k5, k6, k7, k8⟩ := lift_on d
  exact ⟨s, S, r, V, h, hS, k1, k2, k3, k4, k5, k6, k7, k8, by rw [d.data]; rfl⟩

/-- C91: for carbon it stays off at one tonne per MWh of electricity. -/
example : ∃ (s : Site) (S : Solver) (r : SimResult) (V : String → Nat → ℚ), Run s (.str "carbon") {} S r V ∧ S.Exact ∧ s.Ordinary ∧
    Asset.heatPump marginPump ∈ s.assets ∧ Asset.boiler marginBoiler ∈ s.assets ∧ 0 < s.data.n ∧
    V "heat-pump-electric_load_mwh" 0 < marginPump.power * s.freqMins / 60 ∧ marginBoiler.CanDrop s V 0 ∧ s.Dumps V 0 ∧ s.CanTake V 0 ∧
    s.data.electricityCarbonIntensities = [1] := by
  obtain ⟨s, r, V, S, hs, hS, h, ht⟩ := Demo.runOptimal demoLift_off_carbon
  have d := marginDemo h ht
  obtain ⟨k1, k2, k3, k4, k5, k6, k7, k8⟩ := lift_off d
  exact ⟨s, S, r, V, h, hS, k1, k2, k3, k4, k5, k6, k7, k8, by rw [d.data]; rfl⟩

/-- C91: and runs at 100 kg. -/
example : ∃ (s : Site) (S : Solver) (r : SimResult) (V : String → Nat → ℚ), Run s (.str "carbon") {} S r V ∧ S.Exact ∧ s.Ordinary ∧
    Asset.heatPump marginPump ∈ s.assets ∧ Asset.boiler marginBoiler ∈ s.assets ∧ 0 < s.data.n ∧ 0 < V "heat-pump-electric_load_mwh" 0 ∧
    marginBoiler.CanRise s V 0 ∧ s.CanDump ∧ s.CanGive V 0 ∧ s.data.electricityCarbonIntensities = [1/10] := by
  obtain ⟨s, r, V, S, hs, hS, h, ht⟩ := Demo.runOptimal demoLift_on_carbon
  have d := marginDemo h ht
  obtain ⟨k1, k2, k3, k4, k5, k6, k7, k8⟩ := lift_on d
  exact ⟨s, S, r, V, h, hS, k1, k2, k3, k4, k5, k6, k7, k8, by rw [d.data]; rfl⟩

end EPL
