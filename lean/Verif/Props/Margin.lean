/-
C85–C88: what an optimal dispatch exhausts: wind before curtailment, efficient boilers before poor ones, everything before the spill asset, and every
profitable move of a battery.
-/
import Verif.Proofs.MarginBattery
import Verif.Props.Dispatch
import Verif.Spec.DemoMargin

namespace EPL

section
variable {s : Site} {flags : Flags} {S : Solver} {r : SimResult} {V : String → Nat → ℚ} {i : Nat}

theorem run_dispatch {o : Objective} (h : Run s o flags S r V) (hs : s.Ordinary) : s.Dispatch flags V :=
  C81_valid h hs.named (fun c hc => by obtain ⟨a, ha, -⟩ := hs.evs c hc; exact ⟨a, ha⟩) hs.freq hs.chps

theorem run_cheapest (h : Run s (.str "price") flags S r V) (hS : S.Exact) (hs : s.Ordinary) :
    s.NoGain flags V (fun i => s.data.electricityPrices.getD i 0) (fun i => s.data.exportElectricityPrices.getD i 0)
      (fun i => s.data.gasPrices.getD i 0) :=
  cheapest_noGain hs.clear hs.named (run_dispatch h hs)
    fun _ hW => C81_cheapest h hS hs.named (readable_nil hs.constraints) hs.evs hs.freq hW (obeys_nil hs.constraints)

theorem run_greenest (h : Run s (.str "carbon") flags S r V) (hS : S.Exact) (hs : s.Ordinary) :
    s.NoGain flags V (fun i => s.data.electricityCarbonIntensities.getD i 0) (fun i => s.data.electricityCarbonIntensities.getD i 0)
      (fun _ => 185 / 1000) :=
  greenest_noGain hs.clear hs.named (run_dispatch h hs)
    fun _ hW => C81_greenest h hS hs.named (readable_nil hs.constraints) hs.evs hs.freq hW (obeys_nil hs.constraints)

/-! ### C85: renewable generators -/

section
variable {c : RenewableCfg} (ha : Asset.renewable c ∈ s.assets) (hi : i < s.data.n)
include ha hi

/-- C85: no renewable energy is thrown away that is worth something: if a generator feeds in less than it could and the site could still use or export
more, another MWh has no positive value. -/
theorem C85_curtailed (h : Run s (.str "price") flags S r V) (hS : S.Exact) (hs : s.Ordinary)
    (hcur : V (c.name ++ "-electric_generation_mwh") i < c.generation.getD i 0) (hgive : s.CanGive V i) : s.givePrice V i ≤ 0 := by
  unfold Site.givePrice
  exact renewable_up hs.clear hs.named (run_dispatch h hs) (run_cheapest h hS hs) ha hi hcur hgive

/-- C85: and none is fed in at a loss: if a generator runs above its lower bound and the site could do with less, another MWh has no negative price. -/
theorem C85_needed (h : Run s (.str "price") flags S r V) (hS : S.Exact) (hs : s.Ordinary)
    (hcur : c.lowerBoundPct * c.generation.getD i 0 < V (c.name ++ "-electric_generation_mwh") i) (htake : s.CanTake V i) : 0 ≤ s.takePrice V i := by
  have := renewable_down hs.clear hs.named (run_dispatch h hs) (run_cheapest h hS hs) ha hi hcur htake
  unfold Site.takePrice
  exact this

/-- C85: where import and export prices are positive, a generator is only curtailed when the site exports as much as it may. -/
theorem C85_full (h : Run s (.str "price") flags S r V) (hS : S.Exact) (hs : s.Ordinary) (hp : 0 < s.data.electricityPrices.getD i 0)
    (hx : 0 < s.data.exportElectricityPrices.getD i 0) :
    V (c.name ++ "-electric_generation_mwh") i = c.generation.getD i 0 ∨
      V "site-import_power_mwh" i = 0 ∧ V "site-export_power_mwh" i = s.exportLimit * s.freqMins / 60 := by
  have d := run_dispatch h hs
  by_cases hcur : V (c.name ++ "-electric_generation_mwh") i < c.generation.getD i 0
  · right
    by_cases hgive : s.CanGive V i
    · have := C85_curtailed ha hi h hS hs hcur hgive
      unfold Site.givePrice at this
      split at this <;> linarith
    · unfold Site.CanGive at hgive
      rw [not_or, not_lt, not_lt] at hgive
      exact ⟨le_antisymm hgive.1 (d.imports i hi).1, le_antisymm (d.exports i hi).2 hgive.2⟩
  · exact .inl (le_antisymm ((d.assets _ ha : c.Plays s V).generation i hi).2 (not_lt.1 hcur))

/-- C85: for carbon the same with the carbon intensity. -/
theorem C85_carbon (h : Run s (.str "carbon") flags S r V) (hS : S.Exact) (hs : s.Ordinary) :
    (V (c.name ++ "-electric_generation_mwh") i < c.generation.getD i 0 → s.CanGive V i → s.data.electricityCarbonIntensities.getD i 0 ≤ 0) ∧
    (c.lowerBoundPct * c.generation.getD i 0 < V (c.name ++ "-electric_generation_mwh") i → s.CanTake V i →
      0 ≤ s.data.electricityCarbonIntensities.getD i 0) :=
  ⟨fun hcur hgive => by
      have := renewable_up hs.clear hs.named (run_dispatch h hs) (run_greenest h hS hs) ha hi hcur hgive
      rwa [ite_self] at this,
    fun hcur htake => by
      have := renewable_down hs.clear hs.named (run_dispatch h hs) (run_greenest h hS hs) ha hi hcur htake
      rwa [ite_self] at this⟩

end

/-! ### C86: boilers -/

section
variable {b c : BoilerCfg} (hb : Asset.boiler b ∈ s.assets) (ha : Asset.boiler c ∈ s.assets) (h0 : 0 < c.efficiency) (hlt : c.efficiency < b.efficiency)
  (hi : i < s.data.n)
include hb ha h0 hlt hi

theorem boiler_rank {p e g : Nat → ℚ} (d : s.Dispatch flags V) (hs : s.Ordinary) (ho : s.NoGain flags V p e g) (hg : 0 < g i) :
    V (c.name ++ "-high_temperature_generation_mwh") i = 0 ∨
    V (c.name ++ "-high_temperature_generation_mwh") i = c.heatMin * s.freqMins / 60 ∨
    V (b.name ++ "-high_temperature_generation_mwh") i = b.heatMax * s.freqMins / 60 := by
  have pc : c.Plays s V := d.assets _ ha
  have hn : 0 ≤ V (c.name ++ "-high_temperature_generation_mwh") i := by
    rw [← pc.efficiency i hi]
    exact mul_nonneg h0.le (pc.gas i hi)
  rcases hn.eq_or_lt with z | z
  · exact .inl z.symm
  · rcases (pc.heat i hi).1.eq_or_lt with y | y
    · exact .inr (.inl y.symm)
    · exact .inr (.inr (boiler_order hs.clear hs.named d ho hb ha h0 hlt hi hg y z))

/-- C86: where gas has a positive price, a boiler makes more than it must only while every more efficient boiler runs at full power. -/
theorem C86_price (h : Run s (.str "price") flags S r V) (hS : S.Exact) (hs : s.Ordinary) (hg : 0 < s.data.gasPrices.getD i 0) :
    V (c.name ++ "-high_temperature_generation_mwh") i = 0 ∨
    V (c.name ++ "-high_temperature_generation_mwh") i = c.heatMin * s.freqMins / 60 ∨
    V (b.name ++ "-high_temperature_generation_mwh") i = b.heatMax * s.freqMins / 60 :=
  boiler_rank hb ha h0 hlt hi (run_dispatch h hs) hs (run_cheapest h hS hs) hg

/-- C86: for carbon in every interval, since gas always emits. -/
theorem C86_carbon (h : Run s (.str "carbon") flags S r V) (hS : S.Exact) (hs : s.Ordinary) :
    V (c.name ++ "-high_temperature_generation_mwh") i = 0 ∨
    V (c.name ++ "-high_temperature_generation_mwh") i = c.heatMin * s.freqMins / 60 ∨
    V (b.name ++ "-high_temperature_generation_mwh") i = b.heatMax * s.freqMins / 60 :=
  boiler_rank hb ha h0 hlt hi (run_dispatch h hs) hs (run_greenest h hS hs) (by norm_num)

end

/-! ### C87: the spill asset -/

section
variable {c : SpillCfg} (ha : Asset.spill c ∈ s.assets) (hi : i < s.data.n)
include ha hi

/-- C87: electricity appears from nowhere only when the connection delivers no more or only at the price of the penalty, and is thrown away only when the
connection absorbs no more or only at such a price. -/
theorem C87_grid (h : Run s (.str "price") flags S r V) (hS : S.Exact) (hs : s.Ordinary) :
    (0 < V (c.name ++ "-electric_generation_mwh") i → s.CanTake V i → spillPenalty ≤ s.takePrice V i) ∧
    (0 < V (c.name ++ "-electric_load_mwh") i → s.CanGive V i → s.givePrice V i ≤ -spillPenalty) :=
  ⟨spill_import hs.clear hs.named (run_dispatch h hs) (run_cheapest h hS hs) ha hi,
    spill_export hs.clear hs.named (run_dispatch h hs) (run_cheapest h hS hs) ha hi⟩

/-- C87: with prices below the penalty, a site that spills has an exhausted connection. -/
theorem C87_exhausted (h : Run s (.str "price") flags S r V) (hS : S.Exact) (hs : s.Ordinary)
    (hp : |s.data.electricityPrices.getD i 0| < spillPenalty) (hx : |s.data.exportElectricityPrices.getD i 0| < spillPenalty) :
    (0 < V (c.name ++ "-electric_generation_mwh") i →
      V "site-import_power_mwh" i = s.importLimit * s.freqMins / 60 ∧ V "site-export_power_mwh" i = 0) ∧
    (0 < V (c.name ++ "-electric_load_mwh") i →
      V "site-export_power_mwh" i = s.exportLimit * s.freqMins / 60 ∧ V "site-import_power_mwh" i = 0) := by
  have d := run_dispatch h hs
  obtain ⟨k1, k2⟩ := C87_grid ha hi h hS hs
  rw [abs_lt] at hp hx
  constructor
  · intro hg
    have hn : ¬ s.CanTake V i := fun ht => by
      have := k1 hg ht
      unfold Site.takePrice at this
      split at this <;> linarith
    unfold Site.CanTake at hn
    rw [not_or, not_lt, not_lt] at hn
    exact ⟨le_antisymm (d.imports i hi).2 hn.2, le_antisymm hn.1 (d.exports i hi).1⟩
  · intro hl
    have hn : ¬ s.CanGive V i := fun ht => by
      have := k2 hl ht
      unfold Site.givePrice at this
      split at this <;> linarith
    unfold Site.CanGive at hn
    rw [not_or, not_lt, not_lt] at hn
    exact ⟨le_antisymm (d.exports i hi).2 hn.2, le_antisymm hn.1 (d.imports i hi).1⟩

/-- C87: an optimal spill asset never makes and takes electricity at once. -/
theorem C87_oneWay {o : Objective} (ho : o = .str "price" ∨ o = .str "carbon") (h : Run s o flags S r V) (hS : S.Exact) (hs : s.Ordinary) :
    V (c.name ++ "-electric_generation_mwh") i = 0 ∨ V (c.name ++ "-electric_load_mwh") i = 0 := by
  rcases ho with rfl | rfl
  · exact spill_oneWay hs.clear hs.named (run_dispatch h hs) (run_cheapest h hS hs) ha hi
  · exact spill_oneWay hs.clear hs.named (run_dispatch h hs) (run_greenest h hS hs) ha hi

/-- C87: while electricity appears from nowhere every renewable generator is at full output; while it is thrown away every one is at its lower bound. -/
theorem C87_renewable {o : Objective} (ho : o = .str "price" ∨ o = .str "carbon") (h : Run s o flags S r V) (hS : S.Exact) (hs : s.Ordinary)
    {b : RenewableCfg} (hb : Asset.renewable b ∈ s.assets) :
    (0 < V (c.name ++ "-electric_generation_mwh") i → V (b.name ++ "-electric_generation_mwh") i = b.generation.getD i 0) ∧
    (0 < V (c.name ++ "-electric_load_mwh") i → V (b.name ++ "-electric_generation_mwh") i = b.lowerBoundPct * b.generation.getD i 0) := by
  rcases ho with rfl | rfl
  · exact spill_renewable hs.clear hs.named (run_dispatch h hs) (run_cheapest h hS hs) ha hb hi
  · exact spill_renewable hs.clear hs.named (run_dispatch h hs) (run_greenest h hS hs) ha hb hi

/-- C87: while heat appears from nowhere every boiler is at full power, unless its heat costs as much as the penalty. -/
theorem C87_boiler (h : Run s (.str "price") flags S r V) (hS : S.Exact) (hs : s.Ordinary) {b : BoilerCfg} (hb : Asset.boiler b ∈ s.assets)
    (hb0 : 0 < b.efficiency) (hx : 0 < V (c.name ++ "-high_temperature_generation_mwh") i) :
    V (b.name ++ "-high_temperature_generation_mwh") i = b.heatMax * s.freqMins / 60 ∨ spillPenalty * b.efficiency ≤ s.data.gasPrices.getD i 0 := by
  have d := run_dispatch h hs
  rcases ((d.assets _ hb : b.Plays s V).heat i hi).2.eq_or_lt with z | z
  · exact .inl z
  · exact .inr (spill_boiler hs.clear hs.named d (run_cheapest h hS hs) ha hb hb0 hi hx z)

/-- C87: for carbon: the connection is exhausted unless the carbon intensity is as high as the penalty, and every boiler with an efficiency above a
millionth of a millionth is at full power. -/
theorem C87_carbon (h : Run s (.str "carbon") flags S r V) (hS : S.Exact) (hs : s.Ordinary) :
    (0 < V (c.name ++ "-electric_generation_mwh") i → s.CanTake V i → spillPenalty ≤ s.data.electricityCarbonIntensities.getD i 0) ∧
    (0 < V (c.name ++ "-electric_load_mwh") i → s.CanGive V i → s.data.electricityCarbonIntensities.getD i 0 ≤ -spillPenalty) ∧
    (∀ b : BoilerCfg, Asset.boiler b ∈ s.assets → 2 / 10 ^ 12 < b.efficiency → 0 < V (c.name ++ "-high_temperature_generation_mwh") i →
      V (b.name ++ "-high_temperature_generation_mwh") i = b.heatMax * s.freqMins / 60) := by
  have d := run_dispatch h hs
  refine ⟨fun hg ht => ?_, fun hl ht => ?_, fun b hb hb0 hx => ?_⟩
  · have := spill_import hs.clear hs.named d (run_greenest h hS hs) ha hi hg ht
    rwa [ite_self] at this
  · have := spill_export hs.clear hs.named d (run_greenest h hS hs) ha hi hl ht
    rwa [ite_self] at this
  · rcases ((d.assets _ hb : b.Plays s V).heat i hi).2.eq_or_lt with z | z
    · exact z
    · have := spill_boiler hs.clear hs.named d (run_greenest h hS hs) ha hb (lt_trans (by norm_num) hb0) hi hx z
      unfold spillPenalty at this
      linarith

end

/-! ### C88: batteries -/

section
variable {c : BatteryCfg} (hm : Asset.battery c ∈ s.assets) {a b : Nat} (ha : a < s.data.n) (hb : b < s.data.n)
include hm ha hb

/-- C88: no profitable move is left: where the battery could take one more MWh in one interval and give it back in another, and the connection has room
for both, what comes back is worth no more than what goes in. -/
theorem C88_arbitrage (h : Run s (.str "price") flags S r V) (hS : S.Exact) (hs : s.Ordinary) (h0 : 0 < c.efficiency) (h1 : c.efficiency ≤ 1)
    (hne : a ≠ b) (hmove : c.CanMove s V a b) (htake : s.CanTake V a) (hgive : s.CanGive V b) : c.efficiency * s.givePrice V b ≤ s.takePrice V a :=
  battery_arbitrage hs.clear hs.named (run_dispatch h hs) (run_cheapest h hS hs) hm h0 h1 ha hb hne hmove htake hgive

/-- C88: no move is made at a loss: where the battery moves energy from one interval to another and the connection has room to undo it, what comes back is
worth at least what goes in. -/
theorem C88_worth (h : Run s (.str "price") flags S r V) (hS : S.Exact) (hs : s.Ordinary) (h0 : 0 < c.efficiency)
    (hmove : c.Moves V a b) (hgive : s.CanGive V a) (htake : s.CanTake V b) : s.givePrice V a ≤ c.efficiency * s.takePrice V b :=
  battery_worth hs.clear hs.named (run_dispatch h hs) (run_cheapest h hS hs) hm h0 ha hb hmove hgive htake

/-- C88: for carbon: no move that saves emissions is left. -/
theorem C88_carbon_arbitrage (h : Run s (.str "carbon") flags S r V) (hS : S.Exact) (hs : s.Ordinary) (h0 : 0 < c.efficiency) (h1 : c.efficiency ≤ 1)
    (hne : a ≠ b) (hmove : c.CanMove s V a b) (htake : s.CanTake V a) (hgive : s.CanGive V b) :
    c.efficiency * s.data.electricityCarbonIntensities.getD b 0 ≤ s.data.electricityCarbonIntensities.getD a 0 := by
  have := battery_arbitrage hs.clear hs.named (run_dispatch h hs) (run_greenest h hS hs) hm h0 h1 ha hb hne hmove htake hgive
  rwa [ite_self, ite_self] at this

/-- C88: for carbon: no move is made that adds emissions. -/
theorem C88_carbon_worth (h : Run s (.str "carbon") flags S r V) (hS : S.Exact) (hs : s.Ordinary) (h0 : 0 < c.efficiency)
    (hmove : c.Moves V a b) (hgive : s.CanGive V a) (htake : s.CanTake V b) :
    s.data.electricityCarbonIntensities.getD a 0 ≤ c.efficiency * s.data.electricityCarbonIntensities.getD b 0 := by
  have := battery_worth hs.clear hs.named (run_dispatch h hs) (run_greenest h hS hs) hm h0 ha hb hmove hgive htake
  rwa [ite_self, ite_self] at this

end

end

/-! ### Concrete cases -/

/-- C85: wind of 5 MWh behind an export limit of 3 MW: 3 MWh are sold, and the export is at its limit. -/
example : ∃ (s : Site) (S : Solver) (r : SimResult) (V : String → Nat → ℚ), Run s (.str "price") {} S r V ∧ S.Exact ∧ s.Ordinary ∧
    Asset.renewable poolWind ∈ s.assets ∧ 0 < s.data.n ∧ 0 < s.data.electricityPrices.getD 0 0 ∧ 0 < s.data.exportElectricityPrices.getD 0 0 ∧
    V "wind-electric_generation_mwh" 0 = 3 ∧ V "site-export_power_mwh" 0 = s.exportLimit * s.freqMins / 60 := by
  obtain ⟨s, r, V, S, hs, hS, h, ht⟩ := Demo.runOptimal demoNarrow_test
  have d := marginDemo h ht
  have hn : 0 < s.data.n := by rw [d.data]; decide
  refine ⟨s, S, r, V, h, hS, marginDemo_ordinary d (by decide +kernel) rfl, by rw [d.assets]; simp, hn, by rw [d.data]; decide +kernel,
    by rw [d.data]; decide +kernel, d.cells ("wind-electric_generation_mwh", 0, 3) (by simp) hn, ?_⟩
  rw [d.exportLimit, d.freq]
  exact (d.cells ("site-export_power_mwh", 0, 3) (by simp) hn).trans (by norm_num)

/-- C85: where export costs money the wind is curtailed although the connection has room. -/
example : ∃ (s : Site) (S : Solver) (r : SimResult) (V : String → Nat → ℚ), Run s (.str "price") {} S r V ∧ S.Exact ∧ s.Ordinary ∧
    Asset.renewable poolWind ∈ s.assets ∧ 0 < s.data.n ∧ V "wind-electric_generation_mwh" 0 < poolWind.generation.getD 0 0 ∧ s.CanGive V 0 ∧
    s.givePrice V 0 = -1 := by
  obtain ⟨s, r, V, S, hs, hS, h, ht⟩ := Demo.runOptimal demoNegative_test
  have d := marginDemo h ht
  have hn : 0 < s.data.n := by rw [d.data]; decide
  have e1 := d.cells ("wind-electric_generation_mwh", 0, 0) (by simp) hn
  have e2 := d.cells ("site-import_power_mwh", 0, 0) (by simp) hn
  have e3 := d.cells ("site-export_power_mwh", 0, 0) (by simp) hn
  simp only at e1 e2 e3
  refine ⟨s, S, r, V, h, hS, marginDemo_ordinary d (by decide +kernel) rfl, by rw [d.assets]; simp, hn, ?_, .inr ?_, ?_⟩
  · rw [e1]; decide +kernel
  · rw [e3, d.exportLimit, d.freq]; norm_num
  · unfold Site.givePrice
    rw [e2, d.data]; rfl

/-- C85: where export earns money all of the wind is sold, and the site could do with less. -/
example : ∃ (s : Site) (S : Solver) (r : SimResult) (V : String → Nat → ℚ), Run s (.str "price") {} S r V ∧ S.Exact ∧ s.Ordinary ∧
    Asset.renewable poolWind ∈ s.assets ∧ 0 < s.data.n ∧ poolWind.lowerBoundPct * poolWind.generation.getD 0 0 < V "wind-electric_generation_mwh" 0 ∧
    s.CanTake V 0 ∧ s.takePrice V 0 = 2 := by
  obtain ⟨s, r, V, S, hs, hS, h, ht⟩ := Demo.runOptimal demoFarm_full
  have d := marginDemo h ht
  have hn : 0 < s.data.n := by rw [d.data]; decide
  have e1 := d.cells ("wind-electric_generation_mwh", 0, 5) (by simp) hn
  have e3 := d.cells ("site-export_power_mwh", 0, 5) (by simp) hn
  simp only at e1 e3
  refine ⟨s, S, r, V, h, hS, marginDemo_ordinary d (by decide +kernel) rfl, by rw [d.assets]; simp, hn, ?_, .inl ?_, ?_⟩
  · rw [e1]; decide +kernel
  · rw [e3]; norm_num
  · unfold Site.takePrice
    rw [e3, d.data]
    rfl

/-- C85: the same for carbon. -/
example : ∃ (s : Site) (S : Solver) (r : SimResult) (V : String → Nat → ℚ), Run s (.str "carbon") {} S r V ∧ S.Exact ∧ s.Ordinary ∧
    Asset.renewable poolWind ∈ s.assets ∧ 0 < s.data.n ∧ poolWind.lowerBoundPct * poolWind.generation.getD 0 0 < V "wind-electric_generation_mwh" 0 ∧
    s.CanTake V 0 ∧ s.data.electricityCarbonIntensities.getD 0 0 = 1 / 10 := by
  obtain ⟨s, r, V, S, hs, hS, h, ht⟩ := Demo.runOptimal demoClean_test
  have d := marginDemo h ht
  have hn : 0 < s.data.n := by rw [d.data]; decide
  have e1 := d.cells ("wind-electric_generation_mwh", 0, 5) (by simp) hn
  have e3 := d.cells ("site-export_power_mwh", 0, 5) (by simp) hn
  simp only at e1 e3
  refine ⟨s, S, r, V, h, hS, marginDemo_ordinary d (by decide +kernel) rfl, by rw [d.assets]; simp, hn, ?_, .inl ?_, ?_⟩
  · rw [e1]; decide +kernel
  · rw [e3]; norm_num
  · rw [d.data]; rfl

/-- C86: 5 MWh of heat from a boiler of 3 MW with an efficiency of 90 % and one of 10 MW with 50 %: the good one runs at full power. -/
example : ∃ (s : Site) (S : Solver) (r : SimResult) (V : String → Nat → ℚ), Run s (.str "price") {} S r V ∧ S.Exact ∧ s.Ordinary ∧
    Asset.boiler goodBoiler ∈ s.assets ∧ Asset.boiler poorBoiler ∈ s.assets ∧ 0 < poorBoiler.efficiency ∧
    poorBoiler.efficiency < goodBoiler.efficiency ∧ 0 < s.data.n ∧ 0 < s.data.gasPrices.getD 0 0 ∧ V "goodboiler-high_temperature_generation_mwh" 0 = 3 ∧
    V "poorboiler-high_temperature_generation_mwh" 0 = 2 := by
  obtain ⟨s, r, V, S, hs, hS, h, ht⟩ := Demo.runOptimal demoOrderly_price
  have d := marginDemo h ht
  have hn : 0 < s.data.n := by rw [d.data]; decide
  exact ⟨s, S, r, V, h, hS, marginDemo_ordinary d (by decide +kernel) rfl, by rw [d.assets]; simp, by rw [d.assets]; simp, by decide +kernel,
    by decide +kernel, hn, by rw [d.data]; decide +kernel, d.cells ("goodboiler-high_temperature_generation_mwh", 0, 3) (by simp [orderlyCells]) hn,
    d.cells ("poorboiler-high_temperature_generation_mwh", 0, 2) (by simp [orderlyCells]) hn⟩

/-- C86: the same for carbon. -/
example : ∃ (s : Site) (S : Solver) (r : SimResult) (V : String → Nat → ℚ), Run s (.str "carbon") {} S r V ∧ S.Exact ∧ s.Ordinary ∧
    Asset.boiler goodBoiler ∈ s.assets ∧ Asset.boiler poorBoiler ∈ s.assets ∧ 0 < s.data.n ∧ V "goodboiler-high_temperature_generation_mwh" 0 = 3 ∧
    V "poorboiler-high_temperature_generation_mwh" 0 = 2 := by
  obtain ⟨s, r, V, S, hs, hS, h, ht⟩ := Demo.runOptimal demoOrderly_carbon
  have d := marginDemo h ht
  have hn : 0 < s.data.n := by rw [d.data]; decide
  exact ⟨s, S, r, V, h, hS, marginDemo_ordinary d (by decide +kernel) rfl, by rw [d.assets]; simp, by rw [d.assets]; simp,
    hn, d.cells ("goodboiler-high_temperature_generation_mwh", 0, 3) (by simp [orderlyCells]) hn,
    d.cells ("poorboiler-high_temperature_generation_mwh", 0, 2) (by simp [orderlyCells]) hn⟩

/-- C87: a load of 10 MWh against 3 MW of import and 5 MWh of wind, 5 MWh of heat against a boiler of 3 MW: the spill asset makes 2 MWh of either, and
everything else is at its limit. -/
example : ∃ (s : Site) (S : Solver) (r : SimResult) (V : String → Nat → ℚ), Run s (.str "price") {} S r V ∧ S.Exact ∧ s.Ordinary ∧
    Asset.spill ⟨"spill"⟩ ∈ s.assets ∧ Asset.renewable poolWind ∈ s.assets ∧ Asset.boiler goodBoiler ∈ s.assets ∧ 0 < s.data.n ∧
    |s.data.electricityPrices.getD 0 0| < spillPenalty ∧ |s.data.exportElectricityPrices.getD 0 0| < spillPenalty ∧
    0 < V "spill-electric_generation_mwh" 0 ∧ 0 < V "spill-high_temperature_generation_mwh" 0 ∧ V "site-import_power_mwh" 0 = 3 ∧
    V "wind-electric_generation_mwh" 0 = 5 ∧ V "goodboiler-high_temperature_generation_mwh" 0 = 3 := by
  obtain ⟨s, r, V, S, hs, hS, h, ht⟩ := Demo.runOptimal demoShort_test
  have d := marginDemo h ht
  have hn : 0 < s.data.n := by rw [d.data]; decide
  have e1 := d.cells ("spill-electric_generation_mwh", 0, 2) (by simp) hn
  have e2 := d.cells ("spill-high_temperature_generation_mwh", 0, 2) (by simp) hn
  simp only at e1 e2
  have hp : |(10 : ℚ)| < spillPenalty := by unfold spillPenalty; norm_num
  exact ⟨s, S, r, V, h, hS, marginDemo_ordinary d (by decide +kernel) rfl, by rw [d.assets]; simp, by rw [d.assets]; simp, by rw [d.assets]; simp, hn,
    by rw [d.data]; exact hp, by rw [d.data]; exact hp, by rw [e1]; norm_num, by rw [e2]; norm_num, d.cells ("site-import_power_mwh", 0, 3) (by simp) hn,
    d.cells ("wind-electric_generation_mwh", 0, 5) (by simp) hn, d.cells ("goodboiler-high_temperature_generation_mwh", 0, 3) (by simp) hn⟩

/-- C87: wind of 5 MWh that cannot be turned down behind an export limit of 3 MW: 2 MWh are thrown away. -/
example : ∃ (s : Site) (S : Solver) (r : SimResult) (V : String → Nat → ℚ), Run s (.str "price") {} S r V ∧ S.Exact ∧ s.Ordinary ∧
    Asset.spill ⟨"spill"⟩ ∈ s.assets ∧ Asset.renewable stubbornWind ∈ s.assets ∧ 0 < s.data.n ∧ 0 < V "spill-electric_load_mwh" 0 ∧
    V "site-export_power_mwh" 0 = s.exportLimit * s.freqMins / 60 ∧
    V "wind-electric_generation_mwh" 0 = stubbornWind.lowerBoundPct * stubbornWind.generation.getD 0 0 := by
  obtain ⟨s, r, V, S, hs, hS, h, ht⟩ := Demo.runOptimal demoLong_test
  have d := marginDemo h ht
  have hn : 0 < s.data.n := by rw [d.data]; decide
  have e1 := d.cells ("spill-electric_load_mwh", 0, 2) (by simp) hn
  simp only at e1
  refine ⟨s, S, r, V, h, hS, marginDemo_ordinary d (by decide +kernel) rfl, by rw [d.assets]; simp, by rw [d.assets]; simp, hn,
    by rw [e1]; norm_num, ?_, ?_⟩
  · rw [d.exportLimit, d.freq]
    exact (d.cells ("site-export_power_mwh", 0, 3) (by simp) hn).trans (by norm_num)
  · exact (d.cells ("wind-electric_generation_mwh", 0, 5) (by simp) hn).trans (by show (5 : ℚ) = 1 * 5; norm_num)

theorem movedDemo {s : Site} {r : SimResult} {V : String → Nat → ℚ} {d : SiteData} {q : ℚ} (hd : d.n = 2)
    (h : MarginDemo [.battery (growBattery 4)] d 10000 10000 q movedCells s r V) :
    (growBattery 4).Moves V 0 1 ∧ s.CanGive V 0 ∧ s.CanTake V 1 ∧ 0 < V "site-import_power_mwh" 0 ∧ V "site-export_power_mwh" 1 = 0 := by
  have hn : s.data.n = 2 := by rw [h.data, hd]
  have e1 := h.cells ("battery-electric_charge_mwh", 0, 4) (by simp [movedCells]) (by rw [hn]; decide)
  have e2 := h.cells ("battery-electric_discharge_mwh", 1, 4) (by simp [movedCells]) (by rw [hn]; decide)
  have e3 := h.cells ("battery-electric_final_charge_mwh", 0, 4) (by simp [movedCells]) (by rw [hn]; decide)
  have e4 := h.cells ("site-import_power_mwh", 0, 9) (by simp [movedCells]) (by rw [hn]; decide)
  have e5 := h.cells ("site-import_power_mwh", 1, 1) (by simp [movedCells]) (by rw [hn]; decide)
  have e6 := h.cells ("site-export_power_mwh", 1, 0) (by simp [movedCells]) (by rw [hn]; decide)
  simp only at e1 e2 e3 e4 e5 e6
  refine ⟨⟨?_, ?_, fun k h0 h1 => ?_, fun k h0 h1 => by omega⟩, .inl ?_, .inr ?_, ?_, e6⟩
  · exact lt_of_lt_of_eq (by norm_num) e1.symm
  · exact lt_of_lt_of_eq (by norm_num) e2.symm
  · obtain rfl : k = 0 := by omega
    exact lt_of_lt_of_eq (by norm_num) e3.symm
  · rw [e4]; norm_num
  · rw [e5, h.importLimit, h.freq]; norm_num
  · rw [e4]; norm_num

theorem idleDemo {s : Site} {r : SimResult} {V : String → Nat → ℚ} {d : SiteData} {q : ℚ} (hd : d.n = 2)
    (h : MarginDemo [.battery (growBattery 4)] d 10000 10000 q idleCells s r V) :
    (growBattery 4).CanMove s V 0 1 ∧ s.CanTake V 0 ∧ s.CanGive V 1 ∧ V "site-export_power_mwh" 0 = 0 ∧ 0 < V "site-import_power_mwh" 1 := by
  have hn : s.data.n = 2 := by rw [h.data, hd]
  have e1 := h.cells ("battery-electric_charge_mwh", 0, 0) (by simp [idleCells]) (by rw [hn]; decide)
  have e2 := h.cells ("battery-electric_discharge_mwh", 1, 0) (by simp [idleCells]) (by rw [hn]; decide)
  have e3 := h.cells ("battery-electric_charge_mwh", 1, 0) (by simp [idleCells]) (by rw [hn]; decide)
  have e4 := h.cells ("battery-electric_discharge_mwh", 0, 0) (by simp [idleCells]) (by rw [hn]; decide)
  have e5 := h.cells ("battery-electric_final_charge_mwh", 0, 0) (by simp [idleCells]) (by rw [hn]; decide)
  have e6 := h.cells ("site-import_power_mwh", 0, 5) (by simp [idleCells]) (by rw [hn]; decide)
  have e7 := h.cells ("site-export_power_mwh", 0, 0) (by simp [idleCells]) (by rw [hn]; decide)
  have e8 := h.cells ("site-import_power_mwh", 1, 5) (by simp [idleCells]) (by rw [hn]; decide)
  simp only at e1 e2 e3 e4 e5 e6 e7 e8
  have hpos : ∀ q : ℚ, q = 4 → (0 : ℚ) < min (q * s.freqMins / 60) 4 := by
    rintro q rfl
    rw [h.freq]
    exact lt_min (by norm_num) (by norm_num)
  refine ⟨⟨?_, ?_, e4, e3, fun k h0 h1 => ?_, fun k h0 h1 => by omega⟩, .inr ?_, .inl ?_, e7, ?_⟩
  · exact lt_of_eq_of_lt e1 (hpos _ rfl)
  · exact lt_of_eq_of_lt e2 (hpos _ rfl)
  · obtain rfl : k = 0 := by omega
    exact lt_of_eq_of_lt e5 (by show (0 : ℚ) < 4; norm_num)
  · rw [e6, h.importLimit, h.freq]; norm_num
  · rw [e8]; norm_num
  · rw [e8]; norm_num

/-- C88: prices 10 and 100: the battery of 4 MWh moves energy bought at 10 to save 100. -/
example : ∃ (s : Site) (S : Solver) (r : SimResult) (V : String → Nat → ℚ), Run s (.str "price") {} S r V ∧ S.Exact ∧ s.Ordinary ∧
    Asset.battery (growBattery 4) ∈ s.assets ∧ 1 < s.data.n ∧ 0 < (growBattery 4).efficiency ∧ (growBattery 4).Moves V 0 1 ∧ s.CanGive V 0 ∧ s.CanTake V 1 ∧
    s.givePrice V 0 = 10 ∧ s.takePrice V 1 = 100 := by
  obtain ⟨s, r, V, S, hs, hS, h, ht⟩ := Demo.runOptimal demoMoved_price
  have d := marginDemo h ht
  obtain ⟨m1, m2, m3, m4, m5⟩ := movedDemo rfl d
  refine ⟨s, S, r, V, h, hS, marginDemo_ordinary d (by decide +kernel) rfl, by rw [d.assets]; simp, by rw [d.data]; decide, by decide +kernel, m1, m2, m3, ?_, ?_⟩
  · unfold Site.givePrice
    rw [if_pos m4, d.data]; rfl
  · unfold Site.takePrice
    rw [m5, d.data]; rfl

/-- C88: the same for carbon, with intensities of 0.1 and 1. -/
example : ∃ (s : Site) (S : Solver) (r : SimResult) (V : String → Nat → ℚ), Run s (.str "carbon") {} S r V ∧ S.Exact ∧ s.Ordinary ∧
    Asset.battery (growBattery 4) ∈ s.assets ∧ 1 < s.data.n ∧ (growBattery 4).Moves V 0 1 ∧ s.CanGive V 0 ∧ s.CanTake V 1 ∧
    s.data.electricityCarbonIntensities.getD 0 0 = 1 / 10 ∧ s.data.electricityCarbonIntensities.getD 1 0 = 1 := by
  obtain ⟨s, r, V, S, hs, hS, h, ht⟩ := Demo.runOptimal demoMoved_carbon
  have d := marginDemo h ht
  obtain ⟨m1, m2, m3, m4, m5⟩ := movedDemo rfl d
  exact ⟨s, S, r, V, h, hS, marginDemo_ordinary d (by decide +kernel) rfl, by rw [d.assets]; simp, by rw [d.data]; decide, m1, m2, m3,
    by rw [d.data]; rfl, by rw [d.data]; rfl⟩

/-- C88: at a constant price of 55 the battery stays idle: it could move energy but would gain nothing. -/
example : ∃ (s : Site) (S : Solver) (r : SimResult) (V : String → Nat → ℚ), Run s (.str "price") {} S r V ∧ S.Exact ∧ s.Ordinary ∧
    Asset.battery (growBattery 4) ∈ s.assets ∧ 1 < s.data.n ∧ 0 < (growBattery 4).efficiency ∧ (growBattery 4).efficiency ≤ 1 ∧
    (growBattery 4).CanMove s V 0 1 ∧ s.CanTake V 0 ∧ s.CanGive V 1 ∧ s.takePrice V 0 = 55 ∧ s.givePrice V 1 = 55 := by
  obtain ⟨s, r, V, S, hs, hS, h, ht⟩ := Demo.runOptimal demoIdle_price
  have d := marginDemo h ht
  obtain ⟨m1, m2, m3, m4, m5⟩ := idleDemo rfl d
  refine ⟨s, S, r, V, h, hS, marginDemo_ordinary d (by decide +kernel) rfl, by rw [d.assets]; simp, by rw [d.data]; decide, by decide +kernel,
    by decide +kernel, m1, m2, m3, ?_, ?_⟩
  · unfold Site.takePrice
    rw [m4, d.data]; rfl
  · unfold Site.givePrice
    rw [if_pos m5, d.data]; rfl

/-- C88: with falling carbon intensities the battery stays idle for carbon. -/
example : ∃ (s : Site) (S : Solver) (r : SimResult) (V : String → Nat → ℚ), Run s (.str "carbon") {} S r V ∧ S.Exact ∧ s.Ordinary ∧
    Asset.battery (growBattery 4) ∈ s.assets ∧ 1 < s.data.n ∧ (growBattery 4).CanMove s V 0 1 ∧ s.CanTake V 0 ∧ s.CanGive V 1 ∧
    s.data.electricityCarbonIntensities.getD 0 0 = 9 / 10 ∧ s.data.electricityCarbonIntensities.getD 1 0 = 1 / 10 := by
  obtain ⟨s, r, V, S, hs, hS, h, ht⟩ := Demo.runOptimal demoIdle_carbon
  have d := marginDemo h ht
  obtain ⟨m1, m2, m3, m4, m5⟩ := idleDemo rfl d
  exact ⟨s, S, r, V, h, hS, marginDemo_ordinary d (by decide +kernel) rfl, by rw [d.assets]; simp, by rw [d.data]; decide, m1, m2, m3,
    by rw [d.data]; rfl, by rw [d.data]; rfl⟩

end EPL
