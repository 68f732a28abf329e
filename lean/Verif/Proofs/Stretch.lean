/-
Assets without memory: rows of a valid dispatch, all multiplied by one positive number, are rows of a valid dispatch for limits multiplied by that number.
-/
import Verif.Proofs.Basic
import Verif.Spec.Dispatch

namespace EPL

section
variable {s s' : Site} {q : ℚ} {g : Nat → Nat} {W W' : String → Nat → ℚ} {flags flags' : Flags}

/-- The columns of a unit in the new table are the rows `g` of the old table, multiplied by `q`. -/
def Stretched (q : ℚ) (g : Nat → Nat) (W W' : String → Nat → ℚ) (unit : String) (lits : List String) : Prop :=
  ∀ lit ∈ lits, ∀ i, W' (unit ++ lit) i = q * W (unit ++ lit) (g i)

theorem boiler_stretch {c c' : BoilerCfg} (hq : 0 < q) (hg : ∀ i < s'.data.n, g i < s.data.n) (hn : c'.name = c.name) (hη : c'.efficiency = c.efficiency)
    (hmin : c'.heatMin * s'.freqMins / 60 = q * (c.heatMin * s.freqMins / 60)) (hmax : c'.heatMax * s'.freqMins / 60 = q * (c.heatMax * s.freqMins / 60))
    (hW : Stretched q g W W' c.name ["-gas_consumption_mwh", "-high_temperature_generation_mwh"]) (h : c.Plays s W) : c'.Plays s' W' := by
  have w1 := hW "-gas_consumption_mwh" (by simp)
  have w2 := hW "-high_temperature_generation_mwh" (by simp)
  refine ⟨fun i hi => ?_, fun i hi => ?_, fun i hi => ?_⟩
  · rw [hn, hη, w1, w2, ← h.efficiency _ (hg i hi)]
    ring
  · rw [hn, w2, hmin, hmax]
    exact ⟨mul_le_mul_of_nonneg_left (h.heat _ (hg i hi)).1 hq.le, mul_le_mul_of_nonneg_left (h.heat _ (hg i hi)).2 hq.le⟩
  · rw [hn, w1]
    exact mul_nonneg hq.le (h.gas _ (hg i hi))

theorem chp_stretch {c c' : ChpCfg} (hq : 0 < q) (hg : ∀ i < s'.data.n, g i < s.data.n) (hn : c'.name = c.name)
    (he : c'.electricEfficiency = c.electricEfficiency) (hh : c'.htEfficiency = c.htEfficiency) (hl : c'.ltEfficiency = c.ltEfficiency)
    (hmin : c'.powerMin * s'.freqMins / 60 = q * (c.powerMin * s.freqMins / 60)) (hmax : c'.powerMax * s'.freqMins / 60 = q * (c.powerMax * s.freqMins / 60))
    (hW : Stretched q g W W' c.name ["-gas_consumption_mwh", "-electric_generation_mwh", "-high_temperature_generation_mwh",
      "-low_temperature_generation_mwh"]) (h : c.Plays s W) : c'.Plays s' W' := by
  have w1 := hW "-gas_consumption_mwh" (by simp)
  have w2 := hW "-electric_generation_mwh" (by simp)
  have w3 := hW "-high_temperature_generation_mwh" (by simp)
  have w4 := hW "-low_temperature_generation_mwh" (by simp)
  refine ⟨fun i hi hp => ?_, fun i hi => ?_, fun i hi => ?_, fun i hi => ?_, fun i hi => ?_⟩
  · rw [he] at hp
    rw [hn, he, w1, w2, h.electric _ (hg i hi) hp]
    ring
  · rw [hn, hh, w1, w3, h.high _ (hg i hi)]
    ring
  · rw [hn, hl, w1, w4, h.low _ (hg i hi)]
    ring
  · obtain ⟨p1, p2, p3, p4⟩ := h.positive _ (hg i hi)
    rw [hn, w1, w2, w3, w4]
    exact ⟨mul_nonneg hq.le p1, mul_nonneg hq.le p2, mul_nonneg hq.le p3, mul_nonneg hq.le p4⟩
  · obtain ⟨r1, r2⟩ := h.range _ (hg i hi)
    rw [hn, w2, hmin, hmax]
    refine ⟨mul_le_mul_of_nonneg_left r1 hq.le, ?_⟩
    rcases r2 with r2 | r2
    · exact .inl (by rw [r2, mul_zero])
    · exact .inr (mul_le_mul_of_nonneg_left r2 hq.le)

theorem heatPump_stretch {c c' : HeatPumpCfg} (hq : 0 < q) (hg : ∀ i < s'.data.n, g i < s.data.n) (hn : c'.name = c.name) (hc : c'.cop = c.cop)
    (hp : c'.power * s'.freqMins / 60 = q * (c.power * s.freqMins / 60))
    (hW : Stretched q g W W' c.name ["-high_temperature_generation_mwh", "-low_temperature_load_mwh", "-electric_load_mwh"]) (h : c.Plays s W) :
    c'.Plays s' W' := by
  have w1 := hW "-high_temperature_generation_mwh" (by simp)
  have w2 := hW "-low_temperature_load_mwh" (by simp)
  have w3 := hW "-electric_load_mwh" (by simp)
  refine ⟨fun i hi => ?_, fun i hi => ?_, fun i hi => ?_, fun i hi => ?_⟩
  · rw [hn, hc, w1, w3, h.high _ (hg i hi)]
    ring
  · rw [hn, hc, w2, w3, h.low _ (hg i hi)]
    ring
  · rw [hn, w3, hp]
    exact ⟨mul_nonneg hq.le (h.load _ (hg i hi)).1, mul_le_mul_of_nonneg_left (h.load _ (hg i hi)).2 hq.le⟩
  · rw [hn, w1, w2]
    exact ⟨mul_nonneg hq.le (h.positive _ (hg i hi)).1, mul_nonneg hq.le (h.positive _ (hg i hi)).2⟩

theorem renewable_stretch {c c' : RenewableCfg} (hq : 0 < q) (hg : ∀ i < s'.data.n, g i < s.data.n) (hn : c'.name = c.name)
    (hl : c'.lowerBoundPct = c.lowerBoundPct) (hgen : ∀ i, c'.generation.getD i 0 = q * c.generation.getD (g i) 0)
    (hW : Stretched q g W W' c.name ["-electric_generation_mwh"]) (h : c.Plays s W) : c'.Plays s' W' := by
  have w1 := hW "-electric_generation_mwh" (by simp)
  refine ⟨fun i hi => ?_⟩
  obtain ⟨g1, g2⟩ := h.generation _ (hg i hi)
  rw [hn, hl, hgen, w1]
  refine ⟨?_, mul_le_mul_of_nonneg_left g2 hq.le⟩
  have := mul_le_mul_of_nonneg_left g1 hq.le
  linarith

theorem spill_stretch {c : SpillCfg} (hq : 0 < q) (hg : ∀ i < s'.data.n, g i < s.data.n)
    (hW : Stretched q g W W' c.name ["-electric_generation_mwh", "-electric_load_mwh", "-high_temperature_generation_mwh", "-low_temperature_load_mwh",
      "-low_temperature_generation_mwh", "-high_temperature_load_mwh", "-gas_consumption_mwh"]) (h : c.Plays s W) : c.Plays s' W' := by
  have w1 := hW "-electric_generation_mwh" (by simp)
  have w2 := hW "-electric_load_mwh" (by simp)
  have w3 := hW "-high_temperature_generation_mwh" (by simp)
  have w4 := hW "-low_temperature_load_mwh" (by simp)
  have w5 := hW "-low_temperature_generation_mwh" (by simp)
  have w6 := hW "-high_temperature_load_mwh" (by simp)
  have w7 := hW "-gas_consumption_mwh" (by simp)
  refine ⟨fun i hi => ?_, fun i hi => ?_⟩
  · obtain ⟨p1, p2, p3, p4⟩ := h.positive _ (hg i hi)
    rw [w1, w2, w3, w4]
    exact ⟨mul_nonneg hq.le p1, mul_nonneg hq.le p2, mul_nonneg hq.le p3, mul_nonneg hq.le p4⟩
  · obtain ⟨p1, p2, p3⟩ := h.nothing _ (hg i hi)
    rw [w5, w6, w7, p1, p2, p3]
    simp

theorem valve_stretch {c : ValveCfg} (hq : 0 < q) (hg : ∀ i < s'.data.n, g i < s.data.n)
    (hW : Stretched q g W W' c.name ["-high_temperature_load_mwh", "-low_temperature_generation_mwh"]) (h : c.Plays s W) : c.Plays s' W' := by
  have w1 := hW "-high_temperature_load_mwh" (by simp)
  have w2 := hW "-low_temperature_generation_mwh" (by simp)
  refine ⟨fun i hi => ?_⟩
  rw [w1, w2, (h.passes _ (hg i hi)).1]
  refine ⟨rfl, mul_nonneg hq.le ?_⟩
  rw [← (h.passes _ (hg i hi)).1]
  exact (h.passes _ (hg i hi)).2

end

end EPL
