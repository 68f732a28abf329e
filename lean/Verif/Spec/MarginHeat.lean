/-
CHPs and heat pumps at the margin: where their low temperature heat can go to or come from.
-/
import Verif.Spec.Margin

namespace EPL

/-- The site can get rid of more low temperature heat: it has a spill asset. -/
def Site.CanDump (s : Site) : Prop := ∃ c : SpillCfg, Asset.spill c ∈ s.assets

/-- The site throws low temperature heat away in interval `i`: a spill asset takes some. -/
def Site.Dumps (s : Site) (V : String → Nat → ℚ) (i : Nat) : Prop :=
  ∃ c : SpillCfg, Asset.spill c ∈ s.assets ∧ 0 < V (c.name ++ "-low_temperature_load_mwh") i

/-- The boiler could make a little less heat in interval `i`. -/
def BoilerCfg.CanDrop (b : BoilerCfg) (s : Site) (V : String → Nat → ℚ) (i : Nat) : Prop :=
  0 < V (b.name ++ "-high_temperature_generation_mwh") i ∧ b.heatMin * s.freqMins / 60 < V (b.name ++ "-high_temperature_generation_mwh") i

/-- The boiler could make a little more heat in interval `i`. -/
def BoilerCfg.CanRise (b : BoilerCfg) (s : Site) (V : String → Nat → ℚ) (i : Nat) : Prop :=
  V (b.name ++ "-high_temperature_generation_mwh") i < b.heatMax * s.freqMins / 60

/-- The CHP could make a little more electricity in interval `i`: it is at or above its minimum and below its maximum. -/
def ChpCfg.CanRise (c : ChpCfg) (s : Site) (V : String → Nat → ℚ) (i : Nat) : Prop :=
  c.powerMin * s.freqMins / 60 ≤ V (c.name ++ "-electric_generation_mwh") i ∧ V (c.name ++ "-electric_generation_mwh") i < c.powerMax * s.freqMins / 60

/-- The CHP could make a little less electricity in interval `i`: it is above its minimum. -/
def ChpCfg.CanDrop (c : ChpCfg) (s : Site) (V : String → Nat → ℚ) (i : Nat) : Prop :=
  0 < V (c.name ++ "-electric_generation_mwh") i ∧ c.powerMin * s.freqMins / 60 < V (c.name ++ "-electric_generation_mwh") i

end EPL
