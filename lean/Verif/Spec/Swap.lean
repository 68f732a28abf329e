/-
Replacing some assets of a site by others.
-/
import Verif.Spec.Margin
import Verif.Spec.Idle

namespace EPL

/-- The same site with other assets. -/
def Site.withAssets (s : Site) (l : List Asset) : Site := { s with assets := l }

/-- The second asset is the first with a better fuel efficiency: a boiler with a higher efficiency, or a CHP that makes `k ≥ 1` times the electricity and heat
from a MWh of gas. -/
inductive Asset.Thriftier : Asset → Asset → Prop
  | boiler (c : BoilerCfg) (η : ℚ) : 0 < c.efficiency → c.efficiency ≤ η → Asset.Thriftier (.boiler c) (.boiler { c with efficiency := η })
  | chp (c : ChpCfg) (k : ℚ) : 1 ≤ k → Asset.Thriftier (.chp c) (.chp { c with
      electricEfficiency := k * c.electricEfficiency, htEfficiency := k * c.htEfficiency, ltEfficiency := k * c.ltEfficiency })

/-- The asset does nothing: none of the flows it reports moves. -/
def Asset.StandsStill (a : Asset) (V : String → Nat → ℚ) (n : Nat) : Prop := ∀ q ∈ a.flows, ∀ k ∈ a.reports q, ∀ i < n, V k i = 0

/-- One asset that can do exactly what two can do together: a boiler with the sum of their limits, a heat pump with the sum of their powers, a renewable
generator with the sum of what is available. -/
inductive Asset.Joins : Asset → Asset → Asset → Prop
  | boiler (b c d : BoilerCfg) : 0 < d.efficiency → b.efficiency = d.efficiency → c.efficiency = d.efficiency → 0 ≤ b.heatMin → b.heatMin ≤ b.heatMax →
      0 ≤ c.heatMin → c.heatMin ≤ c.heatMax → d.heatMin = b.heatMin + c.heatMin → d.heatMax = b.heatMax + c.heatMax →
      Asset.Joins (.boiler b) (.boiler c) (.boiler d)
  | heatPump (b c d : HeatPumpCfg) : 1 ≤ d.cop → b.cop = d.cop → c.cop = d.cop → 0 ≤ b.power → 0 ≤ c.power → d.power = b.power + c.power →
      Asset.Joins (.heatPump b) (.heatPump c) (.heatPump d)
  | renewable (b c d : RenewableCfg) : b.lowerBoundPct = d.lowerBoundPct → c.lowerBoundPct = d.lowerBoundPct → 0 ≤ d.lowerBoundPct → d.lowerBoundPct ≤ 1 →
      (∀ i, 0 ≤ b.generation.getD i 0) → (∀ i, 0 ≤ c.generation.getD i 0) →
      (∀ i, d.generation.getD i 0 = b.generation.getD i 0 + c.generation.getD i 0) → Asset.Joins (.renewable b) (.renewable c) (.renewable d)

end EPL
