/-
Where the energy of a site comes from and where it goes.
-/
import Verif.Spec.Losses

namespace EPL

/-- The energy an asset brings into the site from outside in interval `i`: gas, sun and wind, and what a spill makes up. -/
def Asset.supplied (V : String → Nat → ℚ) (i : Nat) : Asset → ℚ
  | .boiler c => V (c.name ++ "-gas_consumption_mwh") i
  | .chp c => V (c.name ++ "-gas_consumption_mwh") i
  | .renewable c => V (c.name ++ "-electric_generation_mwh") i
  | .spill c => V (c.name ++ "-electric_generation_mwh") i + V (c.name ++ "-high_temperature_generation_mwh") i
  | _ => 0

/-- The energy an asset wastes in interval `i`: what the efficiencies leave, and what a spill throws away. -/
def Asset.wasted (V : String → Nat → ℚ) (i : Nat) : Asset → ℚ
  | .boiler c => (1 - c.efficiency) * V (c.name ++ "-gas_consumption_mwh") i
  | .chp c => (1 - c.electricEfficiency - c.htEfficiency - c.ltEfficiency) * V (c.name ++ "-gas_consumption_mwh") i
  | .battery c => (1 - c.efficiency) * V (c.name ++ "-electric_charge_mwh") i
  | .evs c => (c.events.zipIdx.map (fun e => (1 - e.1.efficiency) *
      V (c.name ++ "-charge-event-" ++ toString e.2 ++ "-electric_charge_mwh") i)).sum
  | .spill c => V (c.name ++ "-electric_load_mwh") i + V (c.name ++ "-low_temperature_load_mwh") i
  | _ => 0

/-- A CHP whose electricity is tied to its gas: it has an electric efficiency, or it makes no electricity. -/
def ChpCfg.Tied (c : ChpCfg) : Prop := 0 < c.electricEfficiency ∨ (c.electricEfficiency = 0 ∧ c.powerMax = 0)

/-- An asset that cannot give more energy than it takes.  Spills can. -/
def Asset.Physical : Asset → Prop
  | .battery c => c.efficiency ≤ 1
  | .chp c => c.Tied ∧ c.electricEfficiency + c.htEfficiency + c.ltEfficiency ≤ 1 ∧
      (0 < c.electricEfficiency ∨ c.htEfficiency ≠ 0 ∨ c.ltEfficiency ≠ 0)
  | .evs c => ∀ e ∈ c.events, e.efficiency ≤ 1
  | .spill _ => False
  | _ => True

/-- An asset that takes no energy from outside the site. -/
def Asset.Closed : Asset → Prop
  | .battery _ => True
  | .evs _ => True
  | .heatPump _ => True
  | .valve _ => True
  | _ => False

end EPL
