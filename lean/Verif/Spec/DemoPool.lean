/-
Demonstrations for pooling: a wind farm and a factory, each with its own meter and behind one meter.
-/
import Verif.Spec.DemoGrowth
import Verif.Spec.Pool

namespace EPL

/-- Wind with 5 MWh in its only interval. -/
def poolWind : RenewableCfg where
  name := "wind"
  lowerBoundPct := 0
  generation := [5]
  isArray := true
  idxLen := 1
  freqMins := 60

/-- The wind farm: it sells at 2. -/
def demoFarm : Demo where
  assets := [.renewable poolWind]
  raw := { electricityPrices := prices [10], exportElectricityPrices := prices [2] }
  objective := .str "price"
  answer := [ (.site "export_power_mw" 0, 5), (.site "export_power_bin" 0, 1), (.tagged "electric_generation_mwh" 0 "wind", 5) ]

/-- The factory: it buys at 10. -/
def demoFactory : Demo where
  assets := [.spill ⟨"spill"⟩]
  raw := { electricityPrices := prices [10], exportElectricityPrices := prices [2], electricLoad := prices [4] }
  objective := .str "price"
  answer := [ (.site "import_power_mw" 0, 4), (.site "import_power_bin" 0, 1) ]

/-- Both behind one meter: the wind covers the load and sells the rest. -/
def demoBoth : Demo where
  assets := [.renewable poolWind, .spill ⟨"spill"⟩]
  raw := { electricityPrices := prices [10], exportElectricityPrices := prices [2], electricLoad := prices [4] }
  importLimit := 20000
  exportLimit := 20000
  objective := .str "price"
  answer := [ (.site "export_power_mw" 0, 1), (.site "export_power_bin" 0, 1), (.tagged "electric_generation_mwh" 0 "wind", 5) ]

set_option maxRecDepth 10000 in
theorem demoFarm_test : demoFarm.testOptimal [-2]
    [ (continuous (.site "import_power_mw" 0) (up := some 10000), 8), (continuous (.tagged "electric_generation_mwh" 0 "wind") (up := some 5), -2) ]
    (fun s r => decide (s.assets = [.renewable poolWind]) && decide (r.status.objective = some (-10))) = true := by
  decide +kernel

set_option maxRecDepth 10000 in
theorem demoFactory_test : demoFactory.testOptimal [-10, 0, 0, 0, -10 ^ 11]
    [ (continuous (.site "export_power_mw" 0) (up := some 10000), 8), (continuous (.asset "spill" "electric_generation_mwh" 0), 10 ^ 11 - 10),
      (continuous (.asset "spill" "electric_load_mwh" 0), 10 ^ 11 + 10) ]
    (fun s r => decide (s.assets = [.spill ⟨"spill"⟩]) && decide (r.status.objective = some 40)) = true := by
  decide +kernel

set_option maxRecDepth 10000 in
theorem demoBoth_test : demoBoth.testOptimal [-2, 0, 0, 0, -10 ^ 11]
    [ (continuous (.site "import_power_mw" 0) (up := some 20000), 8), (continuous (.asset "spill" "electric_generation_mwh" 0), 10 ^ 11 - 2),
      (continuous (.asset "spill" "electric_load_mwh" 0), 10 ^ 11 + 2), (continuous (.tagged "electric_generation_mwh" 0 "wind") (up := some 5), -2) ]
    (fun s r => decide (s.assets = [.renewable poolWind, .spill ⟨"spill"⟩]) && decide (r.status.objective = some (-2))) = true := by
  decide +kernel

end EPL
