/-
Demonstrations for weighted custom objectives: cost and emissions of the battery of the growth demonstration.
-/
import Verif.Spec.DemoPrices

namespace EPL

/-- Imports cost the price, exports earn it. -/
def weightsCost : List Term :=
  [ { attr := "import_power_mwh", assetType := some "site", intervalData := some "electricity_prices" },
    { attr := "export_power_mwh", assetType := some "site", intervalData := some "electricity_prices", coefficient := -1 } ]

/-- Emissions of the net import. -/
def weightsCarbon (w : ℚ) : List Term :=
  [ { attr := "import_power_mwh", assetType := some "site", intervalData := some "electricity_carbon_intensities", coefficient := w },
    { attr := "export_power_mwh", assetType := some "site", intervalData := some "electricity_carbon_intensities", coefficient := -w } ]

/-- Cost and weighted emissions, with prices 10, 100 and carbon intensities 90, -90. -/
def demoWeights (w : ℚ) (answer : List (VarId × ℚ)) : Demo where
  assets := [.battery (growBattery 4)]
  raw := { electricityPrices := prices [10, 100], electricityCarbonIntensities := prices [90, -90], electricLoad := prices [5, 5] }
  objective := .custom ((weightsCost ++ weightsCarbon w).map .simple)
  answer := answer

set_option maxRecDepth 10000 in
/-- A low weight: electricity is worth 20, then 90. -/
theorem demoWeights_low : (demoWeights (1/9) (demoGrow 4).answer).testOptimal
    [-20, 0, 0, 0, 0, 0, 70, 0, 280, -90, -90, -90, 0, 0, 0, 0, 0, 0, 0, 0, -90, -90, -90, 90, -90]
    [ (continuous (.asset "battery" "electric_discharge_mwh" 0) (up := some 4), 70), (binary (.asset "battery" "electric_discharge_binary" 0), 280) ]
    (pricesTest 270) = true := by
  decide +kernel

set_option maxRecDepth 10000 in
/-- A high weight: electricity is worth 100, then 10. -/
theorem demoWeights_high : (demoWeights 1 idleAnswer).testOptimal (idleLam 100 10) (idleMu 100 10) (pricesTest 550) = true := by
  decide +kernel

end EPL
