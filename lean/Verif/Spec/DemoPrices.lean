/-
Demonstrations for prices: the battery of 4 MWh of the growth demonstration, for price and for carbon and under other prices.
-/
import Verif.Spec.DemoGrowth
import Verif.Spec.Prices

namespace EPL

/-- A site with a battery of 4 MWh, two intervals with loads of 5 MWh and the given prices and carbon intensities. -/
def demoPrices (electricity exports carbon gas : List ℚ) (objective : String) (answer : List (VarId × ℚ)) : Demo where
  assets := [.battery (growBattery 4)]
  raw := { electricityPrices := prices electricity, exportElectricityPrices := prices exports,
           electricityCarbonIntensities := prices carbon, gasPrices := prices gas,
           electricLoad := prices [5, 5] }
  objective := .str objective
  answer := answer

/-- The battery does nothing. -/
def idleAnswer : List (VarId × ℚ) :=
  [ (.site "import_power_mw" 0, 5), (.site "import_power_bin" 0, 1), (.site "import_power_mw" 1, 5), (.site "import_power_bin" 1, 1) ]

/-- The multipliers that prove it optimal when electricity is worth `a`, then at most `a`. -/
def idleLam (a b : ℚ) : List ℚ := [-a, 0, 0, 0, 0, 0, 0, 0, 0, -a, -a, -b, 0, 0, 0, 0, 0, 0, 0, 0, -b, -b, -b, a, -b]

/-- The multiplier of the bound of the final charge. -/
def idleMu (a b : ℚ) : List (LpVar × ℚ) := [ (continuous (.asset "battery" "electric_final_charge_mwh" 0) (some 0) (some 4), a - b) ]

/-- What the demonstrations tell of the site and the result. -/
def pricesTest (q : ℚ) (s : Site) (r : SimResult) : Bool :=
  decide (s.assets = [.battery (growBattery 4)]) && decide (s.data.n = 2) && decide (r.status.objective = some q)

set_option maxRecDepth 10000 in
/-- Cheap electricity first: charge. -/
theorem demoPrices_forecast : (demoPrices [10, 100] [10, 100] [9/10, 1/10] [20, 20] "price" (demoGrow 4).answer).testOptimal (growLam 4) (growMu 4) (pricesTest 190) = true := by
  decide +kernel

set_option maxRecDepth 10000 in
/-- Clean electricity second: do nothing. -/
theorem demoPrices_carbon : (demoPrices [10, 100] [10, 100] [9/10, 1/10] [20, 20] "carbon" idleAnswer).testOptimal (idleLam (9/10) (1/10)) (idleMu (9/10) (1/10))
    (pricesTest 5) = true := by
  decide +kernel

set_option maxRecDepth 10000 in
/-- Cheap electricity second: do nothing. -/
theorem demoPrices_actual : (demoPrices [100, 10] [100, 10] [9/10, 1/10] [20, 20] "price" idleAnswer).testOptimal (idleLam 100 10) (idleMu 100 10) (pricesTest 550) = true := by
  decide +kernel

set_option maxRecDepth 10000 in
/-- Twice the price: the same dispatch at twice the cost. -/
theorem demoPrices_double : (demoPrices [20, 200] [20, 200] [9/10, 1/10] [40, 40] "price" (demoGrow 4).answer).testOptimal ((growLam 4).map (2 * ·))
    ((growMu 4).map (fun v => (v.1, 2 * v.2))) (pricesTest 380) = true := by
  decide +kernel

set_option maxRecDepth 10000 in
/-- Dearer imports in the first interval: the same dispatch at a higher cost. -/
theorem demoPrices_dearer : (demoPrices [20, 100] [10, 100] [9/10, 1/10] [20, 20] "price" (demoGrow 4).answer).testOptimal
    [-20, 0, 0, 0, 0, 0, 80, 0, 320, -100, -100, -100, 0, 0, 0, 0, 0, 0, 0, 0, -100, -100, -100, 100, -100]
    [ (continuous (.asset "battery" "electric_discharge_mwh" 0) (up := some 4), 80), (binary (.asset "battery" "electric_discharge_binary" 0), 320),
      (continuous (.site "export_power_mw" 0) (up := some 10000), 10) ] (pricesTest 280) = true := by
  decide +kernel

end EPL
