/-
A demonstration for scaling: the site with a battery of 2 MWh, twice as large.
-/
import Verif.Spec.DemoGrowth
import Verif.Spec.Scale

namespace EPL

/-- The battery, twice as large. -/
def doubleBattery : BatteryCfg where
  name := "battery"
  chargePower := 8
  dischargePower := 8
  capacity := 4
  efficiency := 1
  initialCharge := 0
  finalCharge := 0
  freqMins := 60

/-- The site, twice as large. -/
def demoDouble : Demo where
  assets := [.battery doubleBattery]
  raw := { electricityPrices := prices [10, 100], electricLoad := prices [10, 10] }
  importLimit := 20000
  exportLimit := 20000
  objective := .str "price"
  answer :=
    [ (.site "import_power_mw" 0, 14), (.site "import_power_bin" 0, 1), (.site "import_power_mw" 1, 6),
      (.site "import_power_bin" 1, 1), (.asset "battery" "electric_charge_mwh" 0, 4), (.asset "battery" "electric_charge_binary" 0, 1),
      (.asset "battery" "electric_final_charge_mwh" 0, 4), (.asset "battery" "electric_initial_charge_mwh" 1, 4),
      (.asset "battery" "electric_discharge_mwh" 1, 4), (.asset "battery" "electric_discharge_binary" 1, 1) ]

/-- The multipliers of the bounds. -/
def doubleMu : List (LpVar × ℚ) :=
  [ (continuous (.asset "battery" "electric_discharge_mwh" 0) (up := some 8), 90),
    (binary (.asset "battery" "electric_discharge_binary" 0), 360) ]

set_option maxRecDepth 10000 in
theorem demoDouble_test : demoDouble.testOptimal (growLam 4) doubleMu
    (fun s r => decide (s.assets = [.battery doubleBattery]) && decide (s.data.n = 2) && decide (r.status.objective = some 740)) = true := by
  decide +kernel

end EPL
