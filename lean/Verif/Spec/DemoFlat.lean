/-
A demonstration for flat prices: a battery that loses half of what it charges, loads 5 and 5, the price 50 in both intervals.
-/
import Verif.Spec.DemoGrowth

namespace EPL

/-- A battery with losses. -/
def flatBattery : BatteryCfg where
  name := "battery"
  chargePower := 4
  dischargePower := 4
  capacity := 4
  efficiency := 1 / 2
  initialCharge := 0
  finalCharge := 0
  freqMins := 60

/-- Charging 2 and discharging 1 although it does not pay. -/
def demoFlat : Demo where
  assets := [.battery flatBattery]
  raw := { electricityPrices := prices [50, 50], electricLoad := prices [5, 5] }
  objective := .str "price"
  answer :=
    [ (.site "import_power_mw" 0, 7), (.site "import_power_bin" 0, 1), (.site "import_power_mw" 1, 4),
      (.site "import_power_bin" 1, 1), (.asset "battery" "electric_charge_mwh" 0, 2), (.asset "battery" "electric_charge_binary" 0, 1),
      (.asset "battery" "electric_loss_mwh" 0, 1),
      (.asset "battery" "electric_final_charge_mwh" 0, 1), (.asset "battery" "electric_initial_charge_mwh" 1, 1),
      (.asset "battery" "electric_discharge_mwh" 1, 1), (.asset "battery" "electric_discharge_binary" 1, 1) ]

set_option maxRecDepth 10000 in
theorem demoFlat_test : demoFlat.test (fun s r => decide (s.assets = [.battery flatBattery]) && decide (s.data.n = 2) &&
    decide (s.data.electricityPrices = [50, 50]) && decide (s.data.exportElectricityPrices = [50, 50]) &&
    decide (s.data.electricLoad = [5, 5]) && decide (r.status.objective = some 550)) = true := by
  decide +kernel

/-- The site of `demoGrow` without its battery. -/
def demoBare : Demo where
  assets := []
  raw := { electricityPrices := prices [10, 100], electricLoad := prices [5, 5] }
  objective := .str "price"
  answer := [ (.site "import_power_mw" 0, 5), (.site "import_power_bin" 0, 1), (.site "import_power_mw" 1, 5), (.site "import_power_bin" 1, 1) ]

set_option maxRecDepth 10000 in
theorem demoBare_test : demoBare.test (fun s r => decide (s.assets = []) && decide (s.data.n = 2) &&
    decide (r.status.objective = some 550)) = true := by
  decide +kernel

end EPL
