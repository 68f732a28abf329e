/-
Demonstrations for planning horizons: the battery of 4 MWh over both intervals, and over one of them.
-/
import Verif.Spec.DemoDemand
import Verif.Spec.Horizon

namespace EPL

/-- One interval of `demoGrow 4`, from one charge to another. -/
def demoPart (price start stop : ℚ) : Demo where
  assets := [.battery { growBattery 4 with initialCharge := start, finalCharge := stop }]
  raw := { electricityPrices := prices [price], electricLoad := prices [5] }
  objective := .str "price"
  answer :=
    [ (.site "import_power_mw" 0, 5 + stop - start), (.site "import_power_bin" 0, 1), (.asset "battery" "electric_charge_mwh" 0, max (stop - start) 0),
      (.asset "battery" "electric_charge_binary" 0, if start ≤ stop then 1 else 0), (.asset "battery" "electric_discharge_mwh" 0, max (start - stop) 0),
      (.asset "battery" "electric_discharge_binary" 0, if start ≤ stop then 0 else 1),
      (.asset "battery" "electric_initial_charge_mwh" 0, start), (.asset "battery" "electric_final_charge_mwh" 0, stop) ]

/-- What the demonstrations tell of the site and the result. -/
def partTest (start stop q : ℚ) (s : Site) (r : SimResult) : Bool :=
  decide (s.assets = [.battery { growBattery 4 with initialCharge := start, finalCharge := stop }]) && decide (r.status.objective = some q)

set_option maxRecDepth 10000 in
/-- Charging half of the battery in the first interval. -/
theorem demoPart_half : (demoPart 10 0 2).test (partTest 0 2 70) = true := by
  decide +kernel

set_option maxRecDepth 10000 in
/-- Discharging it in the second one. -/
theorem demoPart_rest : (demoPart 100 2 0).test (partTest 2 0 300) = true := by
  decide +kernel

set_option maxRecDepth 10000 in
/-- Discharging a full battery in the second interval. -/
theorem demoPart_again : (demoPart 100 4 0).testOptimal [-100, 0, 0, 0, 0, 0, 0, 0, 0, -100, -100, 100, -100] [] (partTest 4 0 100) = true := by
  decide +kernel

set_option maxRecDepth 10000 in
/-- The charges of the plan for both intervals. -/
theorem demoGrow_charges : (demoGrow 4).testOptimal (growLam 4) (growMu 4) (fun s r => decide (s.assets = [.battery (growBattery 4)]) &&
    decide (s.data.n = 2) && decide ("battery-electric_initial_charge_mwh" ∈ r.results.columns) &&
    decide ("battery-electric_final_charge_mwh" ∈ r.results.columns) && decide (r.results.cell "battery-electric_initial_charge_mwh" 1 = some 4) &&
    decide (r.results.cell "battery-electric_final_charge_mwh" 1 = some 0)) = true := by
  decide +kernel

/-- Two intervals with a boiler, gas at 20 and at 30. -/
def demoBurns : Demo where
  assets := [.boiler defaultBoiler]
  raw := { electricityPrices := prices [10, 10], gasPrices := prices [20, 30], htLoad := prices [4, 4] }
  objective := .str "price"
  answer := [ (.site "import_power_bin" 0, 1), (.asset "boiler" "high_temperature_generation_mwh" 0, 4),
    (.asset "boiler" "binary_mwh" 0, 1), (.asset "boiler" "gas_consumption_mwh" 0, 5),
    (.site "import_power_bin" 1, 1), (.asset "boiler" "high_temperature_generation_mwh" 1, 4),
    (.asset "boiler" "binary_mwh" 1, 1), (.asset "boiler" "gas_consumption_mwh" 1, 5) ]

set_option maxRecDepth 10000 in
theorem demoBurns_test : demoBurns.testOptimal [-10, 0, 0, 0, -25, 0, -20, 0, 0, -10, 0, 0, 0, -75/2, 0, -30] []
    (fun s r => decide (s.data.n = 2) && burnTest 250 s r) = true := by
  decide +kernel

end EPL
