/-
The demonstration sites.
-/
import Verif.Spec.Demo

namespace EPL

/-- The battery of `demoBattery`. -/
def demoBatteryCfg : BatteryCfg := ⟨"battery", 2, 2, 4, 1/2, 0, 0, 60⟩

/-- Two intervals, prices 10 and 100: charge, then discharge. -/
def demoBattery : Demo where
  assets := [.battery demoBatteryCfg]
  raw := { electricityPrices := prices [10, 100] }
  answer :=
    [ (.site "import_power_mw" 0, 2), (.site "import_power_bin" 0, 1), (.site "export_power_mw" 1, 1), (.site "export_power_bin" 1, 1),
      (.asset "battery" "electric_charge_mwh" 0, 2), (.asset "battery" "electric_charge_binary" 0, 1),
      (.asset "battery" "electric_loss_mwh" 0, 1), (.asset "battery" "electric_final_charge_mwh" 0, 1),
      (.asset "battery" "electric_initial_charge_mwh" 1, 1), (.asset "battery" "electric_discharge_mwh" 1, 1),
      (.asset "battery" "electric_discharge_binary" 1, 1) ]

set_option maxRecDepth 10000 in
theorem demoBattery_test : demoBattery.test (fun s r => decide (s.assets = [.battery demoBatteryCfg]) && decide (s.data.n = 2) &&
    decide (r.status.objective = some (-80))) = true := by
  decide +kernel

/-- Assets of `demoHeat`. -/
def demoChpCfg : ChpCfg := ⟨"chp", 10, 2, 1/2, 1/4, 1/8, 60⟩
/-- see `demoChpCfg` -/
def demoHeatPumpCfg : HeatPumpCfg := ⟨"heat-pump", 3, 4, 60, true⟩
/-- see `demoChpCfg` -/
def demoRenewableCfg : RenewableCfg := ⟨"solar", 1/2, [3], true, 1, 60⟩

/-- One interval with a CHP, a boiler, a heat pump, a solar plant, a spill and a valve:
CHP 4 electricity (8 gas, 2 ht, 1 lt), heat pump 2 electricity (6 ht, 4 lt load), boiler 4 ht (5 gas), solar 3, electric load 7,
ht load 5, lt load 4: ht 2+6+4 = 5 + valve 7, lt 1 + 7 = 4 + 4; electricity 4 + 3 + import 2 = 2 + 7. -/
def demoHeat : Demo where
  assets := [.chp demoChpCfg, .boiler defaultBoiler, .heatPump demoHeatPumpCfg, .renewable demoRenewableCfg,
    .spill ⟨"spill"⟩, .valve defaultValve]
  raw := { electricityPrices := prices [10], electricLoad := prices [7], htLoad := prices [5], ltLoad := prices [4] }
  answer :=
    [ (.site "import_power_mw" 0, 2), (.site "import_power_bin" 0, 1),
      (.asset "chp" "electric_generation_mwh" 0, 4), (.asset "chp" "binary_mwh" 0, 1), (.asset "chp" "gas_consumption_mwh" 0, 8),
      (.asset "chp" "high_temperature_generation_mwh" 0, 2), (.asset "chp" "low_temperature_generation_mwh" 0, 1),
      (.asset "boiler" "high_temperature_generation_mwh" 0, 4), (.asset "boiler" "binary_mwh" 0, 1),
      (.asset "boiler" "gas_consumption_mwh" 0, 5),
      (.tagged "electric_load_mwh" 0 "heat-pump", 2), (.tagged "electric_load_binary" 0 "heat-pump", 1),
      (.tagged "low_temperature_load_mwh" 0 "heat-pump", 4), (.tagged "high_temperature_generation_mwh" 0 "heat-pump", 6),
      (.tagged "electric_generation_mwh" 0 "solar", 3),
      (.asset "valve" "high_temperature_load_mwh" 0, 7), (.asset "valve" "low_temperature_generation_mwh" 0, 7) ]

set_option maxRecDepth 10000 in
theorem demoHeat_test : demoHeat.test (fun s r => decide (s.assets = [.chp demoChpCfg, .boiler defaultBoiler, .heatPump demoHeatPumpCfg,
    .renewable demoRenewableCfg, .spill ⟨"spill"⟩, .valve defaultValve]) && decide (s.data.n = 1) &&
    decide (r.status.objective = some 280)) = true := by
  decide +kernel

end EPL
