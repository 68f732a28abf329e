/-
The demonstration for vehicles at the margin: one charger without a lower limit and a vehicle that stays for two intervals, the second of which is dear.
-/
import Verif.Spec.DemoMargin
import Verif.Spec.Evs

namespace EPL

/-- The arguments. -/
def marginEvArgs : EvArgs := ⟨[[1, 1]], [2], [1], 1, 0, "evs", 60⟩

/-- One charger of 2 MW and a vehicle that needs 1 MWh. -/
def marginEvCfg : EvsCfg where
  name := "evs"
  chargers := [⟨"charger-0", 2, 0⟩]
  spillChargers := [⟨"charger-spill-evs", 10000, 0⟩]
  events := [⟨"charge-event-0", 1, 1⟩]
  chargeEvents := [[1], [1]]
  freqMins := 60

theorem marginEvCfg_new : marginEvArgs.make = .ok marginEvCfg := by decide +kernel

/-- The vehicle charges in the cheap interval. -/
def demoCheapHour (objective : String) : Demo where
  assets := [.evs marginEvCfg]
  raw := { electricityPrices := prices [10, 100], electricityCarbonIntensities := prices [1/10, 1] }
  objective := .str objective
  answer :=
    [ (.site "import_power_mw" 0, 1), (.site "import_power_bin" 0, 1), (.site "import_power_bin" 1, 1),
      (.evFlow "electric_charge_mwh" 0 "evs" 0 "charger-0" false, 1), (.evFlow "electric_charge_binary" 0 "evs" 0 "charger-0" false, 1),
      (.evSoc "final_soc_mwh" 0 "evs" "charge-event-0", 1),
      (.evSoc "initial_soc_mwh" 1 "evs" "charge-event-0", 1), (.evSoc "final_soc_mwh" 1 "evs" "charge-event-0", 1) ]

/-- What the vehicle does. -/
def cheapHourCells : List (String × Nat × ℚ) :=
  [ ("evs-charge-event-0-electric_charge_mwh", 0, 1), ("evs-charge-event-0-electric_charge_mwh", 1, 0), ("evs-charge-event-0-electric_discharge_mwh", 1, 0),
    ("evs-charger-0-electric_charge_mwh", 1, 0), ("evs-charger-0-electric_discharge_mwh", 1, 0), ("evs-charge-event-0-final_soc_mwh", 0, 1),
    ("site-import_power_mwh", 0, 1), ("site-export_power_mwh", 0, 0), ("site-import_power_mwh", 1, 0), ("site-export_power_mwh", 1, 0) ]

/-- Two intervals without loads. -/
def cheapHourData : SiteData := ⟨2, [10, 100], [10, 100], [1/10, 1], [20, 20], [0, 0], [0, 0], [0, 0], [0, 0], []⟩

set_option maxRecDepth 10000 in
theorem demoCheapHour_price : (demoCheapHour "price").testOptimal
    [ -10, 0, 0, 0, 0, 0, 0, 0, 0, 0, 10^11, 0, 0, 0, -10, 10, 0, -100, 0, 0, 0, 0, 0, 0, 90, 0, 0, 100000000090, 0, 0, 0, -10, 10, 0, 10, 10, -10 ] []
    (marginTest [.evs marginEvCfg] cheapHourData 10000 10000 10 cheapHourCells) = true := by
  decide +kernel

set_option maxRecDepth 10000 in
theorem demoCheapHour_carbon : (demoCheapHour "carbon").testOptimal
    [ -1/10, 0, 0, 0, 0, 0, 0, 0, 0, 0, 10^11, 0, 0, 0, -1/10, 1/10, 0, -1, 0, 0, 0, 0, 0, 0, 9/10, 0, 0, 1000000000009/10, 0, 0, 0, -1/10, 1/10, 0, 1/10,
      1/10, -1/10 ] []
    (marginTest [.evs marginEvCfg] cheapHourData 10000 10000 (1/10) cheapHourCells) = true := by
  decide +kernel

end EPL
