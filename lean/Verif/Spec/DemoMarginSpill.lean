/-
Demonstrations for the spill charger at the margin.
-/
import Verif.Spec.DemoMargin
import Verif.Spec.Evs

namespace EPL

/-- A charger of 2 MW and a vehicle that needs 3 MWh and stays for two intervals. -/
def spareArgs : EvArgs := ⟨[[1, 1]], [2], [3], 1, 0, "evs", 60⟩

/-- The asset. -/
def spareCfg : EvsCfg where
  name := "evs"
  chargers := [⟨"charger-0", 2, 0⟩]
  spillChargers := [⟨"charger-spill-evs", 10000, 0⟩]
  events := [⟨"charge-event-0", 3, 1⟩]
  chargeEvents := [[1], [1]]
  freqMins := 60

theorem spareCfg_new : spareArgs.make = .ok spareCfg := by decide +kernel

/-- Electricity in the second interval costs more than the penalty: the spill charger helps in the first. -/
def demoSpare (objective : String) : Demo where
  assets := [.evs spareCfg]
  raw := { electricityPrices := prices [0, 10^12], electricityCarbonIntensities := prices [0, 10^12] }
  objective := .str objective
  answer :=
    [ (.site "import_power_mw" 0, 3), (.site "import_power_bin" 0, 1), (.site "import_power_bin" 1, 1),
      (.evFlow "electric_charge_mwh" 0 "evs" 0 "charger-0" false, 2), (.evFlow "electric_charge_binary" 0 "evs" 0 "charger-0" false, 1),
      (.evFlow "electric_charge_mwh" 0 "evs" 0 "charger-spill-evs" true, 1), (.evFlow "electric_charge_binary" 0 "evs" 0 "charger-spill-evs" true, 1),
      (.evSoc "final_soc_mwh" 0 "evs" "charge-event-0", 3),
      (.evSoc "initial_soc_mwh" 1 "evs" "charge-event-0", 3), (.evSoc "final_soc_mwh" 1 "evs" "charge-event-0", 3) ]

/-- A charger that loses half and a vehicle that needs 1 MWh and stays for one interval. -/
def lossyArgs : EvArgs := ⟨[[1]], [2], [1], 1/2, 0, "evs", 60⟩

/-- The asset. -/
def lossyCfg : EvsCfg where
  name := "evs"
  chargers := [⟨"charger-0", 2, 0⟩]
  spillChargers := [⟨"charger-spill-evs", 10000, 0⟩]
  events := [⟨"charge-event-0", 1, 1/2⟩]
  chargeEvents := [[1]]
  freqMins := 60

theorem lossyCfg_new : lossyArgs.make = .ok lossyCfg := by decide +kernel

/-- The losses of the charger cost more than the penalty. -/
def demoLossy (objective : String) : Demo where
  assets := [.evs lossyCfg]
  raw := { electricityPrices := prices [10^12], electricityCarbonIntensities := prices [10^12] }
  objective := .str objective
  answer :=
    [ (.site "import_power_mw" 0, 1), (.site "import_power_bin" 0, 1),
      (.evFlow "electric_charge_mwh" 0 "evs" 0 "charger-spill-evs" true, 1), (.evFlow "electric_charge_binary" 0 "evs" 0 "charger-spill-evs" true, 1),
      (.evFlow "electric_loss_mwh" 0 "evs" 0 "charger-spill-evs" true, 1/2), (.evSoc "final_soc_mwh" 0 "evs" "charge-event-0", 1) ]

/-- What the vehicle does. -/
def spareCells : List (String × Nat × ℚ) :=
  [ ("evs-charge-event-0-initial_soc_mwh", 0, 0), ("evs-charge-event-0-electric_charge_mwh", 0, 2), ("evs-charge-event-0-electric_discharge_mwh", 0, 0),
    ("evs-charge-event-0-final_soc_mwh", 0, 3), ("evs-charge-event-0-electric_charge_mwh", 1, 0), ("evs-charge-event-0-electric_discharge_mwh", 1, 0),
    ("evs-charger-0-electric_charge_mwh", 1, 0), ("evs-charger-0-electric_discharge_mwh", 1, 0),
    ("site-import_power_mwh", 0, 3), ("site-export_power_mwh", 0, 0), ("site-import_power_mwh", 1, 0), ("site-export_power_mwh", 1, 0) ]

/-- Two intervals without loads. -/
def spareData : SiteData := ⟨2, [0, 10^12], [0, 10^12], [0, 10^12], [20, 20], [0, 0], [0, 0], [0, 0], [0, 0], []⟩

/-- What the vehicle does. -/
def lossyCells : List (String × Nat × ℚ) :=
  [ ("evs-charge-event-0-initial_soc_mwh", 0, 0), ("evs-charge-event-0-electric_charge_mwh", 0, 0), ("evs-charge-event-0-electric_discharge_mwh", 0, 0),
    ("evs-charge-event-0-final_soc_mwh", 0, 1), ("evs-charger-0-electric_charge_mwh", 0, 0), ("evs-charger-0-electric_discharge_mwh", 0, 0),
    ("site-import_power_mwh", 0, 1), ("site-export_power_mwh", 0, 0) ]

/-- One interval without loads. -/
def lossyData : SiteData := ⟨1, [10^12], [10^12], [10^12], [20], [0], [0], [0], [0], []⟩

set_option maxRecDepth 10000 in
theorem demoSpare_price : (demoSpare "price").testOptimal
    [ 0, 0, 0, 0, 0, 0, 10^11, 0, 2*10^11, 0, 0, 0, 0, 0, -10^11, 10^11, 0, -10^12, 0, 0, 0, 0, 0, 0, 9*10^11, 0, 0, 10^12, 0, 0, 0, -10^11, 10^11, 0,
      10^11, 10^11, -10^11 ] []
    (marginTest [.evs spareCfg] spareData 10000 10000 (10^11) spareCells) = true := by
  decide +kernel

set_option maxRecDepth 10000 in
theorem demoSpare_carbon : (demoSpare "carbon").testOptimal
    [ 0, 0, 0, 0, 0, 0, 10^11, 0, 2*10^11, 0, 0, 0, 0, 0, -10^11, 10^11, 0, -10^12, 0, 0, 0, 0, 0, 0, 9*10^11, 0, 0, 10^12, 0, 0, 0, -10^11, 10^11, 0,
      10^11, 10^11, -10^11 ] []
    (marginTest [.evs spareCfg] spareData 10000 10000 (10^11) spareCells) = true := by
  decide +kernel

set_option maxRecDepth 10000 in
theorem demoLossy_price : (demoLossy "price").testOptimal
    [ -10^12, 0, 0, 0, 0, 0, 0, 45*10^10, 0, 0, 0, 0, 0, 0, -11*10^11, 11*10^11, 0, 11*10^11, -11*10^11 ] []
    (marginTest [.evs lossyCfg] lossyData 10000 10000 (11*10^11) lossyCells) = true := by
  decide +kernel

set_option maxRecDepth 10000 in
theorem demoLossy_carbon : (demoLossy "carbon").testOptimal
    [ -10^12, 0, 0, 0, 0, 0, 0, 45*10^10, 0, 0, 0, 0, 0, 0, -11*10^11, 11*10^11, 0, 11*10^11, -11*10^11 ] []
    (marginTest [.evs lossyCfg] lossyData 10000 10000 (11*10^11) lossyCells) = true := by
  decide +kernel

end EPL
