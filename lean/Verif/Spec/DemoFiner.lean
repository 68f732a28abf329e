/-
Demonstrations for shorter intervals: a CHP that is off or above 10 MW, a battery and a load of 5 MW, nothing can be exported.  In one interval of an hour
the CHP cannot serve the load; in two of half an hour it fills the battery in the first and the battery serves the second.
-/
import Verif.Spec.DemoOptimal
import Verif.Spec.Resolution

namespace EPL

/-- A CHP that is off or above 10 MW. -/
def finerChp : ChpCfg where
  name := "chp"
  powerMax := 10
  powerMin := 10
  electricEfficiency := 1/2
  htEfficiency := 0
  ltEfficiency := 0
  freqMins := 60

/-- A battery. -/
def finerBattery : BatteryCfg where
  name := "battery"
  chargePower := 5
  dischargePower := 5
  capacity := 5
  efficiency := 1
  initialCharge := 0
  finalCharge := 0
  freqMins := 60

/-- An hour. -/
def demoHour : Demo where
  assets := [.chp finerChp, .battery finerBattery]
  raw := { electricityPrices := prices [100], electricLoad := prices [5] }
  exportLimit := 0
  answer := [ (.site "import_power_mw" 0, 5), (.site "import_power_bin" 0, 1) ]

/-- Two halves of an hour. -/
def demoHalves : Demo where
  assets := [.chp finerChp, .battery finerBattery]
  raw := { electricityPrices := prices [100, 100], electricLoad := prices [5/2, 5/2] }
  exportLimit := 0
  freqMins := 30
  answer :=
    [ (.site "import_power_bin" 0, 1), (.site "import_power_bin" 1, 1),
      (.asset "chp" "electric_generation_mwh" 0, 5), (.asset "chp" "binary_mwh" 0, 1), (.asset "chp" "gas_consumption_mwh" 0, 10),
      (.asset "battery" "electric_charge_mwh" 0, 5/2), (.asset "battery" "electric_charge_binary" 0, 1),
      (.asset "battery" "electric_final_charge_mwh" 0, 5/2), (.asset "battery" "electric_initial_charge_mwh" 1, 5/2),
      (.asset "battery" "electric_discharge_mwh" 1, 5/2), (.asset "battery" "electric_discharge_binary" 1, 1) ]

/-- The multipliers of the constraints: electricity is worth 40 in both halves. -/
def demoHalvesLam : List ℚ :=
  [ -40, 0, 60, 0, 0, 0, -20, 0, 0, 0, 0, 0, 0, 0, -40, -40, -40, 0, 60, 0, 0, 0, -20, 0, 0, 0, 0, 0, 0, 0, -40, -40, -40, 40, -40 ]

/-- The multipliers of the bounds. -/
def demoHalvesMu : List (LpVar × ℚ) := [ (continuous (.site "import_power_mw" 0) (up := some 5000), 60), (continuous (.site "import_power_mw" 1) (up := some 5000), 60) ]

set_option maxRecDepth 10000 in
theorem demoHour_test : demoHour.test (fun s r => decide (s.assets = [.chp finerChp, .battery finerBattery]) && decide (s.data.n = 1) &&
    decide (r.status.objective = some 500)) = true := by
  decide +kernel

set_option maxRecDepth 10000 in
theorem demoHalves_test : demoHalves.testOptimal demoHalvesLam demoHalvesMu (fun s r => decide (s.assets = [.chp finerChp, .battery finerBattery]) &&
    decide (s.data.n = 2) && decide (r.status.objective = some 200)) = true := by
  decide +kernel

end EPL
