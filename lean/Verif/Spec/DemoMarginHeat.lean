/-
Demonstrations for CHPs and heat pumps at the margin: a boiler beside a CHP or a heat pump serves 5 MWh of heat.
-/
import Verif.Spec.DemoMargin
import Verif.Spec.MarginHeat

namespace EPL

/-- A CHP of 1 MW that turns gas into 40 % electricity, 40 % heat and 10 % low temperature heat. -/
def marginChp : ChpCfg := ⟨"chp", 1, 0, 4/10, 4/10, 1/10, 60⟩

/-- A boiler of 10 MW. -/
def marginBoiler : BoilerCfg := ⟨"boiler", 10, 0, 8/10⟩

/-- The CHP, the boiler and a spill asset. -/
def demoCogen (price carbon : ℚ) (objective : String) (answer : List (VarId × ℚ)) : Demo where
  assets := [.chp marginChp, .boiler marginBoiler, .spill ⟨"spill"⟩]
  raw := { electricityPrices := prices [price], electricityCarbonIntensities := prices [carbon], electricLoad := prices [5], htLoad := prices [5] }
  objective := .str objective
  answer := answer

/-- The CHP stays off. -/
def cogenOff : List (VarId × ℚ) :=
  [ (.site "import_power_mw" 0, 5), (.site "import_power_bin" 0, 1), (.asset "boiler" "high_temperature_generation_mwh" 0, 5),
    (.asset "boiler" "binary_mwh" 0, 1), (.asset "boiler" "gas_consumption_mwh" 0, 25/4) ]

/-- The CHP runs at full power. -/
def cogenOn : List (VarId × ℚ) :=
  [ (.site "import_power_mw" 0, 4), (.site "import_power_bin" 0, 1), (.asset "boiler" "high_temperature_generation_mwh" 0, 4),
    (.asset "boiler" "binary_mwh" 0, 1), (.asset "boiler" "gas_consumption_mwh" 0, 5), (.asset "chp" "electric_generation_mwh" 0, 1),
    (.asset "chp" "binary_mwh" 0, 1), (.asset "chp" "gas_consumption_mwh" 0, 5/2), (.asset "chp" "high_temperature_generation_mwh" 0, 1),
    (.asset "chp" "low_temperature_generation_mwh" 0, 1/4), (.asset "spill" "low_temperature_load_mwh" 0, 1/4) ]

/-- A heat pump of 1 MW with a COP of 3. -/
def marginPump : HeatPumpCfg := ⟨"heat-pump", 3, 1, 60, false⟩

/-- The heat pump, the boiler and a spill asset; 10 MWh of low temperature heat are there to use. -/
def demoLift (price carbon : ℚ) (objective : String) (answer : List (VarId × ℚ)) : Demo where
  assets := [.heatPump marginPump, .boiler marginBoiler, .spill ⟨"spill"⟩]
  raw := { electricityPrices := prices [price], electricityCarbonIntensities := prices [carbon], electricLoad := prices [5], htLoad := prices [5],
           ltGeneration := prices [10] }
  objective := .str objective
  answer := answer

/-- The heat pump stays off. -/
def liftOff : List (VarId × ℚ) :=
  [ (.site "import_power_mw" 0, 5), (.site "import_power_bin" 0, 1), (.asset "boiler" "high_temperature_generation_mwh" 0, 5),
    (.asset "boiler" "binary_mwh" 0, 1), (.asset "boiler" "gas_consumption_mwh" 0, 25/4), (.asset "spill" "low_temperature_load_mwh" 0, 10) ]

/-- The heat pump runs at full power. -/
def liftOn : List (VarId × ℚ) :=
  [ (.site "import_power_mw" 0, 6), (.site "import_power_bin" 0, 1), (.asset "boiler" "high_temperature_generation_mwh" 0, 2),
    (.asset "boiler" "binary_mwh" 0, 1), (.asset "boiler" "gas_consumption_mwh" 0, 5/2), (.tagged "electric_load_mwh" 0 "heat-pump", 1),
    (.tagged "electric_load_binary" 0 "heat-pump", 1), (.tagged "high_temperature_generation_mwh" 0 "heat-pump", 3),
    (.tagged "low_temperature_load_mwh" 0 "heat-pump", 2), (.asset "spill" "low_temperature_load_mwh" 0, 8) ]

/-- What remains of the penalty when electricity costs `x` and heat `h`. -/
def heatMu (x h : ℚ) : List (LpVar × ℚ) :=
  [ (continuous (.asset "spill" "electric_generation_mwh" 0), 10^11 - x), (continuous (.asset "spill" "high_temperature_generation_mwh" 0), 10^11 - h),
    (continuous (.asset "spill" "electric_load_mwh" 0), 10^11 + x) ]

/-- One interval with 5 MWh of electric load and 5 MWh of heat. -/
def heatData (p c l : ℚ) : SiteData := ⟨1, [p], [p], [c], [20], [5], [5], [0], [l], []⟩

/-- What the site with the CHP shows: imports, electricity of the CHP, heat of the boiler, low temperature heat thrown away. -/
def cogenCells (m x b w : ℚ) : List (String × Nat × ℚ) :=
  [ ("site-import_power_mwh", 0, m), ("site-export_power_mwh", 0, 0), ("chp-electric_generation_mwh", 0, x), ("boiler-high_temperature_generation_mwh", 0, b),
    ("spill-low_temperature_load_mwh", 0, w) ]

/-- What the site with the heat pump shows: imports, electricity of the heat pump, heat of the boiler, low temperature heat thrown away. -/
def liftCells (m x b w : ℚ) : List (String × Nat × ℚ) :=
  [ ("site-import_power_mwh", 0, m), ("site-export_power_mwh", 0, 0), ("heat-pump-electric_load_mwh", 0, x), ("boiler-high_temperature_generation_mwh", 0, b),
    ("spill-low_temperature_load_mwh", 0, w) ]

/-- The assets of the site with the CHP. -/
def cogenAssets : List Asset := [.chp marginChp, .boiler marginBoiler, .spill ⟨"spill"⟩]

/-- The assets of the site with the heat pump. -/
def liftAssets : List Asset := [.heatPump marginPump, .boiler marginBoiler, .spill ⟨"spill"⟩]

set_option maxRecDepth 10000 in
theorem demoCogen_off_price : (demoCogen 10 (1/10) "price" cogenOff).testOptimal [-10, 0, 0, 0, -25, 0, -10, 25, 0, 0, 15, -20, 0, 0] (heatMu 10 25)
    (marginTest cogenAssets (heatData 10 (1/10) 0) 10000 10000 175 (cogenCells 5 0 5 0)) = true := by
  decide +kernel

set_option maxRecDepth 10000 in
theorem demoCogen_on_price : (demoCogen 50 1 "price" cogenOn).testOptimal [-50, 0, 0, 0, -25, 0, -10, 25, 0, 25, 0, -20, 0, 0]
    ((binary (.asset "chp" "binary_mwh" 0), -25) :: heatMu 50 25)
    (marginTest cogenAssets (heatData 50 1 0) 10000 10000 350 (cogenCells 4 1 4 (1/4))) = true := by
  decide +kernel

set_option maxRecDepth 10000 in
theorem demoCogen_off_carbon : (demoCogen 10 (1/10) "carbon" cogenOff).testOptimal
    [-1/10, 0, 0, 0, -37/160, 0, -37/400, 37/160, 0, 0, 21/160, -37/200, 0, 0] (heatMu (1/10) (37/160))
    (marginTest cogenAssets (heatData 10 (1/10) 0) 10000 10000 (53/32) (cogenCells 5 0 5 0)) = true := by
  decide +kernel

set_option maxRecDepth 10000 in
theorem demoCogen_on_carbon : (demoCogen 50 1 "carbon" cogenOn).testOptimal [-1, 0, 0, 0, -37/160, 0, -37/400, 37/160, 0, 123/160, 0, -37/200, 0, 0]
    ((binary (.asset "chp" "binary_mwh" 0), -123/160) :: heatMu 1 (37/160))
    (marginTest cogenAssets (heatData 50 1 0) 10000 10000 (431/80) (cogenCells 4 1 4 (1/4))) = true := by
  decide +kernel

set_option maxRecDepth 10000 in
theorem demoLift_off_price : (demoLift 100 1 "price" liftOff).testOptimal [-100, 0, 0, 0, -25, 0, 0, 75/2, 25/2, -20, 0, 0]
    ((continuous (.tagged "low_temperature_load_mwh" 0 "heat-pump"), 25/2) :: heatMu 100 25)
    (marginTest liftAssets (heatData 100 1 10) 10000 10000 625 (liftCells 5 0 5 10)) = true := by
  decide +kernel

set_option maxRecDepth 10000 in
theorem demoLift_on_price : (demoLift 10 (1/10) "price" liftOn).testOptimal [-10, 0, 0, 0, -25, 0, 65, 25, 0, -20, 0, 0]
    ((binary (.tagged "electric_load_binary" 0 "heat-pump"), -65) :: heatMu 10 25)
    (marginTest liftAssets (heatData 10 (1/10) 10) 10000 10000 110 (liftCells 6 1 2 8)) = true := by
  decide +kernel

set_option maxRecDepth 10000 in
theorem demoLift_off_carbon : (demoLift 100 1 "carbon" liftOff).testOptimal [-1, 0, 0, 0, -37/160, 0, 0, 123/320, 49/320, -37/200, 0, 0]
    ((continuous (.tagged "low_temperature_load_mwh" 0 "heat-pump"), 49/320) :: heatMu 1 (37/160))
    (marginTest liftAssets (heatData 100 1 10) 10000 10000 (197/32) (liftCells 5 0 5 10)) = true := by
  decide +kernel

set_option maxRecDepth 10000 in
theorem demoLift_on_carbon : (demoLift 10 (1/10) "carbon" liftOn).testOptimal [-1/10, 0, 0, 0, -37/160, 0, 19/32, 37/160, 0, -37/200, 0, 0]
    ((binary (.tagged "electric_load_binary" 0 "heat-pump"), -19/32) :: heatMu (1/10) (37/160))
    (marginTest liftAssets (heatData 10 (1/10) 10) 10000 10000 (17/16) (liftCells 6 1 2 8)) = true := by
  decide +kernel

end EPL
