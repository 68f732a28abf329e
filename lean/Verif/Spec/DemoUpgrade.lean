/-
Demonstrations for C93 to C95.
-/
import Verif.Spec.DemoMargin
import Verif.Spec.Swap

namespace EPL

/-- A boiler of 10 MW. -/
def upBoiler (η : ℚ) : BoilerCfg := ⟨"boiler", 10, 0, η⟩

/-- The boiler serves 5 MWh of heat. -/
def demoUp (η : ℚ) (objective : String) : Demo where
  assets := [.boiler (upBoiler η)]
  raw := { electricityPrices := prices [10], htLoad := prices [5] }
  objective := .str objective
  answer := [ (.site "import_power_bin" 0, 1), (.asset "boiler" "high_temperature_generation_mwh" 0, 5), (.asset "boiler" "binary_mwh" 0, 1),
    (.asset "boiler" "gas_consumption_mwh" 0, 5 / η) ]

/-- Boilers of 6 MW and of 4 MW. -/
def halfBoilers : List BoilerCfg := [⟨"boiler-a", 6, 0, 4/5⟩, ⟨"boiler-b", 4, 0, 4/5⟩]

/-- The two boilers serve 5 MWh of heat. -/
def demoHalfBoilers (objective : String) : Demo where
  assets := halfBoilers.map .boiler
  raw := { electricityPrices := prices [10], htLoad := prices [5] }
  objective := .str objective
  answer := [ (.site "import_power_bin" 0, 1), (.asset "boiler-a" "high_temperature_generation_mwh" 0, 3), (.asset "boiler-a" "binary_mwh" 0, 1),
    (.asset "boiler-a" "gas_consumption_mwh" 0, 15/4), (.asset "boiler-b" "high_temperature_generation_mwh" 0, 2), (.asset "boiler-b" "binary_mwh" 0, 1),
    (.asset "boiler-b" "gas_consumption_mwh" 0, 5/2) ]

/-- The site without the battery that stays idle. -/
def demoNoBattery (carbon : List ℚ) (objective : String) : Demo where
  assets := []
  raw := { electricityPrices := prices [55, 55], electricityCarbonIntensities := prices carbon, electricLoad := prices [5, 5] }
  objective := .str objective
  answer := [ (.site "import_power_mw" 0, 5), (.site "import_power_bin" 0, 1), (.site "import_power_mw" 1, 5), (.site "import_power_bin" 1, 1) ]

/-- What the boiler shows. -/
def upCells : List (String × Nat × ℚ) := [ ("boiler-high_temperature_generation_mwh", 0, 5) ]

set_option maxRecDepth 10000 in
theorem demoUp_poor_price : (demoUp (1/2) "price").testOptimal [-10, 0, 0, 0, -40, 0, -20, 0, 0] []
    (marginTest [.boiler (upBoiler (1/2))] (oneData 10 10 0 5) 10000 10000 200 upCells) = true := by
  decide +kernel

set_option maxRecDepth 10000 in
theorem demoUp_good_price : (demoUp (4/5) "price").testOptimal [-10, 0, 0, 0, -25, 0, -20, 0, 0] []
    (marginTest [.boiler (upBoiler (4/5))] (oneData 10 10 0 5) 10000 10000 125 upCells) = true := by
  decide +kernel

set_option maxRecDepth 10000 in
theorem demoUp_poor_carbon : (demoUp (1/2) "carbon").testOptimal [-1/10, 0, 0, 0, -37/100, 0, -37/200, 0, 0] []
    (marginTest [.boiler (upBoiler (1/2))] (oneData 10 10 0 5) 10000 10000 (37/20) upCells) = true := by
  decide +kernel

set_option maxRecDepth 10000 in
theorem demoUp_good_carbon : (demoUp (4/5) "carbon").testOptimal [-1/10, 0, 0, 0, -37/160, 0, -37/200, 0, 0] []
    (marginTest [.boiler (upBoiler (4/5))] (oneData 10 10 0 5) 10000 10000 (37/32) upCells) = true := by
  decide +kernel

set_option maxRecDepth 10000 in
theorem demoHalfBoilers_price : (demoHalfBoilers "price").testOptimal [-10, 0, 0, 0, -25, 0, -20, 0, 0, -20, 0, 0] []
    (marginTest (halfBoilers.map .boiler) (oneData 10 10 0 5) 10000 10000 125 []) = true := by
  decide +kernel

set_option maxRecDepth 10000 in
theorem demoHalfBoilers_carbon : (demoHalfBoilers "carbon").testOptimal [-1/10, 0, 0, 0, -37/160, 0, -37/200, 0, 0, -37/200, 0, 0] []
    (marginTest (halfBoilers.map .boiler) (oneData 10 10 0 5) 10000 10000 (37/32) []) = true := by
  decide +kernel

set_option maxRecDepth 10000 in
theorem demoNoBattery_price : (demoNoBattery [9/10, 1/10] "price").testOptimal [-55, 0, 0, 0, 0, 0, -55, 0, 0, 0, 0, 0] []
    (marginTest [] (twoData [55, 55] [9/10, 1/10]) 10000 10000 550 []) = true := by
  decide +kernel

set_option maxRecDepth 10000 in
theorem demoNoBattery_carbon : (demoNoBattery [9/10, 1/10] "carbon").testOptimal [-9/10, 0, 0, 0, 0, 0, -1/10, 0, 0, 0, 0, 0] []
    (marginTest [] (twoData [55, 55] [9/10, 1/10]) 10000 10000 5 []) = true := by
  decide +kernel

/-- Two demonstrations with the same data differ only in their assets. -/
theorem marginDemo_swap {l l' : List Asset} {d : SiteData} {il el q q' : ℚ} {cells cells' : List (String × Nat × ℚ)} {s t : Site} {r r' : SimResult}
    {V V' : String → Nat → ℚ} (h : MarginDemo l d il el q cells s r V) (h' : MarginDemo l' d il el q' cells' t r' V') : t = s.withAssets l' := by
  cases t
  obtain ⟨a1, a2, a3, a4, a5, a6, -, -⟩ := h'
  simp only at a1 a2 a3 a4 a5 a6
  unfold Site.withAssets
  rw [a1, a2, a3, a4, a5, a6, h.data, h.freq, h.importLimit, h.exportLimit, h.constraints]

end EPL
