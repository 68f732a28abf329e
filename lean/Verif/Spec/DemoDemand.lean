/-
Demonstrations for the law of demand.
-/
import Verif.Spec.DemoPrices

namespace EPL

set_option maxRecDepth 10000 in
/-- Clean electricity first: charge. -/
theorem demoDemand_clean : (demoPrices [10, 100] [10, 100] [1/10, 1] [20, 20] "carbon" (demoGrow 4).answer).testOptimal ((growLam 4).map (1/100 * ·))
    ((growMu 4).map (fun v => (v.1, 1/100 * v.2))) (pricesTest (19/10)) = true := by
  decide +kernel

set_option maxRecDepth 10000 in
/-- The average of the prices 10, 100 and 100, 10: nothing to gain. -/
theorem demoDemand_average : (demoPrices [55, 55] [55, 55] [9/10, 1/10] [20, 20] "price" idleAnswer).testOptimal (idleLam 55 55) (idleMu 55 55)
    (pricesTest 550) = true := by
  decide +kernel

/-- One interval with a boiler that burns 5. -/
def demoBurn (gas : ℚ) : Demo where
  assets := [.boiler defaultBoiler]
  raw := { electricityPrices := prices [10], gasPrices := prices [gas], htLoad := prices [4] }
  objective := .str "price"
  answer := [ (.site "import_power_bin" 0, 1), (.asset "boiler" "high_temperature_generation_mwh" 0, 4),
    (.asset "boiler" "binary_mwh" 0, 1), (.asset "boiler" "gas_consumption_mwh" 0, 5) ]

/-- What the demonstrations tell of the site and the result. -/
def burnTest (q : ℚ) (s : Site) (r : SimResult) : Bool :=
  decide (s.assets = [.boiler defaultBoiler]) && decide (r.status.objective = some q)

set_option maxRecDepth 10000 in
theorem demoBurn_cheap : (demoBurn 20).testOptimal [-10, 0, 0, 0, -25, 0, -20] [] (burnTest 100) = true := by
  decide +kernel

set_option maxRecDepth 10000 in
theorem demoBurn_dear : (demoBurn 30).testOptimal [-10, 0, 0, 0, -75/2, 0, -30] [] (burnTest 150) = true := by
  decide +kernel

end EPL
