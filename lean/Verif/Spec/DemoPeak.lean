/-
Demonstrations of a charge on the peak import: a battery of 4 MWh, electricity prices 10 and 100, load 5.
-/
import Verif.Spec.DemoCustom
import Verif.Spec.DemoMargin

namespace EPL

/-- The import cost and `k` times the peak import. -/
def demoPeak (k peak : ℚ) (answer : List (VarId × ℚ)) : Demo :=
  { demoPrices [10, 100] [10, 100] [1/10, 1] [20, 20] "price" answer with
    objective := .custom ([importCost].map .simple ++ [.many "max_many_variables" importTerm 10000 0 k]),
    answer := answer ++ [(.aux (manyName "max_many_variables" importTerm 10000 0 k ++ "-continuous") 1, peak)] }

set_option maxRecDepth 10000 in
theorem demoPeak_low : (demoPeak 7 9 (demoGrow 4).answer).testOptimal
    [-17, 0, 0, 0, 0, 0, 83, 83, 332, -100, -100, -100, 0, 0, 0, 0, 0, 0, 0, 0, -100, -100, -100, 100, -100, -7, 0, 0, 0, 0]
    [ (continuous (.site "export_power_mw" 0) (up := some 10000), 17), (continuous (.asset "battery" "electric_discharge_mwh" 0) (up := some 4), 166),
      (continuous (.site "export_power_mw" 1) (up := some 10000), 100) ]
    (marginTest [.battery (growBattery 4)] (twoData [10, 100] [1/10, 1]) 10000 10000 253 movedCells) = true := by
  decide +kernel

set_option maxRecDepth 10000 in
theorem demoPeak_high : (demoPeak 100 5 idleAnswer).testOptimal
    [-105, 0, 0, 0, 0, 0, 0, 0, 0, -105, -105, -105, 0, 0, 0, 0, 0, 0, 0, 0, -105, -105, -105, 105, -105, -95, 0, -5, 0, 0]
    [ (continuous (.site "export_power_mw" 0) (up := some 10000), 105), (continuous (.site "export_power_mw" 1) (up := some 10000), 105) ]
    (marginTest [.battery (growBattery 4)] (twoData [10, 100] [1/10, 1]) 10000 10000 1050 idleCells) = true := by
  decide +kernel

end EPL
