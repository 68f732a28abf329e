/-
Demonstrations for the order of the terms of a custom objective.
-/
import Verif.Spec.DemoCustom

namespace EPL

/-- `demoMaxMany` with its terms in the opposite order: 7 * 5 + 130. -/
def demoMaxFirst : Demo where
  assets := []
  raw := { electricityPrices := prices [10, 20], electricLoad := prices [3, 5] }
  objective := .custom [.many "max_many_variables" importTerm 100 0 7, .simple importCost]
  answer := loadAnswer ++
    [ (.aux (manyName "max_many_variables" importTerm 100 0 7 ++ "-continuous") 0, 5),
      (.aux (manyName "max_many_variables" importTerm 100 0 7 ++ "-binary-1") 0, 1) ]

set_option maxRecDepth 10000 in
theorem demoMaxFirst_test : demoMaxFirst.testOptimal [-10, 0, 0, 0, 0, 0, -27, 0, 0, 0, 0, 0, 0, 0, -7]
    [(continuous (.site "export_power_mw" 0) (up := some 10000), 10), (continuous (.site "export_power_mw" 1) (up := some 10000), 27)]
    (fun s r => decide (s.assets = []) && decide (s.data.n = 2) && decide (r.status.objective = some 165)) = true := by
  decide +kernel

/-- Import cost and import: 130 + 8. -/
def demoTwoTerms : Demo := demoTerms [.simple importTerm] []

set_option maxRecDepth 10000 in
theorem demoTwoTerms_test : demoTwoTerms.test (fun _ r => decide (r.status.objective = some 138)) = true := by
  decide +kernel

end EPL
