/-
Demonstrations of custom objectives: a site without assets, electric loads 3 and 5, electricity prices 10 and 20.
-/
import Verif.Spec.DemoEvs
import Verif.Spec.DemoOptimal

namespace EPL

/-- The cost of the imports. -/
def importCost : Term := { attr := "import_power_mwh", assetType := some "site", intervalData := some "electricity_prices" }

/-- The import of the site. -/
def importTerm : Term := { attr := "import_power_mwh", assetType := some "site" }

/-- The answer of all of these demonstrations: import the load. -/
def loadAnswer : List (VarId × ℚ) :=
  [ (.site "import_power_mw" 0, 3), (.site "import_power_bin" 0, 1), (.site "import_power_mw" 1, 5), (.site "import_power_bin" 1, 1) ]

/-- A demonstration with the import cost and some more terms. -/
def demoTerms (terms : List OneTerm) (answer : List (VarId × ℚ)) : Demo where
  assets := []
  raw := { electricityPrices := prices [10, 20], electricLoad := prices [3, 5] }
  objective := .custom (.simple importCost :: terms)
  answer := loadAnswer ++ answer

/-- Import cost only: 3 * 10 + 5 * 20. -/
def demoSimple : Demo := demoTerms [] []

set_option maxRecDepth 10000 in
theorem demoSimple_test : demoSimple.test (fun s r => decide (s.assets = []) && decide (s.data.n = 2) &&
    decide (r.status.objective = some 130)) = true := by
  decide +kernel

/-- 7 times the greater of import and 4: 130 + 7 * (4 + 5). -/
def demoMaxTwo : Demo :=
  demoTerms [.two "max_two_variables" (.term importTerm) (.float 4) 100 none 7]
    [ (.aux (twoName "max_two_variables" 0 (.term importTerm) (.float 4) ++ "-continuous") 1, 4),
      (.aux (twoName "max_two_variables" 0 (.term importTerm) (.float 4) ++ "-binary") 1, 1),
      (.aux (twoName "max_two_variables" 1 (.term importTerm) (.float 4) ++ "-continuous") 1, 5) ]

set_option maxRecDepth 10000 in
theorem demoMaxTwo_test : demoMaxTwo.test (fun s r => decide (s.assets = []) && decide (s.data.n = 2) &&
    decide (r.status.objective = some 193)) = true := by
  decide +kernel

/-- 7 times the greatest import: 130 + 7 * 5. -/
def demoMaxMany : Demo :=
  demoTerms [.many "max_many_variables" importTerm 100 0 7]
    [ (.aux (manyName "max_many_variables" importTerm 100 0 7 ++ "-continuous") 1, 5),
      (.aux (manyName "max_many_variables" importTerm 100 0 7 ++ "-binary-1") 1, 1) ]

set_option maxRecDepth 10000 in
theorem demoMaxMany_test : demoMaxMany.testOptimal [-10, 0, 0, 0, 0, 0, -27, 0, 0, 0, 0, 0, 0, 0, -7]
    [(continuous (.site "export_power_mw" 0) (up := some 10000), 10), (continuous (.site "export_power_mw" 1) (up := some 10000), 27)]
    (fun s r => decide (s.assets = []) && decide (s.data.n = 2) && decide (r.status.objective = some 165)) = true := by
  decide +kernel

end EPL
