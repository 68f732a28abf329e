/-
Demonstrations of custom accounts: one interval, high temperature load 4, a boiler that burns 5, a charge of 3 on the gas.
-/
import Verif.Spec.DemoGuard

namespace EPL

/-- A charge of 3 on the gas of the asset called "boiler". -/
def gasByName : Term := { attr := "gas_consumption_mwh", assetName := some "boiler", coefficient := 3 }

/-- A charge of 3 on the gas of all boilers. -/
def gasByType : Term := { attr := "gas_consumption_mwh", assetType := some "boiler", coefficient := 3 }

/-- The demonstration. -/
def demoGas (t : Term) : Demo where
  assets := [.boiler defaultBoiler]
  raw := { electricityPrices := prices [10], htLoad := prices [4] }
  objective := .custom [.simple t]
  answer := [ (.site "import_power_bin" 0, 1), (.asset "boiler" "high_temperature_generation_mwh" 0, 4),
    (.asset "boiler" "binary_mwh" 0, 1), (.asset "boiler" "gas_consumption_mwh" 0, 5) ]

/-- The custom account of results is `q`. -/
def customIs (r : SimResult) (terms : List OneTerm) (q : ℚ) : Bool :=
  match getAccounts r.results none (some terms) with
  | .ok a => decide (a.custom.cost = q)
  | .error _ => false

set_option maxRecDepth 10000 in
theorem demoGasName_test : (demoGas gasByName).test (fun s r => decide (s.assets = [.boiler defaultBoiler]) && decide (r.status.objective = some 15) &&
    customIs r [.simple gasByName] 15) = true := by
  decide +kernel

set_option maxRecDepth 10000 in
theorem demoGasType_test : (demoGas gasByType).test (fun s r => decide (s.assets = [.boiler defaultBoiler]) && decide (r.status.objective = some 15) &&
    customIs r [.simple gasByType] 30) = true := by
  decide +kernel

end EPL
