/-
Demonstrations for larger sites: a battery of 2 MWh and one of 4 MWh, electric loads 5 and 5, electricity prices 10 and 100.
-/
import Verif.Spec.DemoCustom
import Verif.Spec.Cost

namespace EPL

/-- A battery of the given capacity. -/
def growBattery (capacity : ℚ) : BatteryCfg where
  name := "battery"
  chargePower := 4
  dischargePower := 4
  capacity := capacity
  efficiency := 1
  initialCharge := 0
  finalCharge := 0
  freqMins := 60

/-- Fill the battery at the low price, empty it at the high price. -/
def demoGrow (capacity : ℚ) : Demo where
  assets := [.battery (growBattery capacity)]
  raw := { electricityPrices := prices [10, 100], electricLoad := prices [5, 5] }
  objective := .str "price"
  answer :=
    [ (.site "import_power_mw" 0, 5 + capacity), (.site "import_power_bin" 0, 1), (.site "import_power_mw" 1, 5 - capacity),
      (.site "import_power_bin" 1, 1), (.asset "battery" "electric_charge_mwh" 0, capacity), (.asset "battery" "electric_charge_binary" 0, 1),
      (.asset "battery" "electric_final_charge_mwh" 0, capacity), (.asset "battery" "electric_initial_charge_mwh" 1, capacity),
      (.asset "battery" "electric_discharge_mwh" 1, capacity), (.asset "battery" "electric_discharge_binary" 1, 1) ]

/-- The multipliers that prove optimality. -/
def growLam (capacity : ℚ) : List ℚ :=
  [-10, 0, 0, 0, 0, 0, 90, 0, 90 * capacity, -100, -100, -100, 0, 0, 0, 0, 0, 0, 0, 0, -100, -100, -100, 100, -100]

/-- The multipliers of the bounds. -/
def growMu (capacity : ℚ) : List (LpVar × ℚ) :=
  [ (continuous (.asset "battery" "electric_discharge_mwh" 0) (up := some 4), 90),
    (binary (.asset "battery" "electric_discharge_binary" 0), 90 * capacity) ]

set_option maxRecDepth 10000 in
theorem demoGrow_small : (demoGrow 2).testOptimal (growLam 2) (growMu 2)
    (fun s r => decide (s.assets = [.battery (growBattery 2)]) && decide (s.data.n = 2) && decide (r.status.objective = some 370)) = true := by
  decide +kernel

set_option maxRecDepth 10000 in
theorem demoGrow_large : (demoGrow 4).testOptimal (growLam 4) (growMu 4)
    (fun s r => decide (s.assets = [.battery (growBattery 4)]) && decide (s.data.n = 2) && decide (r.status.objective = some 190)) = true := by
  decide +kernel

/-- No import above 7. -/
def growConstraint : Constraint where
  lhs := .one (.term { attr := "import_power_mwh", assetType := some "site" })
  rhs := .one (.num 7)
  sense := .le
  sumAgg := false

/-- The battery of 4 MWh with a limit on the imports. -/
def demoLimited : Demo := { demoGrow 4 with constraints := [growConstraint], answer := (demoGrow 2).answer }

set_option maxRecDepth 10000 in
theorem demoLimited_test : demoLimited.test (fun s r => decide (s.assets = [.battery (growBattery 4)]) && decide (s.data.n = 2) &&
    decide (r.status.objective = some 370)) = true := by
  decide +kernel

set_option maxRecDepth 10000 in
theorem demoLimited_optimal : demoLimited.testOptimal
    [-100, 0, 0, 0, 0, 0, 0, 0, 0, -100, -100, -100, 0, 0, 0, 0, 0, 0, 0, 0, -100, -100, -100, 100, -100, 90, 0]
    [ (continuous (.site "export_power_mw" 0) (up := some 10000), 90) ]
    (fun s r => decide (s.assets = [.battery (growBattery 4)]) && decide (s.data.n = 2) && decide (s.constraints = [growConstraint]) &&
      decide (r.status.objective = some 370)) = true := by
  decide +kernel

/-- A site with a spill asset that imports its load. -/
def demoIdleSpill : Demo where
  assets := [.spill ⟨"spill"⟩]
  raw := { electricityPrices := prices [10], electricLoad := prices [5] }
  objective := .str "price"
  answer := [ (.site "import_power_mw" 0, 5), (.site "import_power_bin" 0, 1) ]

set_option maxRecDepth 10000 in
theorem demoIdleSpill_test : demoIdleSpill.testOptimal [-10]
    [ (continuous (.asset "spill" "electric_generation_mwh" 0), 10 ^ 11 - 10), (continuous (.asset "spill" "electric_load_mwh" 0), 10 ^ 11 + 10),
      (continuous (.asset "spill" "high_temperature_generation_mwh" 0), 10 ^ 11) ]
    (fun s r => decide (s.assets = [.spill ⟨"spill"⟩]) && decide (s.data.n = 1) && decide (r.status.objective = some 50) &&
      ["spill-electric_generation_mwh", "spill-electric_load_mwh", "spill-high_temperature_generation_mwh"].all (fun k =>
        decide (k ∈ r.results.columns) && decide (r.results.cell k 0 = some 0))) = true := by
  decide +kernel

set_option maxRecDepth 10000 in
theorem demoIdleSpill_answer : (demoIdleSpill.site.bind (fun s => (s.program (.str "price") {}).map (fun q =>
    decide (q.2.Feasible (tab demoIdleSpill.answer)) && decide (s.spillOf {} (tab demoIdleSpill.answer) = 0) && decide (s.costOf (tab demoIdleSpill.answer) = 50)))) =
      .ok true := by
  decide +kernel

end EPL
