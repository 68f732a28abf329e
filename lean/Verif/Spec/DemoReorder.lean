/-
A demonstration for the order of the assets: a spill and a valve, in either order.
-/
import Verif.Spec.DemoOptimal
import Verif.Spec.DemoSites

namespace EPL

/-- A site that imports its load. -/
def demoOrder (assets : List Asset) : Demo where
  assets := assets
  raw := { electricityPrices := prices [10], electricLoad := prices [5] }
  objective := .str "price"
  answer := [ (.site "import_power_mw" 0, 5), (.site "import_power_bin" 0, 1) ]

/-- The multipliers that prove the answer of `demoOrder` optimal. -/
def demoOrderMu : List (LpVar × ℚ) :=
  [ (continuous (.asset "spill" "electric_generation_mwh" 0), 10 ^ 11 - 10), (continuous (.asset "spill" "electric_load_mwh" 0), 10 ^ 11 + 10),
    (continuous (.asset "spill" "high_temperature_generation_mwh" 0), 10 ^ 11) ]

set_option maxRecDepth 10000 in
theorem demoOrder_one : (demoOrder [.spill ⟨"spill"⟩, .valve defaultValve]).testOptimal [-10] demoOrderMu
    (fun s r => decide (s.assets = [.spill ⟨"spill"⟩, .valve defaultValve]) && decide (r.status.objective = some 50)) = true := by
  decide +kernel

set_option maxRecDepth 10000 in
theorem demoOrder_two : (demoOrder [.valve defaultValve, .spill ⟨"spill"⟩]).testOptimal [-10] demoOrderMu
    (fun s r => decide (s.assets = [.valve defaultValve, .spill ⟨"spill"⟩]) && decide (r.status.objective = some 50)) = true := by
  decide +kernel

end EPL
