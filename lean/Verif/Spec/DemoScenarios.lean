/-
Demonstration for C99 and C100: the battery of 4 MWh at the mean of the carbon intensities 0.9, 0.1 and 0.1, 1.
-/
import Verif.Spec.DemoMargin
import Verif.Spec.Scenarios

namespace EPL

/-- The multipliers that prove the dispatch optimal when electricity is worth `a`, then `b`, at least as much. -/
def meanLam (a b : ℚ) : List ℚ :=
  [-a, 0, 0, 0, 0, 0, b - a, 0, (b - a) * 4, -b, -b, -b, 0, 0, 0, 0, 0, 0, 0, 0, -b, -b, -b, b, -b]

/-- The multipliers of the bounds. -/
def meanMu (a b : ℚ) : List (LpVar × ℚ) :=
  [ (continuous (.asset "battery" "electric_discharge_mwh" 0) (up := some 4), b - a),
    (binary (.asset "battery" "electric_discharge_binary" 0), (b - a) * 4) ]

set_option maxRecDepth 10000 in
theorem demoMean_carbon : (demoPrices [10, 100] [10, 100] [1/2, 11/20] [20, 20] "carbon" (demoGrow 4).answer).testOptimal (meanLam (1/2) (11/20))
    (meanMu (1/2) (11/20)) (pricesTest (101/20)) = true := by
  decide +kernel

end EPL
