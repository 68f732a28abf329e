/-
The same site with another electric load.
-/
import Verif.Spec.Margin
import Verif.Spec.Pool

namespace EPL

/-- The same site with another electric load. -/
def Site.withLoad (s : Site) (L : List ℚ) : Site := { s with data := { s.data with electricLoad := L } }

/-- How much more load there is in interval `i` (negative if less). -/
def Site.extraLoad (s : Site) (L : List ℚ) (i : Nat) : ℚ := L.getD i 0 - s.data.electricLoad.getD i 0

/-- The grid connection can meet the change of the load alone, in every interval. -/
def Site.CanMeet (s : Site) (V : String → Nat → ℚ) (L : List ℚ) : Prop :=
  ∀ i < s.data.n, V "site-import_power_mwh" i - V "site-export_power_mwh" i + s.extraLoad L i ≤ s.importLimit * s.freqMins / 60 ∧
    V "site-export_power_mwh" i - V "site-import_power_mwh" i - s.extraLoad L i ≤ s.exportLimit * s.freqMins / 60

/-- What the additional load costs at import prices, less what the saved load brings at export prices. -/
def Site.gridCost (s : Site) (L : List ℚ) : ℚ :=
  s.sumIntervals (fun i => max (s.extraLoad L i) 0 * s.data.electricityPrices.getD i 0 - max (- s.extraLoad L i) 0 * s.data.exportElectricityPrices.getD i 0)

/-- What the additional load costs at export prices, less what the saved load brings at import prices. -/
def Site.lostSales (s : Site) (L : List ℚ) : ℚ :=
  s.sumIntervals (fun i => max (s.extraLoad L i) 0 * s.data.exportElectricityPrices.getD i 0 - max (- s.extraLoad L i) 0 * s.data.electricityPrices.getD i 0)

/-- The emissions of the change of the load at the carbon intensities of the grid. -/
def Site.gridEmissions (s : Site) (L : List ℚ) : ℚ :=
  s.sumIntervals (fun i => s.extraLoad L i * s.data.electricityCarbonIntensities.getD i 0)

end EPL
