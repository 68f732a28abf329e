/-
The vocabulary of the property about pooling: two sites behind one meter.
-/
import Verif.Spec.Dispatch

namespace EPL

/-- The sum, interval by interval. -/
def addEach (a b : List ℚ) : List ℚ := List.zipWith (· + ·) a b

/-- Two sites behind one meter: the assets of both, the loads added, the limits of the grid connections added, the prices of the first. -/
def Site.pooled (s t : Site) : Site where
  assets := s.assets ++ t.assets
  data := { s.data with
    electricLoad := addEach s.data.electricLoad t.data.electricLoad
    htLoad := addEach s.data.htLoad t.data.htLoad
    ltLoad := addEach s.data.ltLoad t.data.ltLoad
    ltGeneration := addEach s.data.ltGeneration t.data.ltGeneration
    custom := [] }
  freqMins := s.freqMins
  importLimit := s.importLimit + t.importLimit
  exportLimit := s.exportLimit + t.exportLimit
  constraints := []

/-- The two sites see the same prices and carbon intensities over the same intervals. -/
structure Site.Alike (s t : Site) : Prop where
  intervals : t.data.n = s.data.n
  freq : t.freqMins = s.freqMins
  prices : t.data.electricityPrices = s.data.electricityPrices
  exportPrices : t.data.exportElectricityPrices = s.data.exportElectricityPrices
  intensities : t.data.electricityCarbonIntensities = s.data.electricityCarbonIntensities
  gas : t.data.gasPrices = s.data.gasPrices

/-- Selling electricity never brings more than buying it costs. -/
def Site.NoArbitrage (s : Site) : Prop := ∀ i < s.data.n, s.data.exportElectricityPrices.getD i 0 ≤ s.data.electricityPrices.getD i 0

end EPL
