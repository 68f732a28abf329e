/-
The vocabulary of the property about the resolution of the intervals: the same plant with shorter intervals.
-/
import Verif.Spec.Dispatch
import Verif.Spec.Limit

namespace EPL

/-- Every entry `k` times: `numpy.repeat(l, k)`. -/
def repeatEach {α : Type} (k : Nat) (l : List α) : List α := l.flatMap (List.replicate k)

/-- Every entry split evenly into `k` parts: `numpy.repeat(l, k) / k`. -/
def spreadEach (k : Nat) (l : List ℚ) : List ℚ := (repeatEach k l).map (fun q => q / k)

/-- The interval data with every interval split into `k`: prices and carbon intensities stay, energies are split evenly. -/
def SiteData.finer (k : Nat) (d : SiteData) : SiteData where
  n := d.n * k
  electricityPrices := repeatEach k d.electricityPrices
  exportElectricityPrices := repeatEach k d.exportElectricityPrices
  electricityCarbonIntensities := repeatEach k d.electricityCarbonIntensities
  gasPrices := repeatEach k d.gasPrices
  electricLoad := spreadEach k d.electricLoad
  htLoad := spreadEach k d.htLoad
  ltLoad := spreadEach k d.ltLoad
  ltGeneration := spreadEach k d.ltGeneration
  custom := d.custom.map (fun f => (f.1, repeatEach k f.2))

/-- An asset with every interval split into `k`: the available generation is split evenly, a vehicle is plugged in during the parts of the intervals it was
plugged in; powers and capacities stay. -/
def Asset.finer (k : Nat) : Asset → Asset
  | .renewable c => .renewable { c with generation := spreadEach k c.generation, idxLen := c.idxLen * k }
  | .evs c => .evs { c with chargeEvents := repeatEach k c.chargeEvents }
  | a => a

/-- The same plant with every interval split into `k`: an hourly site becomes a half hourly one for `k = 2`. -/
def Site.finer (k : Nat) (s : Site) : Site :=
  { s with assets := s.assets.map (Asset.finer k), data := s.data.finer k, freqMins := s.freqMins / k }

end EPL
