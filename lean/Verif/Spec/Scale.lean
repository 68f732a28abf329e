/-
The vocabulary of the property about the scale of a plant: the same plant, `q` times as large.
-/
import Verif.Spec.Dispatch

namespace EPL

/-- The interval data of a plant `q` times as large: energies are multiplied, prices and carbon intensities stay. -/
def SiteData.scaled (q : ℚ) (d : SiteData) : SiteData :=
  { d with
    electricLoad := d.electricLoad.map (q * ·)
    htLoad := d.htLoad.map (q * ·)
    ltLoad := d.ltLoad.map (q * ·)
    ltGeneration := d.ltGeneration.map (q * ·) }

/-- An asset `q` times as large: powers and energies are multiplied, efficiencies stay.  (Electric vehicles stay as they are, the property leaves them
out.) -/
def Asset.scaled (q : ℚ) : Asset → Asset
  | .battery c => .battery { c with
      chargePower := q * c.chargePower, dischargePower := q * c.dischargePower, capacity := q * c.capacity, initialCharge := q * c.initialCharge,
      finalCharge := q * c.finalCharge }
  | .boiler c => .boiler { c with heatMax := q * c.heatMax, heatMin := q * c.heatMin }
  | .chp c => .chp { c with powerMax := q * c.powerMax, powerMin := q * c.powerMin }
  | .heatPump c => .heatPump { c with power := q * c.power }
  | .renewable c => .renewable { c with generation := c.generation.map (q * ·) }
  | a => a

/-- The same plant, `q` times as large. -/
def Site.scaled (q : ℚ) (s : Site) : Site :=
  { s with assets := s.assets.map (Asset.scaled q), data := s.data.scaled q, importLimit := q * s.importLimit, exportLimit := q * s.exportLimit }

end EPL
