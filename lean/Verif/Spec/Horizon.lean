/-
The vocabulary of the properties about planning horizons: a site over some of its intervals only.
-/
import Verif.Spec.Cost

namespace EPL

/-- The Python slice `l[k : k + m]`. -/
def slice (k m : Nat) (l : List ℚ) : List ℚ := (l.drop k).take m

/-- The interval data of the `m` intervals from `k` on. -/
def SiteData.part (d : SiteData) (k m : Nat) : SiteData where
  n := m
  electricityPrices := slice k m d.electricityPrices
  exportElectricityPrices := slice k m d.exportElectricityPrices
  electricityCarbonIntensities := slice k m d.electricityCarbonIntensities
  gasPrices := slice k m d.gasPrices
  electricLoad := slice k m d.electricLoad
  htLoad := slice k m d.htLoad
  ltLoad := slice k m d.ltLoad
  ltGeneration := slice k m d.ltGeneration
  custom := d.custom.map (fun f => (f.1, slice k m f.2))

/-- An asset over the `m` intervals from `k` on.  A battery starts and ends with the charges given by its name, a renewable generator has the
generation of those intervals, everything else is the same. -/
def Asset.part (k m : Nat) (start stop : String → ℚ) : Asset → Asset
  | .battery c => .battery { c with initialCharge := start c.name, finalCharge := stop c.name }
  | .renewable c => .renewable { c with generation := slice k m c.generation, idxLen := m }
  | a => a

/-- The same plant over the `m` intervals from `k` on, with the charges of the batteries at the beginning and at the end. -/
def Site.part (s : Site) (k m : Nat) (start stop : String → ℚ) : Site :=
  { s with assets := s.assets.map (Asset.part k m start stop), data := s.data.part k m }

/-- A plant whose intervals are tied together by batteries only: no electric vehicles, and custom constraints that are meant for every interval on
its own and do not use the number of the interval (or the limits of the site). -/
structure Site.Steady (s : Site) : Prop where
  noEvs : ∀ c, Asset.evs c ∉ s.assets
  constraints : ∀ c ∈ s.constraints, c.sumAgg = false ∧ ∀ side ∈ [c.lhs, c.rhs], ∀ t, CEntry.term t ∈ side.entries →
    t.intervalData ≠ some "idx" ∧ t.attr ≠ "import_limit_mwh" ∧ t.attr ≠ "export_limit_mwh"

/-- The batteries of the site start and end with these charges. -/
def Site.Charged (s : Site) (start stop : String → ℚ) : Prop :=
  ∀ c, Asset.battery c ∈ s.assets → c.initialCharge = start c.name ∧ c.finalCharge = stop c.name

/-- The cost of the `m` intervals from `k` on, read from the results. -/
def Site.readCostOf (s : Site) (V : String → Nat → ℚ) (k m : Nat) : ℚ :=
  ((List.range m).map (fun i => V "site-import_power_mwh" (k + i) * V "site-electricity_prices" (k + i) -
    V "site-export_power_mwh" (k + i) * V "site-export_electricity_prices" (k + i) +
    s.assetSum V "gas_consumption_mwh" (k + i) * V "site-gas_prices" (k + i))).sum

/-- The emissions of the `m` intervals from `k` on, read from the results. -/
def Site.readEmissionsOf (s : Site) (V : String → Nat → ℚ) (k m : Nat) : ℚ :=
  ((List.range m).map (fun i => (V "site-import_power_mwh" (k + i) - V "site-export_power_mwh" (k + i)) *
    V "site-electricity_carbon_intensities" (k + i) + s.assetSum V "gas_consumption_mwh" (k + i) * (185 / 1000))).sum

/-- The penalised energy of the `m` intervals from `k` on, read from the results. -/
def Site.readSpillOf (s : Site) (V : String → Nat → ℚ) (k m : Nat) : ℚ :=
  ((List.range m).map (fun i => (s.assets.map (fun a => rowSum V a.penalised (k + i))).sum)).sum

end EPL
