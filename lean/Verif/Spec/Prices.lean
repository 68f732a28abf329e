/-
The vocabulary of the properties about prices: the same plant under other prices and carbon intensities.
-/
import Verif.Spec.Cost

namespace EPL

/-- The prices and carbon intensities of a site, one number per interval. -/
structure Prices where
  electricity : List ℚ
  exportElectricity : List ℚ
  carbon : List ℚ
  gas : List ℚ

/-- The same site with other prices and carbon intensities: loads, assets, limits and custom constraints stay. -/
def Site.withPrices (s : Site) (q : Prices) : Site :=
  { s with data := { s.data with electricityPrices := q.electricity, exportElectricityPrices := q.exportElectricity,
                                 electricityCarbonIntensities := q.carbon, gasPrices := q.gas } }

/-- The interval data that the properties change. -/
def priceNames : List String := ["electricity_prices", "export_electricity_prices", "electricity_carbon_intensities", "gas_prices"]

/-- A side of a custom constraint that is not multiplied by prices or carbon intensities. -/
def CSide.PriceFree (side : CSide) : Prop := ∀ t, CEntry.term t ∈ side.entries → ∀ d, t.intervalData = some d → d ∉ priceNames

/-- A custom constraint that is not multiplied by prices or carbon intensities. -/
def Constraint.PriceFree (c : Constraint) : Prop := c.lhs.PriceFree ∧ c.rhs.PriceFree

/-- The cost of the dispatch in the results `V` at the prices in the results `W`. -/
def Site.readCostAt (s : Site) (V W : String → Nat → ℚ) : ℚ :=
  s.sumIntervals (fun i => V "site-import_power_mwh" i * W "site-electricity_prices" i -
    V "site-export_power_mwh" i * W "site-export_electricity_prices" i + s.assetSum V "gas_consumption_mwh" i * W "site-gas_prices" i)

/-- The emissions of the dispatch in the results `V` at the carbon intensities in the results `W`. -/
def Site.readEmissionsAt (s : Site) (V W : String → Nat → ℚ) : ℚ :=
  s.sumIntervals (fun i => (V "site-import_power_mwh" i - V "site-export_power_mwh" i) * W "site-electricity_carbon_intensities" i +
    s.assetSum V "gas_consumption_mwh" i * (185 / 1000))

/-- A CHP whose gas use is tied to what it generates. -/
def Asset.GasTied : Asset → Prop
  | .chp c => 0 < c.electricEfficiency ∨ c.htEfficiency ≠ 0 ∨ c.ltEfficiency ≠ 0
  | _ => True

end EPL
