/-
Prices that are not known: scenarios with their probabilities.
-/
import Verif.Spec.Prices

namespace EPL

/-- The mean of a number over `m` scenarios with weights `w`. -/
def meanOver (m : Nat) (w g : Nat → ℚ) : ℚ := ((List.range m).map (fun k => w k * g k)).sum

/-- The prices and carbon intensities in the results `V` are the means of those in the results `W k` of the scenarios. -/
structure Site.Expects (s : Site) (m : Nat) (w : Nat → ℚ) (V : String → Nat → ℚ) (W : Nat → String → Nat → ℚ) : Prop where
  nonneg : ∀ k < m, 0 ≤ w k
  total : meanOver m w (fun _ => 1) = 1
  prices : ∀ c ∈ ["site-electricity_prices", "site-export_electricity_prices", "site-gas_prices", "site-electricity_carbon_intensities"],
    ∀ i < s.data.n, V c i = meanOver m w (fun k => W k c i)

/-- What wrong prices can cost at most: the error of the import price on all the import connection can carry, the error of the export price on all the export
connection can carry, and the error of the gas price on the gas `g i`. -/
def Site.priceErrors (s : Site) (V V' : String → Nat → ℚ) (g : Nat → ℚ) : ℚ :=
  s.sumIntervals (fun i => |V' "site-electricity_prices" i - V "site-electricity_prices" i| * (s.importLimit * s.freqMins / 60) +
    |V' "site-export_electricity_prices" i - V "site-export_electricity_prices" i| * (s.exportLimit * s.freqMins / 60) +
    |V' "site-gas_prices" i - V "site-gas_prices" i| * g i)

/-- The same for carbon intensities, on an energy `e` in each interval. -/
def Site.carbonErrors (s : Site) (V V' : String → Nat → ℚ) (e : ℚ) : ℚ :=
  s.sumIntervals (fun i => |V' "site-electricity_carbon_intensities" i - V "site-electricity_carbon_intensities" i| * e)

end EPL
