/-
What accounts are, in terms of the numbers in two results tables.
-/
import Verif.Spec.Cost

namespace EPL

/-- A frame of `n` rows whose numbers are `V column row`. -/
structure Table.Frame (t : Table) (n : Nat) (V : String → Nat → ℚ) : Prop where
  rows : ∀ c ∈ t, c.2.length = n
  reads : t.Reads n V

/-- Prices (or carbon intensities) times energy, over `n` rows. -/
def priced (n : Nat) (price energy : Nat → ℚ) : ℚ := ((List.range n).map (fun i => price i * energy i)).sum

/-- The accounts of energy flows `V` at prices `W`, over `n` rows; `rows` is the number of rows of the flows. -/
structure Accounts.Of (V W : String → Nat → ℚ) (n rows : Nat) (a : Accounts) : Prop where
  importCost : a.electricity.importCost = priced n (W "site-electricity_prices") (V "site-import_power_mwh")
  exportCost : a.electricity.exportCost = - priced n (W "site-electricity_prices") (V "site-export_power_mwh")
  electricityCost : a.electricity.cost = a.electricity.importCost + a.electricity.exportCost
  importEmissions : a.electricity.importEmissions = priced n (W "site-electricity_carbon_intensities") (V "site-import_power_mwh")
  exportEmissions : a.electricity.exportEmissions = - priced n (W "site-electricity_carbon_intensities") (V "site-export_power_mwh")
  electricityEmissions : a.electricity.emissions = a.electricity.importEmissions + a.electricity.exportEmissions
  gasCost : a.gas.cost = priced n (W "site-gas_prices") (V "total-gas_consumption_mwh")
  gasEmissions : a.gas.emissions = 185 / 1000 * colSum V rows "total-gas_consumption_mwh"

end EPL
