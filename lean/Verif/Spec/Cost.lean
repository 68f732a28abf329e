/-
The cost and the emissions of a dispatch, for an assignment of the variables and as read from the results.
-/
import Verif.Spec.Balance
import Verif.Spec.EvVars

namespace EPL

/-- The gas an asset burns in interval `i`: only CHPs and boilers do. -/
def Asset.gasOf (σ : Assign) (i : Nat) : Asset → ℚ
  | .chp c => σ (.asset c.name "gas_consumption_mwh" i)
  | .boiler c => σ (.asset c.name "gas_consumption_mwh" i)
  | _ => 0

/-- The energy that is penalised in interval `i`: what a spill asset generates or takes as electricity and generates as high
temperature heat (low temperature heat it takes is free), and what the spill charger of electric vehicles gives to the charge
events. -/
def Asset.spilledOf (flags : Flags) (σ : Assign) (i : Nat) : Asset → ℚ
  | .spill c => σ (.asset c.name "electric_generation_mwh" i) + σ (.asset c.name "electric_load_mwh" i) +
      σ (.asset c.name "high_temperature_generation_mwh" i)
  | .evs c => (c.spillChargers.map (fun ch => c.sumEvents (fun e => c.chargeOf flags σ i e ch.name true))).sum
  | _ => 0

/-- The import of the site in interval `i`, in MWh. -/
def importOf (σ : Assign) (i : Nat) : ℚ := σ (.site "import_power_mw" i)

/-- The export of the site in interval `i`, in MWh. -/
def exportOf (σ : Assign) (i : Nat) : ℚ := σ (.site "export_power_mw" i)

/-- All gas burnt in interval `i`. -/
def Site.gasOf (s : Site) (σ : Assign) (i : Nat) : ℚ := (s.assets.map (Asset.gasOf σ i)).sum

/-- All penalised energy of interval `i`. -/
def Site.spilledOf (s : Site) (flags : Flags) (σ : Assign) (i : Nat) : ℚ := (s.assets.map (Asset.spilledOf flags σ i)).sum

/-- A sum over the intervals of a site. -/
def Site.sumIntervals (s : Site) (g : Nat → ℚ) : ℚ := ((List.range s.data.n).map g).sum

/-- The cost of a dispatch without penalties. -/
def Site.costOf (s : Site) (σ : Assign) : ℚ :=
  s.sumIntervals (fun i => importOf σ i * s.data.electricityPrices.getD i 0 - exportOf σ i * s.data.exportElectricityPrices.getD i 0 +
    s.gasOf σ i * s.data.gasPrices.getD i 0)

/-- The emissions of a dispatch: 0.185 per MWh of gas. -/
def Site.emissionsOf (s : Site) (σ : Assign) : ℚ :=
  s.sumIntervals (fun i => (importOf σ i - exportOf σ i) * s.data.electricityCarbonIntensities.getD i 0 + s.gasOf σ i * (185 / 1000))

/-- The penalised energy of all intervals. -/
def Site.spillOf (s : Site) (flags : Flags) (σ : Assign) : ℚ := s.sumIntervals (s.spilledOf flags σ)

/-- The penalty per MWh. -/
def spillPenalty : ℚ := 10 ^ 11

/-- The columns with penalised energy. -/
def Asset.penalised : Asset → List String
  | .spill c => [c.name ++ "-electric_generation_mwh", c.name ++ "-electric_load_mwh", c.name ++ "-high_temperature_generation_mwh"]
  | .evs c => c.spillChargers.map (fun ch => c.name ++ "-" ++ ch.name ++ "-electric_charge_mwh")
  | _ => []

/-- The cost read from the results. -/
def Site.readCost (s : Site) (V : String → Nat → ℚ) : ℚ :=
  s.sumIntervals (fun i => V "site-import_power_mwh" i * V "site-electricity_prices" i -
    V "site-export_power_mwh" i * V "site-export_electricity_prices" i + s.assetSum V "gas_consumption_mwh" i * V "site-gas_prices" i)

/-- The emissions read from the results. -/
def Site.readEmissions (s : Site) (V : String → Nat → ℚ) : ℚ :=
  s.sumIntervals (fun i => (V "site-import_power_mwh" i - V "site-export_power_mwh" i) * V "site-electricity_carbon_intensities" i +
    s.assetSum V "gas_consumption_mwh" i * (185 / 1000))

/-- The penalised energy read from the results. -/
def Site.readSpill (s : Site) (V : String → Nat → ℚ) : ℚ :=
  s.sumIntervals (fun i => (s.assets.map (fun a => rowSum V a.penalised i)).sum)

end EPL
