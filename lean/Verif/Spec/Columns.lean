/-
The documented columns of the results.
-/
import Verif.Spec.Evs

namespace EPL

/-- The columns an asset contributes: `<asset name>-<quantity>`; EVs report per charger, per charge event and for the spill charger. -/
def Asset.documentedColumns : Asset → List String
  | .battery c => ["electric_charge_mwh", "electric_charge_binary", "electric_discharge_mwh", "electric_discharge_binary",
      "electric_loss_mwh", "electric_initial_charge_mwh", "electric_final_charge_mwh"].map (fun q => c.name ++ "-" ++ q)
  | .boiler c => ["high_temperature_generation_mwh", "gas_consumption_mwh"].map (fun q => c.name ++ "-" ++ q)
  | .chp c => ["electric_generation_mwh", "gas_consumption_mwh", "high_temperature_generation_mwh",
      "low_temperature_generation_mwh"].map (fun q => c.name ++ "-" ++ q)
  | .heatPump c => ["electric_load_mwh", "low_temperature_load_mwh", "high_temperature_generation_mwh"].map (fun q => c.name ++ "-" ++ q)
  | .renewable c => ["electric_generation_mwh"].map (fun q => c.name ++ "-" ++ q)
  | .spill c => ["electric_generation_mwh", "electric_load_mwh", "high_temperature_generation_mwh", "low_temperature_generation_mwh",
      "high_temperature_load_mwh", "low_temperature_load_mwh", "gas_consumption_mwh"].map (fun q => c.name ++ "-" ++ q)
  | .valve c => ["high_temperature_load_mwh", "low_temperature_generation_mwh"].map (fun q => c.name ++ "-" ++ q)
  | .evs c =>
    ((List.range c.chargers.length).map (fun k => c.name ++ "-charger-" ++ toString k) ++ [c.name ++ "-charger-spill-" ++ c.name]).flatMap
      (fun u => ["electric_charge_mwh", "electric_charge_binary", "electric_discharge_mwh", "electric_discharge_binary",
        "electric_loss_mwh"].map (fun q => u ++ "-" ++ q)) ++
    ((List.range c.events.length).map (fun e => c.name ++ "-charge-event-" ++ toString e)).flatMap
      (fun u => ["electric_charge_mwh", "electric_discharge_mwh", "electric_loss_mwh", "initial_soc_mwh", "final_soc_mwh"].map
        (fun q => u ++ "-" ++ q))

/-- The columns of the site itself. -/
def siteColumns : List String :=
  ["site-import_power_mwh", "site-export_power_mwh", "site-electricity_prices", "site-export_electricity_prices",
    "site-electricity_carbon_intensities", "site-gas_prices", "site-electric_load_mwh", "site-high_temperature_load_mwh",
    "site-low_temperature_load_mwh", "site-low_temperature_generation_mwh", "site-electricity_balance_mwh"]

/-- The totals. -/
def totalColumns : List String :=
  ["total-electric_generation_mwh", "total-electric_load_mwh", "total-high_temperature_generation_mwh",
    "total-low_temperature_generation_mwh", "total-high_temperature_load_mwh", "total-low_temperature_load_mwh",
    "total-gas_consumption_mwh", "total-electric_charge_mwh", "total-electric_discharge_mwh", "total-spills_mwh",
    "total-electric_loss_mwh"]

end EPL
