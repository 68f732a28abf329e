/-
The order of the columns of the results.
-/
import Verif.Spec.Columns
import Verif.Spec.Run

namespace EPL

/-- The columns of the chargers of an EVs asset, of its charge events, of their states of charge, and of its spill charger. -/
def EvsCfg.chargerColumns (c : EvsCfg) : List String :=
  (List.range c.chargers.length).flatMap (fun k => ["electric_charge_mwh", "electric_charge_binary", "electric_discharge_mwh",
    "electric_discharge_binary", "electric_loss_mwh"].map (fun q => c.name ++ "-charger-" ++ toString k ++ "-" ++ q))

/-- see `EvsCfg.chargerColumns` -/
def EvsCfg.eventColumns (c : EvsCfg) : List String :=
  (List.range c.events.length).flatMap (fun e => ["electric_charge_mwh", "electric_discharge_mwh", "electric_loss_mwh"].map
    (fun q => c.name ++ "-charge-event-" ++ toString e ++ "-" ++ q))

/-- see `EvsCfg.chargerColumns` -/
def EvsCfg.socColumns (c : EvsCfg) : List String :=
  (List.range c.events.length).map (fun e => c.name ++ "-charge-event-" ++ toString e ++ "-initial_soc_mwh") ++
  (List.range c.events.length).map (fun e => c.name ++ "-charge-event-" ++ toString e ++ "-final_soc_mwh")

/-- see `EvsCfg.chargerColumns` -/
def EvsCfg.spillColumns (c : EvsCfg) : List String :=
  ["electric_charge_mwh", "electric_charge_binary", "electric_discharge_mwh", "electric_discharge_binary", "electric_loss_mwh"].map
    (fun q => c.name ++ "-charger-spill-" ++ c.name ++ "-" ++ q)

/-- The columns of the assets of one class, in the order of the assets. -/
def Site.columnsOf (s : Site) (p : Asset → Bool) : List String := (s.assets.filter p).flatMap Asset.documentedColumns

/-- see `Site.columnsOf` -/
def Asset.isSpill : Asset → Bool | .spill _ => true | _ => false
/-- see `Site.columnsOf` -/
def Asset.isBattery : Asset → Bool | .battery _ => true | _ => false
/-- see `Site.columnsOf` -/
def Asset.isChp : Asset → Bool | .chp _ => true | _ => false
/-- see `Site.columnsOf` -/
def Asset.isBoiler : Asset → Bool | .boiler _ => true | _ => false
/-- see `Site.columnsOf` -/
def Asset.isHeatPump : Asset → Bool | .heatPump _ => true | _ => false
/-- see `Site.columnsOf` -/
def Asset.isRenewable : Asset → Bool | .renewable _ => true | _ => false

/-- The EVs assets. -/
def Site.fleets (s : Site) : List EvsCfg := s.assets.filterMap (fun a => match a with | .evs c => some c | _ => none)

/-- The columns of the results in their order, but for the balance of the site. -/
def Site.columnOrder (s : Site) : List String :=
  ["site-import_power_mwh", "site-export_power_mwh", "site-electricity_prices", "site-export_electricity_prices",
    "site-electricity_carbon_intensities", "site-gas_prices", "site-electric_load_mwh", "site-high_temperature_load_mwh",
    "site-low_temperature_load_mwh", "site-low_temperature_generation_mwh"] ++
  s.data.custom.map (fun f => "site-" ++ f.1) ++
  s.columnsOf Asset.isSpill ++ s.columnsOf Asset.isBattery ++ s.columnsOf Asset.isChp ++ s.columnsOf Asset.isBoiler ++
  s.columnsOf Asset.isValve ++
  s.fleets.flatMap (fun c => c.chargerColumns ++ c.eventColumns ++ c.socColumns) ++ s.fleets.flatMap EvsCfg.spillColumns ++
  s.columnsOf Asset.isHeatPump ++ s.columnsOf Asset.isRenewable ++
  totalColumns

end EPL
