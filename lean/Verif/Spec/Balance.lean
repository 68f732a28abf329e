/-
Which columns of the results report the energy flows of which asset.
-/
import Verif.Spec.Run

namespace EPL

/-- The flows an asset reports (docs and results/extract.py): one column `<unit>-<flow>` each. -/
def Asset.flows : Asset → List String
  | .battery _ => ["electric_charge_mwh", "electric_discharge_mwh"]
  | .boiler _ => ["high_temperature_generation_mwh", "gas_consumption_mwh"]
  | .chp _ =>
    ["electric_generation_mwh", "gas_consumption_mwh", "high_temperature_generation_mwh", "low_temperature_generation_mwh"]
  | .evs _ => ["electric_charge_mwh", "electric_discharge_mwh"]
  | .heatPump _ => ["electric_load_mwh", "low_temperature_load_mwh", "high_temperature_generation_mwh"]
  | .renewable _ => ["electric_generation_mwh"]
  | .spill _ => ["electric_generation_mwh", "electric_load_mwh", "high_temperature_generation_mwh",
      "low_temperature_generation_mwh", "high_temperature_load_mwh", "low_temperature_load_mwh", "gas_consumption_mwh"]
  | .valve _ => ["high_temperature_load_mwh", "low_temperature_generation_mwh"]

/-- The units of an asset: the asset itself, except that EVs report per charger, the spill charger included. -/
def Asset.units : Asset → List String
  | .evs c => (c.chargers ++ c.spillChargers).map (fun ch => c.name ++ "-" ++ ch.name)
  | a => [a.name]

/-- The columns that report a flow of an asset. -/
def Asset.reports (a : Asset) (flow : String) : List String :=
  if flow ∈ a.flows then a.units.map (fun u => u ++ "-" ++ flow) else []

/-- A flow of all assets of a site, as read from the columns of row `i`. -/
def Site.assetSum (s : Site) (V : String → Nat → ℚ) (flow : String) (i : Nat) : ℚ :=
  (s.assets.map (fun a => rowSum V (a.reports flow) i)).sum

/-- The flows the site itself reports. -/
def siteFlows : List String :=
  ["electric_load_mwh", "high_temperature_load_mwh", "low_temperature_load_mwh", "low_temperature_generation_mwh"]

/-- The flows that have a total. -/
def totalFlows : List String :=
  [ "electric_generation_mwh", "electric_load_mwh", "high_temperature_generation_mwh", "low_temperature_generation_mwh", "high_temperature_load_mwh",
    "low_temperature_load_mwh", "gas_consumption_mwh", "electric_charge_mwh", "electric_discharge_mwh" ]

/-- A name that contains no quantity name and no "charge-event". -/
structure PlainName (name : String) : Prop where
  quantity : ∀ q ∈ totalFlows, pyIn q name = false
  event : pyIn "charge-event" name = false

instance (name : String) : Decidable (PlainName name) :=
  decidable_of_iff ((∀ q ∈ totalFlows, pyIn q name = false) ∧ pyIn "charge-event" name = false)
    ⟨fun h => ⟨h.1, h.2⟩, fun h => ⟨h.quantity, h.event⟩⟩

/-- No asset name contains a quantity name or "charge-event" and no custom data name contains a quantity name. -/
structure Site.PlainNames (s : Site) : Prop where
  assets : ∀ a ∈ s.assets, PlainName a.name
  custom : ∀ c ∈ s.data.custom, ∀ q ∈ totalFlows, pyIn q c.1 = false

end EPL
