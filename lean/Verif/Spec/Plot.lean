/-
What the plots show and what they leave behind, in terms of the numbers in the results.
-/
import Verif.Model.Plot
import Verif.Spec.Accounts
import Verif.Spec.Columns
import Verif.Spec.Order

namespace EPL

/-- The line (or the bars) of a quantity `f` over `n` intervals. -/
def line (axis : Nat) (label : String) (n : Nat) (f : Nat → ℚ) : Drawn :=
  { axis, label, xs := (List.range n).map (fun i : Nat => (i : ℚ)), ys := (List.range n).map f }

/-- Bars of a quantity `f` on top of a quantity `g`, set off sideways by `shift`. -/
def bars (label : String) (n : Nat) (shift : ℚ) (f g : Nat → ℚ) : Drawn :=
  { axis := 1, label, xs := (List.range n).map (fun i : Nat => (i : ℚ) + shift), ys := (List.range n).map f, bottom := (List.range n).map g }

/-- The battery plot: power balance, net charge, state of charge, prices and carbon intensities. -/
def batteryPicture (V : String → Nat → ℚ) (n : Nat) : List Drawn :=
  [ line 0 "import-export-balance" n (fun i => V "site-import_power_mwh" i - V "site-export_power_mwh" i),
    line 1 "net-battery-charge" n (fun i => V "battery-electric_charge_mwh" i - V "battery-electric_discharge_mwh" i),
    line 2 "battery-electric_final_charge_mwh" n (V "battery-electric_final_charge_mwh"),
    line 3 "site-electricity_prices" n (V "site-electricity_prices"),
    line 4 "site-electricity_carbon_intensities" n (V "site-electricity_carbon_intensities") ]

/-- The CHP plot: power balance, boiler, dumped heat, prices and carbon intensities. -/
def chpPicture (V : String → Nat → ℚ) (n : Nat) : List Drawn :=
  [ line 0 "import-export-balance" n (fun i => V "site-import_power_mwh" i - V "site-export_power_mwh" i),
    line 1 "boiler-high_temperature_generation_mwh" n (V "boiler-high_temperature_generation_mwh"),
    line 2 "spill-low_temperature_load_mwh" n (V "spill-low_temperature_load_mwh"),
    line 3 "site-electricity_prices" n (V "site-electricity_prices"),
    line 4 "site-electricity_carbon_intensities" n (V "site-electricity_carbon_intensities") ]

/-- The heat pump plot of rounded numbers `R`: high temperature heat, the stack of low temperature loads beside the stack of low
temperature generation, prices and carbon intensities. -/
def heatPumpPicture (name : String) (V R : String → Nat → ℚ) (n : Nat) : List Drawn :=
  [ line 0 "site-high_temperature_load_mwh" n (V "site-high_temperature_load_mwh"),
    line 0 (name ++ "-high_temperature_generation_mwh") n (V (name ++ "-high_temperature_generation_mwh")),
    bars "spill-low_temperature_load_mwh" n (-15/100) (R "spill-low_temperature_load_mwh") (fun _ => 0),
    bars "site-low_temperature_load_mwh" n (-15/100) (R "site-low_temperature_load_mwh") (R "spill-low_temperature_load_mwh"),
    bars (name ++ "-low_temperature_load_mwh") n (-15/100) (R (name ++ "-low_temperature_load_mwh"))
      (fun i => R "spill-low_temperature_load_mwh" i + R "site-low_temperature_load_mwh" i),
    bars "site-low_temperature_generation_mwh" n (15/100) (R "site-low_temperature_generation_mwh") (fun _ => 0),
    bars "spill-low_temperature_generation_mwh" n (15/100) (R "spill-low_temperature_generation_mwh")
      (R "site-low_temperature_generation_mwh"),
    bars "valve-low_temperature_generation_mwh" n (15/100) (R "valve-low_temperature_generation_mwh")
      (fun i => R "site-low_temperature_generation_mwh" i + R "spill-low_temperature_generation_mwh" i),
    line 2 "site-electricity_prices" n (V "site-electricity_prices"),
    line 2 "site-electricity_carbon_intensities" n (V "site-electricity_carbon_intensities") ]

/-- The columns whose numbers the heat pump plot rounds. -/
def roundedColumns (name : String) : List String :=
  [ "spill-low_temperature_load_mwh", "site-low_temperature_load_mwh", name ++ "-low_temperature_load_mwh",
    "site-low_temperature_generation_mwh", "spill-low_temperature_generation_mwh", "valve-low_temperature_generation_mwh" ]

/-- `t'` is `t` with the columns of `new` behind it: nothing that was there has changed. -/
def Table.ExtendedBy (t t' : Table) (new : List String) : Prop :=
  t'.columns = t.columns ++ new ∧ ∀ k ∈ t.columns, t'.lookup k = t.lookup k

/-- A site whose results the battery plot can draw: there is a battery called "battery", and no battery and no EVs whose name begins with
"battery-". -/
def Site.PlotsBattery (s : Site) : Prop :=
  (∃ c, Asset.battery c ∈ s.assets ∧ c.name = "battery") ∧
  (∀ c, Asset.battery c ∈ s.assets → ¬ "battery-".toList <+: c.name.toList) ∧
  ∀ c, Asset.evs c ∈ s.assets → ¬ "battery-".toList <+: c.name.toList

/-- The columns the accounts are made of. -/
def accountColumns : List String :=
  ["site-import_power_mwh", "site-export_power_mwh", "site-electricity_prices", "site-electricity_carbon_intensities", "site-gas_prices",
    "total-electric_generation_mwh", "total-electric_load_mwh", "total-high_temperature_generation_mwh",
    "total-low_temperature_generation_mwh", "total-high_temperature_load_mwh", "total-low_temperature_load_mwh",
    "total-gas_consumption_mwh", "total-electric_charge_mwh", "total-electric_discharge_mwh", "total-spills_mwh",
    "total-electric_loss_mwh"]

/-- A site with one EVs asset whose chargers and charge events cannot be mistaken for the columns of a battery or custom data. -/
structure Site.OneFleet (s : Site) (c : EvsCfg) : Prop where
  fleet : s.fleets = [c]
  batteries : ∀ b, Asset.battery b ∈ s.assets → pyIn "charger-" (b.name ++ "-") = false ∧ pyIn "charge-event-" (b.name ++ "-") = false
  custom : ∀ f ∈ s.data.custom, pyIn "charger-" f.1 = false ∧ pyIn "charge-event-" f.1 = false

/-- The names of the chargers, the spill charger last. -/
def EvsCfg.chargerUnits (c : EvsCfg) : List String :=
  (List.range c.chargers.length).map (fun k => c.name ++ "-charger-" ++ toString k) ++ [c.name ++ "-charger-spill-" ++ c.name]

/-- The names of the charge events. -/
def EvsCfg.eventUnits (c : EvsCfg) : List String := (List.range c.events.length).map (fun e => c.name ++ "-charge-event-" ++ toString e)

/-- Charge minus discharge of a charger or charge event. -/
def netCharge (V : String → Nat → ℚ) (u : String) (i : Nat) : ℚ := V (u ++ "-electric_charge_mwh") i - V (u ++ "-electric_discharge_mwh") i

/-- The EVs plot: net charge of every charger, the spill charger last; net charge of every charge event, with the states of charge before
and after as text, hidden where the vehicle is not plugged in; the spill charger; prices. -/
def evsPicture (c : EvsCfg) (V : String → Nat → ℚ) (n : Nat) : EvsPicture where
  chargers := c.chargerUnits.map (fun u => (List.range n).map (netCharge V u))
  events := c.eventUnits.map (fun u => (List.range n).map (netCharge V u))
  annotations := c.eventUnits.map (fun u => (List.range n).map (fun i =>
    (V (u ++ "-initial_soc_mwh") i, netCharge V u i, V (u ++ "-final_soc_mwh") i)))
  hidden := (List.range c.events.length).map (fun e => c.chargeEvents.map (fun row => decide (row.getD e 0 = 0)))
  spill := (List.range n).map (V (c.name ++ "-charger-spill-" ++ c.name ++ "-electric_charge_mwh"))
  prices := (List.range n).map (V "site-electricity_prices")

end EPL
