/-
What a valid dispatch of a site is, without the program: a table of energies, read by column and row like the results, that respects the inputs, the
limits of the site, the three balances and the physics of every asset.  Nothing here mentions variables, constraints or binaries.
-/
import Verif.Spec.Cost
import Verif.Spec.Evs
import Verif.Spec.Reads

namespace EPL

/-- A valid dispatch of a battery: charge and discharge within the power (and the capacity), never both; a loss of `1 - efficiency` of the charge; a state
of charge that starts and ends as asked, stays within the capacity and moves by what goes in and out. -/
structure BatteryCfg.Plays (c : BatteryCfg) (s : Site) (W : String → Nat → ℚ) : Prop where
  charge : ∀ i < s.data.n, 0 ≤ W (c.name ++ "-electric_charge_mwh") i ∧
    W (c.name ++ "-electric_charge_mwh") i ≤ min (c.chargePower * s.freqMins / 60) c.capacity
  discharge : ∀ i < s.data.n, 0 ≤ W (c.name ++ "-electric_discharge_mwh") i ∧
    W (c.name ++ "-electric_discharge_mwh") i ≤ min (c.dischargePower * s.freqMins / 60) c.capacity
  exclusive : ∀ i < s.data.n, W (c.name ++ "-electric_charge_mwh") i = 0 ∨ W (c.name ++ "-electric_discharge_mwh") i = 0
  loss : ∀ i < s.data.n, W (c.name ++ "-electric_loss_mwh") i = (1 - c.efficiency) * W (c.name ++ "-electric_charge_mwh") i ∧
    0 ≤ W (c.name ++ "-electric_loss_mwh") i
  balance : ∀ i < s.data.n, W (c.name ++ "-electric_final_charge_mwh") i = W (c.name ++ "-electric_initial_charge_mwh") i +
    W (c.name ++ "-electric_charge_mwh") i - W (c.name ++ "-electric_discharge_mwh") i - W (c.name ++ "-electric_loss_mwh") i
  stored : ∀ i < s.data.n, 0 ≤ W (c.name ++ "-electric_initial_charge_mwh") i ∧ W (c.name ++ "-electric_initial_charge_mwh") i ≤ c.capacity ∧
    0 ≤ W (c.name ++ "-electric_final_charge_mwh") i ∧ W (c.name ++ "-electric_final_charge_mwh") i ≤ c.capacity
  chain : ∀ i, i + 1 < s.data.n → W (c.name ++ "-electric_final_charge_mwh") i = W (c.name ++ "-electric_initial_charge_mwh") (i + 1)
  start : W (c.name ++ "-electric_initial_charge_mwh") 0 = c.initialCharge
  stop : W (c.name ++ "-electric_final_charge_mwh") (s.data.n - 1) = c.finalCharge

/-- A valid dispatch of a boiler: gas becomes heat with the efficiency, within the limits. -/
structure BoilerCfg.Plays (c : BoilerCfg) (s : Site) (W : String → Nat → ℚ) : Prop where
  efficiency : ∀ i < s.data.n, c.efficiency * W (c.name ++ "-gas_consumption_mwh") i = W (c.name ++ "-high_temperature_generation_mwh") i
  heat : ∀ i < s.data.n, c.heatMin * s.freqMins / 60 ≤ W (c.name ++ "-high_temperature_generation_mwh") i ∧
    W (c.name ++ "-high_temperature_generation_mwh") i ≤ c.heatMax * s.freqMins / 60
  gas : ∀ i < s.data.n, 0 ≤ W (c.name ++ "-gas_consumption_mwh") i

/-- A valid dispatch of a CHP: gas becomes electricity and heat with the efficiencies (an electric efficiency of zero leaves gas and electricity
independent); the generator is off or between its limits. -/
structure ChpCfg.Plays (c : ChpCfg) (s : Site) (W : String → Nat → ℚ) : Prop where
  electric : ∀ i < s.data.n, 0 < c.electricEfficiency →
    W (c.name ++ "-gas_consumption_mwh") i = W (c.name ++ "-electric_generation_mwh") i / c.electricEfficiency
  high : ∀ i < s.data.n, W (c.name ++ "-high_temperature_generation_mwh") i = c.htEfficiency * W (c.name ++ "-gas_consumption_mwh") i
  low : ∀ i < s.data.n, W (c.name ++ "-low_temperature_generation_mwh") i = c.ltEfficiency * W (c.name ++ "-gas_consumption_mwh") i
  positive : ∀ i < s.data.n, 0 ≤ W (c.name ++ "-gas_consumption_mwh") i ∧ 0 ≤ W (c.name ++ "-electric_generation_mwh") i ∧
    0 ≤ W (c.name ++ "-high_temperature_generation_mwh") i ∧ 0 ≤ W (c.name ++ "-low_temperature_generation_mwh") i
  range : ∀ i < s.data.n, W (c.name ++ "-electric_generation_mwh") i ≤ c.powerMax * s.freqMins / 60 ∧
    (W (c.name ++ "-electric_generation_mwh") i = 0 ∨ c.powerMin * s.freqMins / 60 ≤ W (c.name ++ "-electric_generation_mwh") i)

/-- A valid dispatch of electric vehicles: the columns come from a schedule that follows the rules, the state of charge of every charge event goes from
empty to full without leaving that range, the spill charger stays within its 10000 MW, and no loss is negative. -/
structure EvArgs.Plays (a : EvArgs) (s : Site) (flags : Flags) (W : String → Nat → ℚ) (x : EvSchedule) : Prop where
  explains : x.Explains a W s.data.n
  valid : x.Valid a s flags W
  spill : ∀ i < s.data.n, ∀ e < a.capacities.length, 0 ≤ x.spill i e ∧ x.spill i e ≤ 10000 * s.freqMins / 60
  losses : ∀ i < s.data.n, ∀ e < a.capacities.length, 0 ≤ (1 - a.efficiency) * x.spill i e ∧
    ∀ k < a.powers.length, 0 ≤ (1 - a.efficiency) * x.charge i e k
  stored : ∀ (e : Nat) (capacity : ℚ), a.capacities[e]? = some capacity →
    W (a.eventCol e "initial_soc_mwh") 0 = 0 ∧ W (a.eventCol e "final_soc_mwh") (s.data.n - 1) = capacity ∧
    (∀ i, i + 1 < s.data.n → W (a.eventCol e "initial_soc_mwh") (i + 1) = W (a.eventCol e "final_soc_mwh") i) ∧
    (∀ i < s.data.n, 0 ≤ W (a.eventCol e "initial_soc_mwh") i ∧ W (a.eventCol e "initial_soc_mwh") i ≤ capacity ∧
      0 ≤ W (a.eventCol e "final_soc_mwh") i ∧ W (a.eventCol e "final_soc_mwh") i ≤ capacity)

/-- A valid dispatch of a heat pump: electricity lifts low temperature heat to high temperature heat with the COP, within the power. -/
structure HeatPumpCfg.Plays (c : HeatPumpCfg) (s : Site) (W : String → Nat → ℚ) : Prop where
  high : ∀ i < s.data.n, W (c.name ++ "-high_temperature_generation_mwh") i = c.cop * W (c.name ++ "-electric_load_mwh") i
  low : ∀ i < s.data.n, W (c.name ++ "-low_temperature_load_mwh") i = (c.cop - 1) * W (c.name ++ "-electric_load_mwh") i
  load : ∀ i < s.data.n, 0 ≤ W (c.name ++ "-electric_load_mwh") i ∧ W (c.name ++ "-electric_load_mwh") i ≤ c.power * s.freqMins / 60
  positive : ∀ i < s.data.n, 0 ≤ W (c.name ++ "-high_temperature_generation_mwh") i ∧ 0 ≤ W (c.name ++ "-low_temperature_load_mwh") i

/-- A valid dispatch of a renewable generator: between its lower bound and the available generation. -/
structure RenewableCfg.Plays (c : RenewableCfg) (s : Site) (W : String → Nat → ℚ) : Prop where
  generation : ∀ i < s.data.n, c.lowerBoundPct * c.generation.getD i 0 ≤ W (c.name ++ "-electric_generation_mwh") i ∧
    W (c.name ++ "-electric_generation_mwh") i ≤ c.generation.getD i 0

/-- A valid dispatch of a spill asset: any electricity in or out, any high temperature heat out, any low temperature heat in. -/
structure SpillCfg.Plays (c : SpillCfg) (s : Site) (W : String → Nat → ℚ) : Prop where
  positive : ∀ i < s.data.n, 0 ≤ W (c.name ++ "-electric_generation_mwh") i ∧ 0 ≤ W (c.name ++ "-electric_load_mwh") i ∧
    0 ≤ W (c.name ++ "-high_temperature_generation_mwh") i ∧ 0 ≤ W (c.name ++ "-low_temperature_load_mwh") i
  nothing : ∀ i < s.data.n, W (c.name ++ "-low_temperature_generation_mwh") i = 0 ∧ W (c.name ++ "-high_temperature_load_mwh") i = 0 ∧
    W (c.name ++ "-gas_consumption_mwh") i = 0

/-- A valid dispatch of a valve: it passes on the heat it takes. -/
structure ValveCfg.Plays (c : ValveCfg) (s : Site) (W : String → Nat → ℚ) : Prop where
  passes : ∀ i < s.data.n, W (c.name ++ "-high_temperature_load_mwh") i = W (c.name ++ "-low_temperature_generation_mwh") i ∧
    0 ≤ W (c.name ++ "-high_temperature_load_mwh") i

/-- A valid dispatch of an asset. -/
def Asset.Plays (s : Site) (flags : Flags) (W : String → Nat → ℚ) : Asset → Prop
  | .battery c => c.Plays s W
  | .boiler c => c.Plays s W
  | .chp c => c.Plays s W
  | .evs c => ∃ (a : EvArgs) (x : EvSchedule), a.make = .ok c ∧ a.Plays s flags W x
  | .heatPump c => c.Plays s W
  | .renewable c => c.Plays s W
  | .spill c => c.Plays s W
  | .valve c => c.Plays s W

/-- The columns with the inputs of the site show the inputs. -/
structure Site.Echoes (s : Site) (W : String → Nat → ℚ) : Prop where
  prices : ∀ i < s.data.n, W "site-electricity_prices" i = s.data.electricityPrices.getD i 0 ∧
    W "site-export_electricity_prices" i = s.data.exportElectricityPrices.getD i 0 ∧
    W "site-electricity_carbon_intensities" i = s.data.electricityCarbonIntensities.getD i 0 ∧ W "site-gas_prices" i = s.data.gasPrices.getD i 0
  loads : ∀ i < s.data.n, W "site-electric_load_mwh" i = s.data.electricLoad.getD i 0 ∧
    W "site-high_temperature_load_mwh" i = s.data.htLoad.getD i 0 ∧ W "site-low_temperature_load_mwh" i = s.data.ltLoad.getD i 0 ∧
    W "site-low_temperature_generation_mwh" i = s.data.ltGeneration.getD i 0

/-- A valid dispatch of a site. -/
structure Site.Dispatch (s : Site) (flags : Flags) (W : String → Nat → ℚ) : Prop where
  inputs : s.Echoes W
  imports : ∀ i < s.data.n, 0 ≤ W "site-import_power_mwh" i ∧ W "site-import_power_mwh" i ≤ s.importLimit * s.freqMins / 60
  exports : ∀ i < s.data.n, 0 ≤ W "site-export_power_mwh" i ∧ W "site-export_power_mwh" i ≤ s.exportLimit * s.freqMins / 60
  oneWay : ∀ i < s.data.n, W "site-import_power_mwh" i = 0 ∨ W "site-export_power_mwh" i = 0
  electricity : ∀ i < s.data.n,
    W "site-import_power_mwh" i + s.assetSum W "electric_generation_mwh" i + s.assetSum W "electric_discharge_mwh" i =
      W "site-export_power_mwh" i + W "site-electric_load_mwh" i + s.assetSum W "electric_load_mwh" i + s.assetSum W "electric_charge_mwh" i
  high : ∀ i < s.data.n, s.assetSum W "high_temperature_generation_mwh" i =
    W "site-high_temperature_load_mwh" i + s.assetSum W "high_temperature_load_mwh" i
  low : ∀ i < s.data.n, s.assetSum W "low_temperature_generation_mwh" i + W "site-low_temperature_generation_mwh" i =
    W "site-low_temperature_load_mwh" i + s.assetSum W "low_temperature_load_mwh" i
  assets : ∀ a ∈ s.assets, a.Plays s flags W

/-- The table respects the custom constraints of the site: each holds in every interval, or between the sums over all intervals. -/
def Site.Obeys (s : Site) (W : String → Nat → ℚ) : Prop :=
  ∀ c ∈ s.constraints,
    (c.sumAgg = false → ∀ i < s.data.n, c.sense.Compares (c.lhs.read s W i) (c.rhs.read s W i)) ∧
    (c.sumAgg = true → c.sense.Compares (c.lhs.readTotal s W) (c.rhs.readTotal s W))

/-- Every CHP turns gas into something. -/
def Site.ChpsConvert (s : Site) : Prop :=
  ∀ c, Asset.chp c ∈ s.assets → 0 < c.electricEfficiency ∨ c.htEfficiency ≠ 0 ∨ c.ltEfficiency ≠ 0

end EPL
