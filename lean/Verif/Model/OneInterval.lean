/-
The linear program data of one asset in one interval (`*OneInterval` classes) and the collection of all
intervals (`IntervalVars`).
-/
import Verif.Model.Config

namespace EPL

/-- The value of an attribute of a `*OneInterval` object: `None`, a float, an int or a variable. -/
inductive Val where
  | none
  | num (q : ℚ)
  | int (k : ℤ)
  | var (v : LpVar)
  deriving DecidableEq, Repr

/-- A value inside an expression; pulp ignores `None` in sums. -/
def Val.toExpr : Val → Expr
  | .none => Expr.num 0
  | .num q => Expr.num q
  | .int k => Expr.num k
  | .var v => Expr.var v

/-- `isinstance(v, pulp.LpVariable)` -/
def Val.isVar : Val → Bool
  | .var _ => true
  | _ => false

/-- `v is None` -/
def Val.isNone : Val → Bool
  | .none => true
  | _ => false

/-- The quantities every `AssetOneInterval` has, with their defaults.  assets/asset.py:68-99 -/
structure Base where
  electricGeneration : Val := .int 0
  htGeneration : Val := .int 0
  ltGeneration : Val := .int 0
  electricLoad : Val := .int 0
  htLoad : Val := .int 0
  ltLoad : Val := .int 0
  electricCharge : Val := .int 0
  electricDischarge : Val := .int 0
  gasConsumption : Val := .int 0
  binary : Val := .int 0
  deriving DecidableEq, Repr

/-- assets/site.py:193-225 (the configuration is only used for its name, which is always "site") -/
structure SiteOI where
  importPower : LpVar
  exportPower : LpVar
  importBin : LpVar
  exportBin : LpVar
  importLimit : ℚ
  exportLimit : ℚ
  deriving DecidableEq, Repr

/-- assets/battery.py:67-78 -/
structure BatteryOI where
  cfg : BatteryCfg
  charge : LpVar
  chargeBin : LpVar
  discharge : LpVar
  dischargeBin : LpVar
  loss : LpVar
  initial : LpVar
  final : LpVar
  efficiency : ℚ
  deriving DecidableEq, Repr

/-- assets/boiler.py:27-33 -/
structure BoilerOI where
  cfg : BoilerCfg
  heat : LpVar
  gas : LpVar
  bin : LpVar
  deriving DecidableEq, Repr

/-- assets/chp.py:38-47 -/
structure ChpOI where
  cfg : ChpCfg
  bin : LpVar
  electric : LpVar
  gas : LpVar
  ht : LpVar
  lt : LpVar
  deriving DecidableEq, Repr

/-- assets/evs.py:92-113 and 124-145 -/
structure EvOI where
  cfg : EvsCfg
  i : Nat
  eventIdx : Nat
  eventCfg : ChargeEventCfg
  chargerIdx : Nat
  chargerCfg : ChargerCfg
  charge : Val
  chargeBin : Val
  discharge : Val
  dischargeBin : Val
  initialSoc : Val
  finalSoc : Val
  loss : Val
  deriving DecidableEq, Repr

/-- assets/heat_pump.py:40-47 -/
structure HeatPumpOI where
  cfg : HeatPumpCfg
  load : LpVar
  bin : LpVar
  ltLoad : LpVar
  ht : LpVar
  deriving DecidableEq, Repr

/-- assets/renewable_generator.py:92-96 -/
structure RenewableOI where
  cfg : RenewableCfg
  generation : LpVar
  deriving DecidableEq, Repr

/-- assets/spill.py:27-37 -/
structure SpillOI where
  cfg : SpillCfg
  generation : LpVar
  load : LpVar
  ht : LpVar
  ltLoad : LpVar
  deriving DecidableEq, Repr

/-- assets/valve.py:26-31 -/
structure ValveOI where
  cfg : ValveCfg
  htLoad : LpVar
  lt : LpVar
  deriving DecidableEq, Repr

/-- The subclasses of `AssetOneInterval`. -/
inductive OneInterval where
  | site (s : SiteOI)
  | battery (b : BatteryOI)
  | boiler (b : BoilerOI)
  | chp (c : ChpOI)
  | ev (e : EvOI)
  | evSpill (e : EvOI)
  | heatPump (h : HeatPumpOI)
  | renewable (r : RenewableOI)
  | spill (s : SpillOI)
  | valve (v : ValveOI)
  deriving DecidableEq, Repr

/-- The classes themselves (`type(x)`). -/
inductive Kind where
  | site | battery | boiler | chp | ev | evSpill | heatPump | renewable | spill | valve
  deriving DecidableEq, Repr

namespace OneInterval

/-- `type(x)` -/
def kind : OneInterval → Kind
  | .site _ => .site
  | .battery _ => .battery
  | .boiler _ => .boiler
  | .chp _ => .chp
  | .ev _ => .ev
  | .evSpill _ => .evSpill
  | .heatPump _ => .heatPump
  | .renewable _ => .renewable
  | .spill _ => .spill
  | .valve _ => .valve

/-- `x.cfg.name` -/
def name : OneInterval → String
  | .site _ => "site"
  | .battery b => b.cfg.name
  | .boiler b => b.cfg.name
  | .chp c => c.cfg.name
  | .ev e => e.cfg.name
  | .evSpill e => e.cfg.name
  | .heatPump h => h.cfg.name
  | .renewable r => r.cfg.name
  | .spill s => s.cfg.name
  | .valve v => v.cfg.name

/-- The quantities of `AssetOneInterval` as each subclass fills them: assets/site.py:221-225,
battery.py:70-78, boiler.py:30-32, chp.py:43-47, evs.py:104-110, heat_pump.py:44-47,
renewable_generator.py:96, spill.py:31-37, valve.py:30-31 -/
def base : OneInterval → Base
  | .site _ => { electricGeneration := .none, htGeneration := .none, ltGeneration := .none,
                 electricCharge := .none, electricDischarge := .none }
  | .battery b => { electricCharge := .var b.charge, electricDischarge := .var b.discharge }
  | .boiler b => { htGeneration := .var b.heat, gasConsumption := .var b.gas, binary := .var b.bin }
  | .chp c => { electricGeneration := .var c.electric, gasConsumption := .var c.gas,
                htGeneration := .var c.ht, ltGeneration := .var c.lt, binary := .var c.bin }
  | .ev e => { electricCharge := e.charge, electricDischarge := e.discharge }
  | .evSpill e => { electricCharge := e.charge, electricDischarge := e.discharge }
  | .heatPump h => { electricLoad := .var h.load, ltLoad := .var h.ltLoad, htGeneration := .var h.ht }
  | .renewable r => { electricGeneration := .var r.generation }
  | .spill s => { electricGeneration := .var s.generation, electricLoad := .var s.load,
                  htGeneration := .var s.ht, ltLoad := .var s.ltLoad,
                  electricCharge := .num 0, electricDischarge := .num 0 }
  | .valve v => { htLoad := .var v.htLoad, ltGeneration := .var v.lt }

end OneInterval

/-- The quantities of `AssetOneInterval` by attribute name.  assets/asset.py:88-98 -/
def Base.get? (b : Base) (attr : String) : Option Val :=
  if attr = "electric_generation_mwh" then some b.electricGeneration
  else if attr = "high_temperature_generation_mwh" then some b.htGeneration
  else if attr = "low_temperature_generation_mwh" then some b.ltGeneration
  else if attr = "electric_load_mwh" then some b.electricLoad
  else if attr = "high_temperature_load_mwh" then some b.htLoad
  else if attr = "low_temperature_load_mwh" then some b.ltLoad
  else if attr = "electric_charge_mwh" then some b.electricCharge
  else if attr = "electric_discharge_mwh" then some b.electricDischarge
  else if attr = "gas_consumption_mwh" then some b.gasConsumption
  else if attr = "binary" then some b.binary
  else none

/-- The attributes of each subclass that are not quantities of the base class: site.py:197-202,
battery.py:72-78, evs.py:98-112, heat_pump.py:45 -/
def OneInterval.extra? (x : OneInterval) (attr : String) : Option Val :=
  match x with
  | .site s =>
    if attr = "import_power_mwh" then some (.var s.importPower)
    else if attr = "export_power_mwh" then some (.var s.exportPower)
    else if attr = "import_power_bin" then some (.var s.importBin)
    else if attr = "export_power_bin" then some (.var s.exportBin)
    else if attr = "import_limit_mwh" then some (.num s.importLimit)
    else if attr = "export_limit_mwh" then some (.num s.exportLimit)
    else none
  | .battery b =>
    if attr = "electric_charge_binary" then some (.var b.chargeBin)
    else if attr = "electric_discharge_binary" then some (.var b.dischargeBin)
    else if attr = "electric_loss_mwh" then some (.var b.loss)
    else if attr = "electric_initial_charge_mwh" then some (.var b.initial)
    else if attr = "electric_final_charge_mwh" then some (.var b.final)
    else if attr = "efficiency_pct" then some (.num b.efficiency)
    else none
  | .ev e | .evSpill e =>
    if attr = "electric_charge_binary" then some e.chargeBin
    else if attr = "electric_discharge_binary" then some e.dischargeBin
    else if attr = "initial_soc_mwh" then some e.initialSoc
    else if attr = "final_soc_mwh" then some e.finalSoc
    else if attr = "electric_loss_mwh" then some e.loss
    else if attr = "i" then some (.int e.i)
    else if attr = "charge_event_idx" then some (.int e.eventIdx)
    else if attr = "charger_idx" then some (.int e.chargerIdx)
    else none
  | .heatPump h =>
    if attr = "electric_load_binary" then some (.var h.bin) else none
  | _ => none

/-- `getattr(x, attr)` with `AttributeError` for unknown names.  Attributes that are not numbers or
variables (`cfg`, methods) count as unknown; arithmetic on them raises in Python too. -/
def OneInterval.getattr (x : OneInterval) (attr : String) : Res Val :=
  match x.base.get? attr with
  | some v => .ok v
  | none => match x.extra? attr with
    | some v => .ok v
    | none => .error (.attribute attr)

/-- `IntervalVars.objective_variables`.  interval_data.py:15-20, 34-41 -/
abbrev IVars := List (List OneInterval)

/-- The `type_mapper` of interval_data.py:51-62 and 85-96; `valve` is not in it.  `none` is `"*"`. -/
def typeMapper (s : String) : Res (Option Kind) :=
  if s = "battery" then .ok (some .battery)
  else if s = "boiler" then .ok (some .boiler)
  else if s = "chp" then .ok (some .chp)
  else if s = "evs" then .ok (some .ev)
  else if s = "heat-pump" then .ok (some .heatPump)
  else if s = "renewable-generator" then .ok (some .renewable)
  else if s = "site" then .ok (some .site)
  else if s = "spill" then .ok (some .spill)
  else if s = "spill_evs" then .ok (some .evSpill)
  else if s = "*" then .ok none
  else .error (.key s)

/-- The condition of the comprehension in interval_data.py:69-74 and 100-111. -/
def matchesFilter (kind : Option Kind) (assetName : Option String) (x : OneInterval) : Bool :=
  (match kind with | some k => x.kind == k | none => true) &&
    (match assetName with | some n => x.name == n | none => true)

/-- `filter_objective_variables` with a class as `instance_type`.  interval_data.py:43-74 -/
def IVars.filter (iv : IVars) (i : Int) (kind : Option Kind) (assetName : Option String) :
    Res (List OneInterval) := do
  let assets ← pyIndex iv i
  .ok (assets.filter (matchesFilter kind assetName))

/-- `filter_objective_variables` with a string or `None` as `instance_type`.  interval_data.py:43-74 -/
def IVars.filterStr (iv : IVars) (i : Int) (kind : Option String) (assetName : Option String) :
    Res (List OneInterval) := do
  let k ← match kind with
    | none => .ok none
    | some s => typeMapper s
  iv.filter i k assetName

/-- `filter_objective_variables_all_intervals` with a class.  interval_data.py:76-113 -/
def IVars.filterAll (iv : IVars) (kind : Option Kind) (assetName : Option String) :
    List (List OneInterval) :=
  iv.map (fun assets => assets.filter (matchesFilter kind assetName))

/-- `filter_objective_variables_all_intervals` with a string or `None`.  The mapping is done inside the loop over
the intervals, on the first one: no intervals, no `KeyError`.  interval_data.py:76-113 -/
def IVars.filterAllStr (iv : IVars) (kind : Option String) (assetName : Option String) :
    Res (List (List OneInterval)) :=
  match iv with
  | [] => .ok []
  | _ => do
    let k ← match kind with
      | none => .ok none
      | some s => typeMapper s
    .ok (iv.filterAll k assetName)

end EPL
