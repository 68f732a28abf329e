/-
Constants, flags, frequency, utilities and asset configurations.
-/
import Verif.Model.Lp
import Mathlib.Algebra.Order.Group.MinMax

namespace EPL

/-! ### defaults.py -/

namespace Defaults
/-- defaults.py:8 -/
def electricityPrices : ℚ := 100
/-- defaults.py:9 -/
def exportElectricityPrices : ℚ := 100
/-- defaults.py:10 -/
def electricityCarbonIntensities : ℚ := 1/10
/-- defaults.py:11 -/
def gasPrices : ℚ := 20
/-- defaults.py:12 -/
def freqMins : ℚ := 60
/-- defaults.py:14 -/
def highTemperatureLoad : ℚ := 0
/-- defaults.py:15 -/
def lowTemperatureLoad : ℚ := 0
/-- defaults.py:16 -/
def lowTemperatureGeneration : ℚ := 0
/-- defaults.py:17 -/
def electricLoad : ℚ := 0
/-- defaults.py:20 -/
def spillObjectivePenalty : ℚ := 100000000000
/-- defaults.py:22 -/
def boilerEfficiency : ℚ := 8/10
/-- defaults.py:23 -/
def boilerMax : ℚ := 10000
/-- defaults.py:25 -/
def gasCarbonIntensity : ℚ := 185/1000
/-- defaults.py:27 -/
def spillChargeMax : ℚ := 10000
/-- defaults.py:33 -/
def epsilon : ℚ := -1/10000
end Defaults

/-- flags.py:5-14 -/
structure Flags where
  failOnSpill : Bool := false
  allowInfeasible : Bool := false
  allowEvsDischarge : Bool := false
  limitChargeVariables : Bool := false
  deriving DecidableEq, Repr

/-- freq.py:4-9; `mins` is an int in Python, a rational here -/
structure Freq where
  mins : ℚ
  deriving DecidableEq, Repr

/-- freq.py:11-13 -/
def Freq.mwToMwh (f : Freq) (mw : ℚ) : ℚ := mw * f.mins / 60

/-- freq.py:15-17, a zero denominator raises `ZeroDivisionError` -/
def Freq.mwhToMw (f : Freq) (mwh : ℚ) : Res ℚ :=
  if f.mins = 0 then .error .zeroDivision else .ok (mwh * 60 / f.mins)

/-- utils.py:5-8: `np.concatenate([np.tile(a, len(b) // len(a)), a[:len(b) % len(a)]])`;
`divmod` by zero raises. -/
def repeatToMatchLength {α : Type} (a : List α) (n : Nat) : Res (List α) :=
  if a.length = 0 then .error .zeroDivision
  else .ok ((List.replicate (n / a.length) a).flatten ++ a.take (n % a.length))

/-! ### asset configurations -/

/-- assets/battery.py:40-50 -/
structure BatteryCfg where
  name : String
  chargePower : ℚ
  dischargePower : ℚ
  capacity : ℚ
  efficiency : ℚ
  initialCharge : ℚ
  finalCharge : ℚ
  freqMins : ℚ
  deriving DecidableEq, Repr

/-- assets/battery.py:18-37 -/
def setupInitialFinalCharge (initial : ℚ) (final : Option ℚ) (capacity : ℚ) : ℚ × ℚ :=
  let initial := min initial capacity
  let final := match final with
    | none => initial
    | some f => min f capacity
  (initial, final)

/-- The configuration part of `Battery.__init__`, assets/battery.py:216-233, with the name check of
battery.py:52-64.  The site it may build is `standaloneBattery`. -/
def Battery.new (power : ℚ := 2) (dischargePower : Option ℚ := none) (capacity : ℚ := 4)
    (efficiency : ℚ := 9/10) (initial : ℚ := 0) (final : Option ℚ := none)
    (name : String := "battery") (freqMins : ℚ := Defaults.freqMins) : Res BatteryCfg := do
  let (initial, final) := setupInitialFinalCharge initial final capacity
  let dis := match dischargePower with
    | none => power
    | some d => d
  pyAssert (decide (dis ≠ 0)) "discharge_power_mw"
  pyValidate (pyIn "battery" name) "battery name"
  .ok { name, chargePower := power, dischargePower := dis, capacity, efficiency,
        initialCharge := initial, finalCharge := final, freqMins }

/-- assets/boiler.py:11-17 -/
structure BoilerCfg where
  name : String
  heatMax : ℚ
  heatMin : ℚ
  efficiency : ℚ
  deriving DecidableEq, Repr

/-- `Boiler.__init__` with the pydantic field constraints `0 < efficiency <= 1` and the name check.
assets/boiler.py:17-24, 39-52 -/
def Boiler.new (name : String := "boiler") (heatMax : ℚ := Defaults.boilerMax) (heatMin : ℚ := 0)
    (efficiency : ℚ := Defaults.boilerEfficiency) : Res BoilerCfg := do
  pyValidate (pyIn "boiler" name) "boiler name"
  if 0 < efficiency ∧ efficiency ≤ 1 then .ok { name, heatMax, heatMin, efficiency }
  else .error (.validation "high_temperature_efficiency_pct")

/-- assets/chp.py:17-28 -/
structure ChpCfg where
  name : String
  powerMax : ℚ
  powerMin : ℚ
  electricEfficiency : ℚ
  htEfficiency : ℚ
  ltEfficiency : ℚ
  freqMins : ℚ
  deriving DecidableEq, Repr

/-- The configuration part of `CHP.__init__`, assets/chp.py:30-35, 63-113 -/
def Chp.new (electricEfficiency : ℚ := 0) (powerMax : ℚ := 0) (powerMin : ℚ := 0)
    (htEfficiency : ℚ := 0) (ltEfficiency : ℚ := 0) (name : String := "chp")
    (freqMins : ℚ := Defaults.freqMins) : Res ChpCfg := do
  pyValidate (pyIn "chp" name) "chp name"
  .ok { name, powerMax, powerMin, electricEfficiency, htEfficiency, ltEfficiency, freqMins }

/-- assets/heat_pump.py:15-22 -/
structure HeatPumpCfg where
  name : String
  cop : ℚ
  power : ℚ
  freqMins : ℚ
  includeValve : Bool
  deriving DecidableEq, Repr

/-- The configuration part of `HeatPump.__init__`, assets/heat_pump.py:24-37, 53-98; there is no check of
the name -/
def HeatPump.new (cop : ℚ := 3) (power : ℚ := 1) (name : String := "heat-pump")
    (freqMins : ℚ := Defaults.freqMins) (includeValve : Bool := true) : Res HeatPumpCfg :=
  if cop < 1 then .error (.validation "COP must be 1 or above")
  else .ok { name, cop, power, freqMins, includeValve }

/-- assets/spill.py:14-24, 43-45 -/
structure SpillCfg where
  name : String
  deriving DecidableEq, Repr

/-- `Spill.__init__` with the name check.  assets/spill.py:14-24, 43-45 -/
def Spill.new (name : String := "spill") : Res SpillCfg := do
  pyValidate (pyIn "spill" name) "spill name"
  .ok { name }

/-- assets/valve.py:13-24 -/
structure ValveCfg where
  name : String
  deriving DecidableEq, Repr

/-- `Valve.__init__` with the name check.  assets/valve.py:18-24, 37-39 -/
def Valve.new (name : String := "valve") : Res ValveCfg := do
  pyValidate (pyIn "valve" name) "valve name"
  .ok { name }

/-- assets/renewable_generator.py:18-23, 69-75.  `isArray` is false for a scalar generation that has not
been repeated to the site length: it is then still a Python list (renewable_generator.py:37-39). -/
structure RenewableCfg where
  name : String
  lowerBoundPct : ℚ
  generation : List ℚ
  isArray : Bool
  idxLen : Nat
  freqMins : ℚ
  deriving DecidableEq, Repr

/-- The generation argument of `RenewableGenerator`: a float or a sequence. -/
inductive GenInput where
  | scalar (q : ℚ)
  | array (l : List ℚ)
  deriving DecidableEq, Repr

/-- The configuration part of `RenewableGenerator.__init__`: assets/renewable_generator.py:25-66 (validators
of the interval data), 73, 77-89 (bounds and name), 152-159.  `np.array([]).min()` raises `ValueError`. -/
def Renewable.new (gen : GenInput) (lowerBoundPct : ℚ := 1) (name : String := "renewable-generator")
    (freqMins : ℚ := Defaults.freqMins) : Res RenewableCfg := do
  let (data, isArray) := match gen with
    | .scalar q => ([q], false)
    | .array l => (l, true)
  if data = [] then .error (.validation "zero-size array to reduction operation minimum")
  else
    pyValidate (data.all (fun q => decide (0 ≤ q))) "electric_generation_mwh"
    if ¬ (0 ≤ lowerBoundPct ∧ lowerBoundPct ≤ 1) then
      .error (.validation "electric_generation_lower_bound_pct")
    else
      pyValidate (pyIn "wind" name || pyIn "solar" name || pyIn "renewable-generator" name) "name"
      .ok { name, lowerBoundPct, generation := data, isArray, idxLen := data.length, freqMins }

/-- assets/evs.py:40-48 -/
structure ChargeEventCfg where
  name : String
  capacity : ℚ
  efficiency : ℚ
  deriving DecidableEq, Repr

/-- assets/evs.py:51-56 -/
structure ChargerCfg where
  name : String
  powerMax : ℚ
  powerMin : ℚ
  deriving DecidableEq, Repr

/-- assets/evs.py:59-68.  `chargeEvents` has time as the first dimension (evs.py:660-661). -/
structure EvsCfg where
  name : String
  chargers : List ChargerCfg
  spillChargers : List ChargerCfg
  events : List ChargeEventCfg
  chargeEvents : List (List ℚ)
  freqMins : ℚ
  deriving DecidableEq, Repr

/-- numpy `.T` of a rectangular matrix with `n` columns. -/
def transpose (m : List (List ℚ)) (n : Nat) : List (List ℚ) :=
  (List.range n).map (fun t => m.map (fun row => row.getD t 0))

/-- The configuration part of `EVs.__init__`, assets/evs.py:29-37, 78-89, 625-663.  `chargeEvents` is given as
events x intervals and must be rectangular (a ragged `np.array` raises `ValueError`); an empty matrix has
no second dimension and `charge_events.shape[1]` raises `IndexError`. -/
def Evs.new (chargeEvents : List (List ℚ)) (chargersPower : List ℚ) (capacities : List ℚ)
    (efficiency : ℚ := 9/10) (turndown : ℚ := 1/10) (name : String := "evs")
    (freqMins : ℚ := Defaults.freqMins) : Res EvsCfg := do
  let chargers := chargersPower.zipIdx.map (fun p =>
    { name := "charger-" ++ toString p.2, powerMax := p.1, powerMin := p.1 * turndown : ChargerCfg })
  let spill : List ChargerCfg :=
    [{ name := "charger-spill-" ++ name, powerMax := Defaults.spillChargeMax, powerMin := 0 }]
  let events := capacities.zipIdx.map (fun p =>
    { name := "charge-event-" ++ toString p.2, capacity := p.1, efficiency : ChargeEventCfg })
  match chargeEvents with
  | [] => do
    pyValidate (pyIn "evs" name) "evs name"
    .error .index
  | row :: rows =>
    if rows.all (fun r => r.length == row.length) then
      pyValidate (pyIn "evs" name) "evs name"
      pyValidate (decide (events.length = (row :: rows).length)) "charge events"
      .ok { name, chargers, spillChargers := spill, events,
            chargeEvents := transpose (row :: rows) row.length, freqMins }
    else .error (.value "inhomogeneous shape")

/-- `validate_ev_interval_data`, run only by the stand-alone `EVs` constructor.  assets/evs.py:17-26, 678-682 -/
def validateEvIntervalData (n : Nat) (c : EvsCfg) : Res Unit := do
  pyAssert (decide (n = c.chargeEvents.length)) "idx"
  pyAssert ((List.range c.events.length).all (fun e =>
    decide (0 < (c.chargeEvents.map (fun row => row.getD e 0)).sum))) "sum across axis=0"

end EPL
