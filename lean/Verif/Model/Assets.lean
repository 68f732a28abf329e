/-
The assets: variables of one interval, constraints within an interval and after all intervals.
Constraint-adding methods return the list of constraints they add, in order.
-/
import Verif.Model.OneInterval

namespace EPL

/-! ### Battery -/

/-- `Battery.one_interval`.  assets/battery.py:260-305 -/
def BatteryCfg.oneInterval (c : BatteryCfg) (i : Nat) (freq : Freq) : BatteryOI where
  cfg := c
  charge := continuous (.asset c.name "electric_charge_mwh" i) (up := some (freq.mwToMwh c.chargePower))
  discharge := continuous (.asset c.name "electric_discharge_mwh" i)
    (up := some (freq.mwToMwh c.dischargePower))
  chargeBin := binary (.asset c.name "electric_charge_binary" i)
  dischargeBin := binary (.asset c.name "electric_discharge_binary" i)
  loss := continuous (.asset c.name "electric_loss_mwh" i)
  initial := continuous (.asset c.name "electric_initial_charge_mwh" i) (low := some 0) (up := some c.capacity)
  final := continuous (.asset c.name "electric_final_charge_mwh" i) (low := some 0) (up := some c.capacity)
  efficiency := c.efficiency

/-- A list that must hold a battery: `x[0]` followed by `assert isinstance(x, BatteryOneInterval)`. -/
def firstBattery (l : List OneInterval) : Res BatteryOI := do
  match ← pyIndex l 0 with
  | .battery b => .ok b
  | _ => .error (.assertion "isinstance BatteryOneInterval")

/-- `constrain_only_charge_or_discharge`.  assets/battery.py:81-105 -/
def constrainOnlyChargeOrDischarge (b : BatteryOI) : List Con :=
  [ constrainMax (.var b.charge) (.var b.chargeBin) b.cfg.capacity,
    constrainMax (.var b.discharge) (.var b.dischargeBin) b.cfg.capacity,
    (Expr.var b.chargeBin + .var b.dischargeBin).leC (.num 1) ]

/-- `constrain_battery_electricity_balance`.  assets/battery.py:108-130 -/
def constrainBatteryElectricityBalance (b : BatteryOI) : List Con :=
  [ (Expr.var b.initial + .var b.charge - .var b.discharge - .var b.loss).eqC (.var b.final),
    (Expr.var b.loss).eqC (Expr.var b.charge * (1 - b.efficiency)) ]

/-- The loop body of `constrain_connection_batteries_between_intervals` for one pair (`zip(..., strict=True)` raises
`ValueError` for lists of different lengths).  assets/battery.py:147-154 -/
def connectBatteries : List OneInterval → List OneInterval → Res (List Con)
  | [], [] => .ok []
  | .battery alt :: old, .battery neu :: new => do
    let cs ← connectBatteries old new
    .ok ((Expr.var alt.final).eqC (.var neu.initial) :: cs)
  | _ :: _, _ :: _ => .error (.assertion "isinstance BatteryOneInterval")
  | _, _ => .error (.value "zip() argument 2 is longer or shorter than argument 1")

/-- `constrain_connection_batteries_between_intervals`.  assets/battery.py:133-154 -/
def constrainConnectionBatteries (all : List (List OneInterval)) : Res (List Con) :=
  if all.length < 2 then .ok []
  else do
    let old ← pyIndex all (-2)
    let new ← pyIndex all (-1)
    connectBatteries old new

/-- `Battery.constrain_within_interval`.  assets/battery.py:307-336 -/
def BatteryCfg.constrainWithin (c : BatteryCfg) (iv : IVars) : Res (List Con) := do
  let b ← firstBattery (← iv.filter (-1) (some .battery) (some c.name))
  let cs ← constrainConnectionBatteries (iv.filterAll (some .battery) (some c.name))
  .ok (constrainOnlyChargeOrDischarge b ++ constrainBatteryElectricityBalance b ++ cs)

/-- `constrain_initial_final_charge` and `Battery.constrain_after_intervals`.  assets/battery.py:157-172, 338-358 -/
def BatteryCfg.constrainAfter (c : BatteryCfg) (iv : IVars) : Res (List Con) := do
  let initial ← firstBattery (← iv.filter 0 (some .battery) (some c.name))
  let final ← firstBattery (← iv.filter (-1) (some .battery) (some c.name))
  .ok [ (Expr.var initial.initial).eqC (.num initial.cfg.initialCharge),
        (Expr.var final.final).eqC (.num final.cfg.finalCharge) ]

/-! ### Boiler -/

/-- `Boiler.one_interval`.  assets/boiler.py:58-75 -/
def BoilerCfg.oneInterval (c : BoilerCfg) (i : Nat) (freq : Freq) : BoilerOI where
  cfg := c
  heat := continuous (.asset c.name "high_temperature_generation_mwh" i)
    (low := some (freq.mwToMwh c.heatMin)) (up := some (freq.mwToMwh c.heatMax))
  bin := binary (.asset c.name "binary_mwh" i)
  gas := continuous (.asset c.name "gas_consumption_mwh" i)

/-- `Boiler.constrain_within_interval`.  assets/boiler.py:77-104; `1 / efficiency` raises for 0, which the
configuration excludes. -/
def BoilerCfg.constrainWithin (c : BoilerCfg) (iv : IVars) (freq : Freq) : Res (List Con) := do
  match ← pyIndex (← iv.filter (-1) (some .boiler) (some c.name)) 0 with
  | .boiler b =>
    if b.cfg.efficiency = 0 then .error .zeroDivision
    else
      .ok [ (Expr.var b.gas).eqC (Expr.var b.heat * (1 / b.cfg.efficiency)),
            constrainMax (.var b.heat) (.var b.bin) (freq.mwToMwh b.cfg.heatMax),
            constrainMin (.var b.heat) (.var b.bin) (freq.mwToMwh b.cfg.heatMin) ]
  | _ => .error (.assertion "isinstance BoilerOneInterval")

/-! ### CHP -/

/-- `CHP.one_interval`.  assets/chp.py:137-162 -/
def ChpCfg.oneInterval (c : ChpCfg) (i : Nat) (freq : Freq) : ChpOI where
  cfg := c
  electric := continuous (.asset c.name "electric_generation_mwh" i) (low := some 0)
    (up := some (freq.mwToMwh c.powerMax))
  bin := binary (.asset c.name "binary_mwh" i)
  gas := continuous (.asset c.name "gas_consumption_mwh" i)
  ht := continuous (.asset c.name "high_temperature_generation_mwh" i) (low := some 0)
  lt := continuous (.asset c.name "low_temperature_generation_mwh" i) (low := some 0)

/-- `CHP.constrain_within_interval`.  assets/chp.py:164-200 -/
def ChpCfg.constrainWithin (c : ChpCfg) (iv : IVars) (i : Nat) (freq : Freq) : Res (List Con) := do
  match ← pyIndex (← iv.filter i (some .chp) (some c.name)) 0 with
  | .chp x =>
    .ok ((if 0 < x.cfg.electricEfficiency then
            [(Expr.var x.gas).eqC (Expr.var x.electric * (1 / x.cfg.electricEfficiency))]
          else []) ++
      [ (Expr.var x.ht).eqC (Expr.var x.gas * x.cfg.htEfficiency),
        (Expr.var x.lt).eqC (Expr.var x.gas * x.cfg.ltEfficiency),
        constrainMax (.var x.electric) (.var x.bin) (freq.mwToMwh x.cfg.powerMax),
        constrainMin (.var x.electric) (.var x.bin) (freq.mwToMwh x.cfg.powerMin) ])
  | _ => .error (.assertion "isinstance CHPOneInterval")

/-! ### Heat pump -/

/-- `HeatPump.one_interval`.  assets/heat_pump.py:128-151 -/
def HeatPumpCfg.oneInterval (c : HeatPumpCfg) (i : Nat) (freq : Freq) : HeatPumpOI where
  cfg := c
  load := continuous (.tagged "electric_load_mwh" i c.name) (low := some 0) (up := some (freq.mwToMwh c.power))
  bin := binary (.tagged "electric_load_binary" i c.name)
  ltLoad := continuous (.tagged "low_temperature_load_mwh" i c.name) (low := some 0)
  ht := continuous (.tagged "high_temperature_generation_mwh" i c.name) (low := some 0)

/-- `HeatPump.constrain_within_interval`.  assets/heat_pump.py:153-178 -/
def HeatPumpCfg.constrainWithin (c : HeatPumpCfg) (iv : IVars) (i : Nat) (freq : Freq) :
    Res (List Con) := do
  match ← pyIndex (← iv.filter i (some .heatPump) (some c.name)) 0 with
  | .heatPump h =>
    .ok [ constrainMax (.var h.load) (.var h.bin) (freq.mwToMwh h.cfg.power),
          (Expr.var h.ht).eqC (Expr.var h.load * h.cfg.cop),
          (Expr.var h.ltLoad + .var h.load).eqC (.var h.ht) ]
  | _ => .error (.assertion "isinstance HeatPumpOneInterval")

/-! ### Renewable generator -/

/-- `RenewableGenerator.one_interval`.  assets/renewable_generator.py:186-211 -/
def RenewableCfg.oneInterval (c : RenewableCfg) (i : Nat) : Res RenewableOI := do
  pyAssert c.isArray "isinstance np.ndarray"
  let g ← pyIndex c.generation i
  .ok { cfg := c
        generation := continuous (.tagged "electric_generation_mwh" i c.name)
          (low := some (g * c.lowerBoundPct)) (up := some g) }

/-! ### Spill and valve -/

/-- `Spill.one_interval`.  assets/spill.py:51-73 -/
def SpillCfg.oneInterval (c : SpillCfg) (i : Nat) : SpillOI where
  cfg := c
  generation := continuous (.asset c.name "electric_generation_mwh" i) (low := some 0)
  ht := continuous (.asset c.name "high_temperature_generation_mwh" i) (low := some 0)
  load := continuous (.asset c.name "electric_load_mwh" i) (low := some 0)
  ltLoad := continuous (.asset c.name "low_temperature_load_mwh" i) (low := some 0)

/-- `Valve.one_interval`.  assets/valve.py:45-57 -/
def ValveCfg.oneInterval (c : ValveCfg) (i : Nat) : ValveOI where
  cfg := c
  htLoad := continuous (.asset c.name "high_temperature_load_mwh" i) (low := some 0)
  lt := continuous (.asset c.name "low_temperature_generation_mwh" i) (low := some 0)

/-- `Valve.constrain_within_interval`.  assets/valve.py:59-74 -/
def ValveCfg.constrainWithin (c : ValveCfg) (iv : IVars) : Res (List Con) := do
  match ← pyIndex (← iv.filter (-1) (some .valve) (some c.name)) 0 with
  | .valve v => .ok [ (Expr.var v.htLoad).eqC (.var v.lt) ]
  | _ => .error (.assertion "isinstance ValveOneInterval")

/-! ### EVs -/

/-- numpy `m[i, e]` on a matrix. -/
def matIndex (m : List (List ℚ)) (i e : Nat) : Res ℚ := do
  let row ← pyIndex m i
  pyIndex row e

/-- The body of the inner loop of `evs_one_interval`.  assets/evs.py:316-405 -/
def evOneCharger (cfg : EvsCfg) (i : Nat) (freq : Freq) (flags : Flags)
    (createDischarge isSpill : Bool) (eventIdx : Nat) (event : ChargeEventCfg) (initialSoc finalSoc : Val)
    (chargerIdx : Nat) (charger : ChargerCfg) : Res EvOI := do
  let var := fun (attr : String) => VarId.evFlow attr i cfg.name eventIdx charger.name isSpill
  let chargeVar := continuous (var "electric_charge_mwh") (low := some 0)
    (up := some (freq.mwToMwh charger.powerMax))
  let (charge, chargeBin) ←
    if flags.limitChargeVariables then do
      let ce ← matIndex cfg.chargeEvents i eventIdx
      if ce = 1 then .ok (Val.var chargeVar, Val.var (binary (var "electric_charge_binary")))
      else .ok (Val.num 0, Val.int 0)
    else .ok (Val.var chargeVar, Val.var (binary (var "electric_charge_binary")))
  let (discharge, dischargeBin) :=
    if createDischarge && flags.allowEvsDischarge then
      (Val.var (continuous (var "electric_discharge_mwh") (low := some 0)
        (up := some (freq.mwToMwh charger.powerMax))),
       Val.var (binary (var "electric_discharge_binary")))
    else (Val.num 0, Val.int 0)
  .ok { cfg, i, eventIdx, eventCfg := event, chargerIdx, chargerCfg := charger,
        charge, chargeBin, discharge, dischargeBin, initialSoc, finalSoc,
        loss := .var (continuous (var "electric_loss_mwh") (low := some 0)) }

/-- `evs_one_interval`.  assets/evs.py:261-406 -/
def evsOneInterval (cfg : EvsCfg) (chargers : List ChargerCfg) (i : Nat) (freq : Freq) (flags : Flags)
    (createSoc createDischarge isSpill : Bool) : Res (List EvOI) :=
  flatMapE (fun (ev : ChargeEventCfg × Nat) =>
    let soc := fun (attr : String) =>
      if createSoc then
        Val.var (continuous (.evSoc attr i cfg.name ev.1.name) (low := some 0) (up := some ev.1.capacity))
      else Val.num 0
    mapE (fun (ch : ChargerCfg × Nat) =>
      evOneCharger cfg i freq flags createDischarge isSpill ev.2 ev.1 (soc "initial_soc_mwh")
        (soc "final_soc_mwh") ch.2 ch.1) chargers.zipIdx) cfg.events.zipIdx

/-- `EVs.one_interval`.  assets/evs.py:688-723 -/
def EvsCfg.oneInterval (c : EvsCfg) (i : Nat) (freq : Freq) (flags : Flags) : Res (List OneInterval) := do
  let evs ← evsOneInterval c c.chargers i freq flags true true false
  let spill ← evsOneInterval c c.spillChargers i freq flags false false true
  .ok (evs.map .ev ++ spill.map .evSpill)

/-- `EVsArrayOneInterval`: numpy object arrays indexed by charge event and charger, zero where nothing was
assigned.  assets/evs.py:152-177.  The leading dimension of size one is dropped. -/
structure EvsArray where
  cfg : EvsCfg
  initialSoc : Nat → Val
  finalSoc : Nat → Val
  charge : Nat → Nat → Val
  chargeBin : Nat → Nat → Val
  discharge : Nat → Nat → Val
  dischargeBin : Nat → Nat → Val
  loss : Nat → Nat → Val

/-- numpy `a[e, c] = v` -/
def set2 (a : Nat → Nat → Val) (e c : Nat) (v : Val) : Nat → Nat → Val :=
  fun e' c' => if e' = e ∧ c' = c then v else a e' c'

/-- numpy `a[e] = v` -/
def set1 (a : Nat → Val) (e : Nat) (v : Val) : Nat → Val :=
  fun e' => if e' = e then v else a e'

/-- One step of the loop in `create_evs_array`.  assets/evs.py:226-241 -/
def EvsArray.assign (a : EvsArray) (o : EvOI) : EvsArray :=
  { a with
    initialSoc := set1 a.initialSoc o.eventIdx o.initialSoc
    finalSoc := set1 a.finalSoc o.eventIdx o.finalSoc
    charge := set2 a.charge o.eventIdx o.chargerIdx o.charge
    chargeBin := set2 a.chargeBin o.eventIdx o.chargerIdx o.chargeBin
    discharge := set2 a.discharge o.eventIdx o.chargerIdx o.discharge
    dischargeBin := set2 a.dischargeBin o.eventIdx o.chargerIdx o.dischargeBin
    loss := set2 a.loss o.eventIdx o.chargerIdx o.loss }

/-- The EV data of a filtered list (`typing.cast` in Python). -/
def evData : List OneInterval → List EvOI
  | [] => []
  | .ev e :: l => e :: evData l
  | .evSpill e :: l => e :: evData l
  | _ :: l => evData l

/-- The zero arrays of `create_evs_array`.  assets/evs.py:213-224 -/
def EvsArray.zeros (cfg : EvsCfg) : EvsArray where
  cfg := cfg
  initialSoc := fun _ => .num 0
  finalSoc := fun _ => .num 0
  charge := fun _ _ => .num 0
  chargeBin := fun _ _ => .num 0
  discharge := fun _ _ => .num 0
  dischargeBin := fun _ _ => .num 0
  loss := fun _ _ => .num 0

/-- `create_evs_array`.  assets/evs.py:180-258.  Assigning outside the array shape raises `IndexError`. -/
def createEvsArray (iv : IVars) (i : Int) (assetName : String) (isSpill : Bool) : Res EvsArray := do
  let ois := evData (← iv.filter i (some (if isSpill then .evSpill else .ev)) (some assetName))
  let first ← pyIndex ois 0
  let cfg := first.cfg
  pyAssert (decide (ois.length = cfg.events.length * (if isSpill then 1 else cfg.chargers.length)))
    "one_intervals"
  if ois.all (fun o => decide (o.eventIdx < cfg.events.length) && decide (o.chargerIdx < cfg.chargers.length))
  then .ok (ois.foldl EvsArray.assign (EvsArray.zeros cfg))
  else .error .index

/-- The body of the inner loop of `constrain_charge_discharge_min_max` for one `(continuous, binary)` pair.
assets/evs.py:439-450 -/
def constrainEvFlow (continuous binary : Val) (chargeEvents : List (List ℚ)) (freq : Freq)
    (charger : ChargerCfg) (i eventIdx : Nat) : Res (List Con) :=
  if continuous.isVar then do
    let ce ← matIndex chargeEvents i eventIdx
    .ok [ constrainMax continuous.toExpr binary.toExpr (freq.mwToMwh charger.powerMax),
          constrainMin continuous.toExpr binary.toExpr (freq.mwToMwh charger.powerMin),
          binary.toExpr.leC (.num ce) ]
  else .ok []

/-- `constrain_charge_discharge_min_max`.  assets/evs.py:409-450 -/
def constrainChargeDischargeMinMax (a : EvsArray) (chargeEvents : List (List ℚ)) (freq : Freq)
    (chargers : List ChargerCfg) (events : List ChargeEventCfg) (i : Nat) (allowDischarge : Bool) :
    Res (List Con) :=
  flatMapE (fun (ev : ChargeEventCfg × Nat) =>
    flatMapE (fun (ch : ChargerCfg × Nat) => do
      let c1 ← constrainEvFlow (a.charge ev.2 ch.2) (a.chargeBin ev.2 ch.2) chargeEvents freq ch.1 i ev.2
      let c2 ← if allowDischarge then
          constrainEvFlow (a.discharge ev.2 ch.2) (a.dischargeBin ev.2 ch.2) chargeEvents freq ch.1 i ev.2
        else .ok []
      .ok (c1 ++ c2)) chargers.zipIdx) events.zipIdx

/-- The row `a[e, :]` of an array with `n` chargers. -/
def rowOf (a : Nat → Nat → Val) (e n : Nat) : List Expr := (List.range n).map (fun c => (a e c).toExpr)

/-- The column `a[:, c]` of an array with `n` charge events. -/
def colOf (a : Nat → Nat → Val) (c n : Nat) : List Expr := (List.range n).map (fun e => (a e c).toExpr)

/-- `constrain_single_charger_charge_event`.  assets/evs.py:453-482 -/
def constrainSingleChargerChargeEvent (a : EvsArray) (nChargers nEvents : Nat) : List Con :=
  (List.range nEvents).map (fun e =>
    (Expr.sum (rowOf a.chargeBin e a.cfg.chargers.length ++
      rowOf a.dischargeBin e a.cfg.chargers.length)).leC (.num 1)) ++
  (List.range nChargers).map (fun c =>
    (Expr.sum (colOf a.chargeBin c a.cfg.events.length ++
      colOf a.dischargeBin c a.cfg.events.length)).leC (.num 1))

/-- The loss constraints of one array.  assets/evs.py:513-523 -/
def constrainEvLosses (a : EvsArray) (eventIdx : Nat) (efficiency : ℚ) : List Con :=
  (List.range a.cfg.chargers.length).map (fun c =>
    (Expr.sum [(a.charge eventIdx c).toExpr] * (1 - efficiency)).eqC (Expr.sum [(a.loss eventIdx c).toExpr]))

/-- `constrain_charge_event_electricity_balance`.  assets/evs.py:485-523 -/
def constrainChargeEventElectricityBalance (a s : EvsArray) : List Con :=
  a.cfg.events.zipIdx.flatMap (fun ev =>
    ((a.initialSoc ev.2).toExpr
      + Expr.sum (rowOf a.charge ev.2 a.cfg.chargers.length)
      + Expr.sum (rowOf s.charge ev.2 s.cfg.chargers.length)
      - Expr.sum (rowOf a.discharge ev.2 a.cfg.chargers.length)
      - Expr.sum (rowOf s.discharge ev.2 s.cfg.chargers.length)
      - Expr.sum (rowOf a.loss ev.2 a.cfg.chargers.length)).eqC (a.finalSoc ev.2).toExpr ::
    (constrainEvLosses a ev.2 ev.1.efficiency ++ constrainEvLosses s ev.2 ev.1.efficiency))

/-- `constrain_connection_charge_events_between_intervals`.  assets/evs.py:526-543.  Both arrays have one column per
charge event of the same asset, so `zip(strict=True)` cannot raise. -/
def constrainConnectionChargeEvents (old new : EvsArray) : List Con :=
  (List.range new.cfg.events.length).flatMap (fun e =>
    if (new.initialSoc e).isVar && (old.finalSoc e).isVar then
      [((new.initialSoc e).toExpr).eqC (old.finalSoc e).toExpr]
    else [])

/-- `EVs.constrain_within_interval`.  assets/evs.py:725-784 -/
def EvsCfg.constrainWithin (c : EvsCfg) (iv : IVars) (i : Nat) (freq : Freq) (flags : Flags) :
    Res (List Con) := do
  let a ← createEvsArray iv i c.name false
  let c1 ← constrainChargeDischargeMinMax a c.chargeEvents freq c.chargers c.events i flags.allowEvsDischarge
  let s ← createEvsArray iv i c.name true
  let c2 ← constrainChargeDischargeMinMax s c.chargeEvents freq c.spillChargers c.events i false
  let c3 := constrainSingleChargerChargeEvent a c.chargers.length c.events.length
  let c4 := constrainChargeEventElectricityBalance a s
  let c5 ← if 0 < i then do
      let old ← createEvsArray iv ((i : Int) - 1) c.name false
      .ok (constrainConnectionChargeEvents old a)
    else .ok []
  .ok (c1 ++ c2 ++ c3 ++ c4 ++ c5)

/-- `constrain_initial_final_charge` and `EVs.constrain_after_intervals`.  assets/evs.py:546-563, 786-799 -/
def EvsCfg.constrainAfter (c : EvsCfg) (iv : IVars) : Res (List Con) := do
  let initial ← createEvsArray iv 0 c.name false
  let final ← createEvsArray iv (-1) c.name false
  .ok (c.events.zipIdx.flatMap (fun ev =>
    [ ((initial.initialSoc ev.2).toExpr).eqC (.num 0),
      ((final.finalSoc ev.2).toExpr).eqC (.num ev.1.capacity) ]))

/-! ### Assets -/

/-- The asset classes. -/
inductive Asset where
  | battery (c : BatteryCfg)
  | boiler (c : BoilerCfg)
  | chp (c : ChpCfg)
  | evs (c : EvsCfg)
  | heatPump (c : HeatPumpCfg)
  | renewable (c : RenewableCfg)
  | spill (c : SpillCfg)
  | valve (c : ValveCfg)
  deriving DecidableEq, Repr

/-- `asset.cfg.name` -/
def Asset.name : Asset → String
  | .battery c => c.name
  | .boiler c => c.name
  | .chp c => c.name
  | .evs c => c.name
  | .heatPump c => c.name
  | .renewable c => c.name
  | .spill c => c.name
  | .valve c => c.name

/-- `asset.one_interval` as `Site.optimize` collects it (assets/site.py:481-486): one object, or a list for EVs. -/
def Asset.oneInterval (a : Asset) (i : Nat) (freq : Freq) (flags : Flags) : Res (List OneInterval) :=
  match a with
  | .battery c => .ok [.battery (c.oneInterval i freq)]
  | .boiler c => .ok [.boiler (c.oneInterval i freq)]
  | .chp c => .ok [.chp (c.oneInterval i freq)]
  | .evs c => c.oneInterval i freq flags
  | .heatPump c => .ok [.heatPump (c.oneInterval i freq)]
  | .renewable c => do
    let r ← c.oneInterval i
    .ok [.renewable r]
  | .spill c => .ok [.spill (c.oneInterval i)]
  | .valve c => .ok [.valve (c.oneInterval i)]

/-- `asset.constrain_within_interval`; renewable generators and spills add nothing
(renewable_generator.py:213-231, spill.py:75-79). -/
def Asset.constrainWithin (a : Asset) (iv : IVars) (i : Nat) (freq : Freq) (flags : Flags) : Res (List Con) :=
  match a with
  | .battery c => c.constrainWithin iv
  | .boiler c => c.constrainWithin iv freq
  | .chp c => c.constrainWithin iv i freq
  | .evs c => c.constrainWithin iv i freq flags
  | .heatPump c => c.constrainWithin iv i freq
  | .renewable _ => .ok []
  | .spill _ => .ok []
  | .valve c => c.constrainWithin iv

/-- `asset.constrain_after_intervals`; only batteries and EVs add constraints (boiler.py:106-110, chp.py:202-206,
heat_pump.py:180-186, renewable_generator.py:233-245, spill.py:81-85, valve.py:76-80). -/
def Asset.constrainAfter (a : Asset) (iv : IVars) : Res (List Con) :=
  match a with
  | .battery c => c.constrainAfter iv
  | .evs c => c.constrainAfter iv
  | _ => .ok []

end EPL
