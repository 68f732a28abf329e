/-
From the solver's answer to the results table: results/extract.py, checks.py, schema.py, warnings.py.
-/
import Verif.Model.Objectives
import Mathlib.Data.List.Dedup

namespace EPL

/-! ### The solver -/

/-- What the solver leaves behind: a status and a value for every variable it was given (`None` possible). -/
structure SolverOut where
  status : String
  value : VarId → Option ℚ

/-- A solver: any function from programs to answers. -/
abbrev Solver := Prob → SolverOut

/-- The assumption on the solver: when it answers "Optimal", its values satisfy the program. -/
def Solver.Sound (S : Solver) : Prop :=
  ∀ p, (S p).status = "Optimal" → ∃ σ, p.Feasible σ ∧ ∀ v ∈ p.vars, (S p).value v.id = some (σ v.id)

/-- A solver whose "Optimal" answers minimise the objective. -/
def Solver.Exact (S : Solver) : Prop :=
  ∀ p, (S p).status = "Optimal" → ∃ σ, p.Optimal σ ∧ ∀ v ∈ p.vars, (S p).value v.id = some (σ v.id)

/-- The value stored on the variable objects after solving: a variable the program does not mention was never given to
the solver and keeps the value `None`. -/
abbrev Values := VarId → Option ℚ

/-- see `Values` -/
def Prob.valuesOf (p : Prob) (out : SolverOut) : Values :=
  fun v => if v ∈ p.vars.map LpVar.id then out.value v else none

/-- `pulp.value(expr)`: `None` as soon as one variable has no value. -/
def Expr.value (vals : Values) (e : Expr) : Option ℚ := do
  let ts ← e.terms.mapM (fun t => (vals t.1.id).map (t.2 * ·))
  some (ts.sum + e.const)

/-- optimizer.py:15-21 -/
structure Status where
  status : String
  feasible : Bool
  objective : Option ℚ
  deriving DecidableEq, Repr

/-- `Optimizer.assert_no_duplicate_variables`.  optimizer.py:147-154 -/
def Prob.noDuplicateVariables (p : Prob) : Bool :=
  noDup ((p.vars.map LpVar.id).dedup.map VarId.solverName)

/-- `Optimizer.solve`.  optimizer.py:118-145 -/
def Prob.solve (p : Prob) (S : Solver) (allowInfeasible : Bool) : Res (Status × Values) := do
  pyAssert p.noDuplicateVariables "duplicate variables detected"
  let vals := p.valuesOf (S p)
  let feasible := (S p).status == "Optimal"
  let objective := p.obj.value vals
  if allowInfeasible then .ok ({ status := (S p).status, feasible, objective }, vals)
  else do
    pyAssert feasible "Infeasible simulation!"
    pyAssert objective.isSome "Solver failure"
    .ok ({ status := (S p).status, feasible, objective }, vals)

/-- `Optimizer.value`.  optimizer.py:312-331; `float(None)` is a `TypeError`. -/
def optimizerValue (vals : Values) (clip : Bool) (x : Val) : Res ℚ :=
  let raw : Res ℚ := match x with
    | .none => .error (.type "float() argument must be a string or a real number, not 'NoneType'")
    | .num q => .ok q
    | .int k => .ok k
    | .var v => match vals v.id with
      | some q => .ok q
      | none => .error (.assertion "val is not None")
  match raw with
  | .ok q => .ok (if clip then max q 0 else q)
  | .error e => .error e

/-- `x.value()` put into the frame.  `None` would become NaN there, which the model does not follow. -/
def directValue (vals : Values) : Val → Res ℚ
  | .var v => match vals v.id with
    | some q => .ok q
    | none => .error (.unmodelled "None in a results column")
  | _ => .error (.attribute "value")

/-! ### The table -/

/-- A results frame: named columns in insertion order. -/
abbrev Table := List (String × List ℚ)

/-- `frame[key]`, `KeyError` if it is missing. -/
def Table.get (t : Table) (k : String) : Res (List ℚ) :=
  match t.lookup k with
  | some col => .ok col
  | none => .error (.key k)

/-- The cell in column `k`, row `i`. -/
def Table.cell (t : Table) (k : String) (i : Nat) : Option ℚ := (t.lookup k).bind (·[i]?)

/-- `results[k].append(v)` on a `defaultdict(list)`.  results/extract.py:383 -/
def Table.append : Table → String × ℚ → Table
  | [], (k, v) => [(k, [v])]
  | (k', col) :: t, (k, v) => if k' = k then (k', col ++ [v]) :: t else (k', col) :: Table.append t (k, v)

/-- `results[k] = col` -/
def Table.set : Table → String → List ℚ → Table
  | [], k, col => [(k, col)]
  | (k', col') :: t, k, col => if k' = k then (k', col) :: t else (k', col') :: Table.set t k col

/-- The column names. -/
def Table.columns (t : Table) : List String := t.map Prod.fst

/-! ### Extraction -/

/-- `for attr in attrs: results[f"{x.cfg.name}-{attr}"].append(read(getattr(x, attr)))` -/
def emitAttrs (read : Val → Res ℚ) (attrs : List String) (x : OneInterval) : Res (List (String × ℚ)) :=
  mapE (fun attr => do
    let v ← x.getattr attr
    let q ← read v
    .ok (x.name ++ "-" ++ attr, q)) attrs

/-- The loops of the `extract_*_results` functions over all objects of one class. -/
def emitKind (iv : IVars) (i : Nat) (kind : Kind) (read : Val → Res ℚ) (attrs : List String) :
    Res (List (String × ℚ)) := do
  flatMapE (emitAttrs read attrs) (← iv.filter i (some kind) none)

/-- results/extract.py:80-88 -/
def spillCols : List String :=
  [ "electric_generation_mwh", "electric_load_mwh", "high_temperature_generation_mwh",
    "low_temperature_generation_mwh", "high_temperature_load_mwh", "low_temperature_load_mwh",
    "gas_consumption_mwh" ]

/-- results/extract.py:102-107 -/
def chpCols : List String :=
  [ "electric_generation_mwh", "gas_consumption_mwh", "high_temperature_generation_mwh",
    "low_temperature_generation_mwh" ]

/-- results/extract.py:120 -/
def boilerCols : List String := [ "high_temperature_generation_mwh", "gas_consumption_mwh" ]

/-- results/extract.py:133-136 -/
def valveCols : List String := [ "high_temperature_load_mwh", "low_temperature_generation_mwh" ]

/-- results/extract.py:150-159 -/
def batteryCols : List String :=
  [ "electric_charge_mwh", "electric_charge_binary", "electric_discharge_mwh", "electric_discharge_binary",
    "electric_loss_mwh", "electric_initial_charge_mwh", "electric_final_charge_mwh" ]

/-- results/extract.py:275-279 -/
def heatPumpCols : List String :=
  [ "electric_load_mwh", "low_temperature_load_mwh", "high_temperature_generation_mwh" ]

/-- results/extract.py:294 -/
def renewableCols : List String := [ "electric_generation_mwh" ]

/-- results/extract.py:185-191 -/
def evCols : List String :=
  [ "electric_charge_mwh", "electric_charge_binary", "electric_discharge_mwh", "electric_discharge_binary",
    "electric_loss_mwh" ]

/-- results/extract.py:211-215 -/
def evEventCols : List String := [ "electric_charge_mwh", "electric_discharge_mwh", "electric_loss_mwh" ]

/-- `extract_site_results`.  results/extract.py:51-69 -/
def emitSite (d : SiteData) (iv : IVars) (vals : Values) (i : Nat) : Res (List (String × ℚ)) := do
  let sites ← iv.filter i (some .site) (some "site")
  pyAssert (decide (sites.length = 1)) "len(sites) == 1"
  match sites with
  | .site s :: _ => do
    let imp ← directValue vals (.var s.importPower)
    let exp ← directValue vals (.var s.exportPower)
    let data ← mapE (fun (f : String × List ℚ) => do
      let q ← pyIndex f.2 i
      .ok ("site-" ++ f.1, q)) d.dump
    .ok (("site-import_power_mwh", imp) :: ("site-export_power_mwh", exp) :: data)
  | _ => .error (.assertion "isinstance SiteOneInterval")

/-- `getattr(evs, attr)` for the two dimensional arrays of `EVsArrayOneInterval`. -/
def EvsArray.get2 (a : EvsArray) (attr : String) : Nat → Nat → Val :=
  if attr = "electric_charge_mwh" then a.charge
  else if attr = "electric_charge_binary" then a.chargeBin
  else if attr = "electric_discharge_mwh" then a.discharge
  else if attr = "electric_discharge_binary" then a.dischargeBin
  else a.loss

/-- `sum([optimizer.value(x) for x in xs])` -/
def sumValues (vals : Values) (xs : List Val) : Res ℚ := do
  let qs ← mapE (optimizerValue vals false) xs
  .ok qs.sum

/-- The columns of a list of chargers, summed over the charge events.  results/extract.py:193-204, 249-261.  The arrays have
`cfg.chargers.length` columns; `createEvsArray` has checked that every charger index is below it. -/
def emitChargers (vals : Values) (a : EvsArray) (chargers : List ChargerCfg) : Res (List (String × ℚ)) :=
  flatMapE (fun (ch : ChargerCfg × Nat) =>
    mapE (fun attr => do
      let q ← sumValues vals ((List.range a.cfg.events.length).map (fun e => a.get2 attr e ch.2))
      .ok (a.cfg.name ++ "-" ++ ch.1.name ++ "-" ++ attr, q)) evCols) chargers.zipIdx

/-- The columns of the charge events, summed over the chargers.  results/extract.py:206-224 -/
def emitEvents (vals : Values) (a : EvsArray) : Res (List (String × ℚ)) :=
  flatMapE (fun (ev : ChargeEventCfg × Nat) =>
    mapE (fun attr => do
      let q ← sumValues vals ((List.range a.cfg.chargers.length).map (fun c => a.get2 attr ev.2 c))
      .ok (a.cfg.name ++ "-" ++ ev.1.name ++ "-" ++ attr, q)) evEventCols) a.cfg.events.zipIdx

/-- The state of charge columns.  results/extract.py:226-239 -/
def emitSocs (vals : Values) (a : EvsArray) : Res (List (String × ℚ)) := do
  let initial ← mapE (fun e => do
    let q ← directValue vals (a.initialSoc e)
    .ok (a.cfg.name ++ "-charge-event-" ++ toString e ++ "-" ++ "initial_soc_mwh", q))
    (List.range a.cfg.events.length)
  let final ← mapE (fun e => do
    let q ← directValue vals (a.finalSoc e)
    .ok (a.cfg.name ++ "-charge-event-" ++ toString e ++ "-" ++ "final_soc_mwh", q))
    (List.range a.cfg.events.length)
  .ok (initial ++ final)

/-- `extract_evs_results`.  results/extract.py:165-261.  Python iterates over a set of names, so the order of the columns of
several EV assets is not determined; the model takes the order of the assets. -/
def emitEvs (iv : IVars) (vals : Values) (i : Nat) (assetNames : List String) : Res (List (String × ℚ)) := do
  let evs ← iv.filter i (some .ev) none
  if evs.isEmpty then .ok []
  else do
    let names := assetNames.filter (pyIn "evs")
    let pkg ← mapE (fun n => createEvsArray iv i n false) names
    let rows ← flatMapE (fun a => do
      let c ← emitChargers vals a a.cfg.chargers
      let e ← emitEvents vals a
      let s ← emitSocs vals a
      .ok (c ++ e ++ s)) pkg
    let spillPkg ← mapE (fun n => createEvsArray iv i n true) names
    let spillRows ← flatMapE (fun (a : EvsArray) => emitChargers vals a a.cfg.spillChargers) spillPkg
    .ok (rows ++ spillRows)

/-- The body of the extraction loop.  results/extract.py:384-399 -/
def emitInterval (s : Site) (iv : IVars) (vals : Values) (i : Nat) : Res (List (String × ℚ)) := do
  let site ← emitSite s.data iv vals i
  let spill ← emitKind iv i .spill (optimizerValue vals false) spillCols
  let battery ← emitKind iv i .battery (optimizerValue vals true) batteryCols
  let chp ← emitKind iv i .chp (directValue vals) chpCols
  let boiler ← emitKind iv i .boiler (directValue vals) boilerCols
  let valve ← emitKind iv i .valve (optimizerValue vals false) valveCols
  let evs ← emitEvs iv vals i (s.assets.map Asset.name)
  let hp ← emitKind iv i .heatPump (optimizerValue vals false) heatPumpCols
  let ren ← emitKind iv i .renewable (optimizerValue vals false) renewableCols
  .ok (site ++ spill ++ battery ++ chp ++ boiler ++ valve ++ evs ++ hp ++ ren)

/-- The extraction loop.  results/extract.py:383-399 -/
def extractTable (s : Site) (iv : IVars) (vals : Values) : Res Table := do
  let cells ← flatMapE (emitInterval s iv vals) (List.range s.data.n)
  .ok (cells.foldl Table.append [])

/-- `check_array_lengths`: `len(set(lens)) == 1`, the frame then has that many rows.  utils.py:11-26 -/
def checkArrayLengths (t : Table) : Res Nat :=
  match t with
  | [] => .error (.assertion "len(set(lens)) == 1")
  | (_, col) :: rest =>
    if rest.all (fun c => decide (c.2.length = col.length)) then .ok col.length
    else .error (.assertion "len(set(lens)) == 1")

/-! ### Totals, schema, checks and spill warning -/

/-- results/schema.py:26-36 -/
def quantities : List String :=
  [ "electric_generation_mwh", "electric_load_mwh", "high_temperature_generation_mwh",
    "low_temperature_generation_mwh", "high_temperature_load_mwh", "low_temperature_load_mwh",
    "gas_consumption_mwh", "electric_charge_mwh", "electric_discharge_mwh" ]

/-- `results[cols].sum(axis=1)` on a frame with `n` rows. -/
def Table.sumColumns (t : Table) (n : Nat) (p : String → Bool) : List ℚ :=
  (List.range n).map (fun i => ((t.filter (fun c => p c.1)).map (fun c => c.2.getD i 0)).sum)

/-- The columns of `total-<q>`.  results/extract.py:307-309 -/
def isTotalColumn (q : String) (c : String) : Bool := pyIn ("-" ++ q) c && !pyIn "charge-event" c

/-- The columns of `total-spills_mwh`.  results/extract.py:313-318 -/
def isTotalSpillColumn (c : String) : Bool := pyIn "spill" c && !pyIn "binary" c && pyIn "charger-" c

/-- The columns of `total-electric_loss_mwh`.  results/extract.py:321-325 -/
def isTotalLossColumn (c : String) : Bool := pyIn "electric_loss_mwh" c && !pyIn "evs-charger" c

/-- One step of the loop of `add_totals`.  results/extract.py:306-311 -/
def addTotal (n : Nat) (t : Table) (q : String) : Table :=
  t.set ("total-" ++ q) (t.sumColumns n (isTotalColumn q))

/-- `add_totals`.  results/extract.py:301-330 -/
def addTotals (t : Table) (n : Nat) : Res Table := do
  let t := quantities.foldl (addTotal n) t
  let t := t.set "total-spills_mwh" (t.sumColumns n isTotalSpillColumn)
  let t := t.set "total-electric_loss_mwh" (t.sumColumns n isTotalLossColumn)
  let imp ← t.get "site-import_power_mwh"
  let exp ← t.get "site-export_power_mwh"
  .ok (t.set "site-electricity_balance_mwh" (List.zipWith (· - ·) imp exp))

/-- A character matched by the regular expression `\w`; the model knows the ASCII ones. -/
def isWordChar (c : Char) : Bool := c.isAlphanum || c == '_'

/-- `re.match(r"\w+-<q>", c)`: a match at the start of the column name.  results/schema.py:41-43 -/
def matchesSchemaPattern (q : String) (c : String) : Bool :=
  (c.toList.takeWhile isWordChar != []) && decide (("-" ++ q).toList <+: c.toList.dropWhile isWordChar)

/-- The columns `simulation_schema` checks to be at least `defaults.epsilon`.  results/schema.py:11-51 -/
def isSchemaColumn (c : String) : Bool :=
  c == "site-import_power_mwh" || c == "site-export_power_mwh" ||
    quantities.any (fun q => matchesSchemaPattern q c || pyStartsWith c ("total-" ++ q))

/-- `simulation_schema.validate(results)`.  results/schema.py:11-51 -/
def validateSchema (t : Table) : Res Unit :=
  match t.find? (fun c => isSchemaColumn c.1 && c.2.any (fun q => decide (q < Defaults.epsilon))) with
  | some c => .error (.schema c.1)
  | none => .ok ()

/-- `check_electricity_balance`.  results/checks.py:27-66 -/
def checkElectricityBalance (t : Table) : Res Unit := do
  let imp ← t.get "site-import_power_mwh"
  let gen ← t.get "total-electric_generation_mwh"
  let exp ← t.get "site-export_power_mwh"
  let load ← t.get "total-electric_load_mwh"
  let dis ← t.get "total-electric_discharge_mwh"
  let ch ← t.get "total-electric_charge_mwh"
  let _ ← t.get "total-electric_loss_mwh"
  let _ ← t.get "total-spills_mwh"
  pyAssert ((List.range imp.length).all (fun i =>
    decide (|imp.getD i 0 + gen.getD i 0 + (dis.getD i 0 - ch.getD i 0) - (exp.getD i 0 + load.getD i 0)| < 1/1000)))
    "electricity balance"

/-- `check_high_temperature_heat_balance`, `check_low_temperature_heat_balance`.  results/checks.py:69-122 -/
def checkHeatBalance (t : Table) (gen load : String) : Res Unit := do
  let g ← t.get gen
  let l ← t.get load
  pyAssert ((List.range g.length).all (fun i => decide (|g.getD i 0 - l.getD i 0| < 1/10000))) "heat balance"

/-- The valve check.  results/checks.py:152-181.  Both blocks depend on `check_valve`. -/
def checkValve (t : Table) : Res Unit := do
  let lt ← t.get "valve-low_temperature_generation_mwh"
  let ht ← t.get "valve-high_temperature_load_mwh"
  pyAssert (decide (lt = ht)) "valve"
  pyAssert (t.all (fun c =>
    !(pyStartsWith c.1 "charger-" && pyEndsWith c.1 "-charge_binary" && !pyIn "spill" c.1) ||
      c.2.all (fun q => decide (q ≤ 1)))) "subset <= 1"

/-- `check_results`.  results/checks.py:125-187 -/
def checkResults (t : Table) (withValve : Bool) : Res Unit := do
  checkElectricityBalance t
  checkHeatBalance t "total-high_temperature_generation_mwh" "total-high_temperature_load_mwh"
  checkHeatBalance t "total-low_temperature_generation_mwh" "total-low_temperature_load_mwh"
  if withValve then checkValve t else .ok ()

/-- The columns of the spill warning.  results/warnings.py:16-18 -/
def isSpillColumn (c : String) : Bool := pyIn "spill" c && !pyIn "charge_binary" c

/-- `warn_spills`.  results/warnings.py:12-36 -/
def warnSpills (t : Table) (flags : Flags) : Res Bool :=
  let total := ((t.filter (fun c => isSpillColumn c.1)).map (fun c => c.2.sum)).sum
  let occured := decide (|Defaults.epsilon| < total)
  if occured && flags.failOnSpill then .error (.value "Spill Occurred!") else .ok occured

/-- `SimulationResult` without the back references to the site and its assets.  results/extract.py:23-40 -/
structure SimResult where
  results : Table
  feasible : Bool
  spill : Bool
  status : Status
  deriving DecidableEq, Repr

/-- `isinstance(a, epl.Valve)` -/
def Asset.isValve : Asset → Bool
  | .valve _ => true
  | _ => false

/-- `extract_results`.  results/extract.py:333-434 -/
def extractResults (s : Site) (iv : IVars) (status : Status) (vals : Values) (flags : Flags) : Res SimResult := do
  let t ← extractTable s iv vals
  let n ← checkArrayLengths t
  let t ← addTotals t n
  let _ ← if status.feasible then do
      validateSchema t
      checkResults t (s.assets.any Asset.isValve)
    else .ok ()
  let spill ← warnSpills t flags
  .ok { results := t, feasible := status.feasible, spill, status }

/-! ### Site.optimize -/

/-- The program `Site.optimize` builds.  assets/site.py:467-518 -/
def Site.program (s : Site) (objective : Objective) (flags : Flags) : Res (IVars × Prob) := do
  pyAssert (noDup (s.assets.map Asset.name)) "Asset names must be unique"
  let (iv, cons) ← s.build flags
  let custom ← flatMapE (addCustomConstraint s.data iv) s.constraints
  let (obj, objCons) ← getObjective s.data iv objective
  .ok (iv, { cons := cons ++ custom ++ objCons, obj })

/-- `Site.optimize`.  assets/site.py:443-533 -/
def Site.optimize (s : Site) (objective : Objective) (flags : Flags) (S : Solver) : Res SimResult := do
  let (iv, p) ← s.program objective flags
  let (status, vals) ← p.solve S flags.allowInfeasible
  extractResults s iv status vals flags

end EPL
