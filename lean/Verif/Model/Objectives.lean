/-
Objective functions: `energypylinear/objectives.py` and the min/max helpers of `optimizer.py`.
-/
import Verif.Model.Site

namespace EPL

/-! ### min and max of variables (optimizer.py) -/

/-- `isinstance(v, float)`; ints and variables are not floats. -/
def Val.isFloat : Val → Bool
  | .num _ => true
  | _ => false

/-- `Optimizer.min_two_variables`.  optimizer.py:197-221.  `None` operands are not modelled.  The new variable and the
constraints are returned. -/
def minTwoVariables (name : String) (serial : Nat) (a b : Val) (M : ℚ) : Res (LpVar × List Con) := do
  pyAssert (!(a.isFloat && b.isFloat)) "not isinstance(b, float)"
  pyAssert (pyIn "min" name) "min in name"
  if a.isNone || b.isNone then .error (.unmodelled "None operand")
  else
    let cv := continuous (.aux (name ++ "-continuous") serial) (low := none) (up := none)
    let cb := binary (.aux (name ++ "-binary") serial)
    .ok (cv,
      [ a.toExpr.geC (.var cv),
        b.toExpr.geC (.var cv),
        (Expr.var cv).geC (a.toExpr - (Expr.num 1 - Expr.var cb) * M),
        (Expr.var cv).geC (b.toExpr - Expr.var cb * M) ])

/-- `Optimizer.max_two_variables`.  optimizer.py:223-251 -/
def maxTwoVariables (name : String) (serial : Nat) (a b : Val) (M : ℚ) : Res (LpVar × List Con) := do
  pyAssert (!(a.isFloat && b.isFloat)) "not isinstance(b, float)"
  pyAssert (pyIn "max" name) "max in name"
  if a.isNone || b.isNone then .error (.unmodelled "None operand")
  else
    let cv := continuous (.aux (name ++ "-continuous") serial) (low := none) (up := none)
    let cb := binary (.aux (name ++ "-binary") serial)
    .ok (cv,
      [ (Expr.var cv).geC a.toExpr,
        (Expr.var cv).geC b.toExpr,
        (a.toExpr + Expr.var cb * M).geC (.var cv),
        (b.toExpr + (Expr.num 1 - Expr.var cb) * M).geC (.var cv) ])

/-- The check of the operands of `min_many_variables` and `max_many_variables`: `None >= 0` is a `TypeError`.
optimizer.py:269-273, 300-304 -/
def assertNonNegative : Val → Res Unit
  | .none => .error (.type "'>=' not supported between NoneType and int")
  | .num q => pyAssert (decide (0 ≤ q)) "v >= 0"
  | .int k => pyAssert (decide (0 ≤ k)) "v >= 0"
  | .var v => match v.low with
    | none => .error (.type "'>=' not supported between NoneType and int")
    | some l => pyAssert (decide (0 ≤ l)) "v.lowBound >= 0"

/-- The binary variables `f"{name}-binary-{i}"`.  optimizer.py:267, 298 -/
def manyBinary (name : String) (serial : Nat) (i : Nat) : LpVar :=
  binary (.aux (name ++ "-binary-" ++ toString i) serial)

/-- `Optimizer.min_many_variables`.  optimizer.py:253-280 -/
def minManyVariables (name : String) (serial : Nat) (xs : List Val) (M : ℚ) : Res (LpVar × List Con) := do
  pyAssert (pyIn "min_many" name) "min_many in name"
  let cv := continuous (.aux (name ++ "-continuous") serial) (low := none) (up := none)
  let _ ← mapE assertNonNegative xs
  .ok (cv,
    xs.zipIdx.flatMap (fun p =>
      [ (Expr.var cv).leC p.1.toExpr,
        (p.1.toExpr - Expr.var (manyBinary name serial p.2) * M).leC (.var cv) ]) ++
    [ (Expr.sum ((List.range xs.length).map (fun i => Expr.var (manyBinary name serial i)))).leC
        (.num ((xs.length : ℚ) - 1)) ])

/-- `Optimizer.max_many_variables`.  optimizer.py:282-310.  Nothing constrains the sum of the binaries. -/
def maxManyVariables (name : String) (serial : Nat) (xs : List Val) (M : ℚ) : Res (LpVar × List Con) := do
  pyAssert (pyIn "max_many" name) "max_many in name"
  let cv := continuous (.aux (name ++ "-continuous") serial) (low := none) (up := none)
  let _ ← mapE assertNonNegative xs
  .ok (cv,
    xs.zipIdx.flatMap (fun p =>
      (Expr.var cv).geC p.1.toExpr ::
      (if p.1.isVar then
        [ (p.1.toExpr + (Expr.num 1 - Expr.var (manyBinary name serial p.2)) * M).geC (.var cv) ]
       else [])))

/-! ### terms -/

/-- objectives.py:15-76 -/
structure Term where
  attr : String
  assetType : Option String := none
  intervalData : Option String := none
  assetName : Option String := none
  coefficient : ℚ := 1
  deriving DecidableEq, Repr

/-- `Term | float` -/
inductive TermOrFloat where
  | float (q : ℚ)
  | term (t : Term)
  deriving DecidableEq, Repr

/-- `OneTerm`.  objectives.py:83-144.  The `function` field is a string that nothing checks. -/
inductive OneTerm where
  | simple (t : Term)
  | two (function : String) (a b : TermOrFloat) (M : ℚ) (intervalData : Option String) (coefficient : ℚ)
  | many (function : String) (operands : Term) (M : ℚ) (constant : ℚ) (coefficient : ℚ)
  deriving DecidableEq, Repr

/-- The objective argument of `Site.optimize`: a string, a `CustomObjectiveFunction` or a dictionary `{"terms": [...]}`.
A term given as a dictionary is the `OneTerm` with those fields. -/
inductive Objective where
  | str (s : String)
  | custom (terms : List OneTerm)
  | dict (terms : List OneTerm)
  deriving DecidableEq, Repr

/-- `term_factory` on a term (or a dictionary with its fields): the class is chosen by the text of `function`, a mismatch
with the fields that are present is a `KeyError`.  objectives.py:176-207 -/
def termFactory : OneTerm → Res OneTerm
  | .simple t => .ok (.simple t)
  | .two function a b M data coefficient =>
    if pyIn "two_variables" function then .ok (.two function a b M data coefficient)
    else if pyIn "many_variables" function then .error (.key "variables")
    else .error (.assertion "many_variables in function")
  | .many function v M constant coefficient =>
    if pyIn "two_variables" function then .error (.key "a")
    else if pyIn "many_variables" function then .ok (.many function v M constant coefficient)
    else .error (.assertion "many_variables in function")

/-- Python `repr` of `str | None` without escapes. -/
def reprOptStr : Option String → String
  | none => "None"
  | some s => "'" ++ s ++ "'"

/-- A number inside a variable name.  Python prints a float, the model a fraction; only whether two names are
equal matters. -/
def reprNum (q : ℚ) : String := toString q.num ++ "/" ++ toString q.den

/-- The dataclass `repr` of a `Term`. -/
def Term.repr (t : Term) : String :=
  "Term(variable='" ++ t.attr ++ "', asset_type=" ++ reprOptStr t.assetType ++ ", interval_data=" ++
    reprOptStr t.intervalData ++ ", asset_name=" ++ reprOptStr t.assetName ++ ", coefficient=" ++
    reprNum t.coefficient ++ ", type='simple')"

/-- `repr` of `Term | float`. -/
def TermOrFloat.repr : TermOrFloat → String
  | .float q => reprNum q
  | .term t => t.repr

/-- The variable name of a two variable term.  objectives.py:348-350 -/
def twoName (function : String) (i : Nat) (a b : TermOrFloat) : String :=
  function ++ "-i=" ++ toString i ++ "-term.a=" ++ a.repr ++ "-term.b=" ++ b.repr

/-- The variable name of a many variable term.  objectives.py:409-411 -/
def manyName (function : String) (v : Term) (M constant coefficient : ℚ) : String :=
  function ++ "-term=FunctionTermManyVariables(function='" ++ function ++ "', variables=" ++ v.repr ++ ", M=" ++
    reprNum M ++ ", constant=" ++ reprNum constant ++ ", coefficient=" ++ reprNum coefficient ++
    ", type='complex')"

/-- `getattr(interval_data, name)[i] if name is not None else 1` -/
def SiteData.factor (d : SiteData) (name : Option String) (i : Nat) : Res ℚ :=
  match name with
  | some n => d.at n i
  | none => .ok 1

/-- `append_simple_objective_function_terms`.  objectives.py:210-241 -/
def simpleTermExprs (d : SiteData) (i : Nat) (t : Term) (assets : List OneInterval) : Res (List Expr) :=
  mapE (fun (a : OneInterval) => do
    let v ← a.getattr t.attr
    let f ← d.factor t.intervalData i
    .ok (v.toExpr * f * t.coefficient)) assets

/-- The assets of a simple term in one interval: `"*"` ignores the asset name.  objectives.py:261-268 -/
def simpleTermAssets (iv : IVars) (i : Nat) (t : Term) : Res (List OneInterval) :=
  if t.assetType = some "*" then pyIndex iv i else iv.filterStr i t.assetType t.assetName

/-- `add_simple_terms` for one term.  objectives.py:258-271 -/
def OneTerm.simpleExprs (d : SiteData) (iv : IVars) : OneTerm → Res (List Expr)
  | .simple t => flatMapE (fun (i : Nat) => do
      let assets ← simpleTermAssets iv i t
      simpleTermExprs d i t assets) (List.range d.n)
  | _ => .ok []

/-- The assertions on the operands of a two variable term.  objectives.py:317-322 -/
def TermOrFloat.check : TermOrFloat → Res Unit
  | .float _ => .ok ()
  | .term t => do
    pyAssert (t.assetType == none || t.assetType == some "site") "asset_type"
    pyAssert (t.assetName == none || t.assetName == some "site") "asset_name"
    pyAssert (t.intervalData == none) "interval_data"

/-- An operand of a two variable term: the attribute of the first matching object.  objectives.py:324-346 -/
def TermOrFloat.resolve (iv : IVars) (i : Nat) : TermOrFloat → Res Val
  | .float q => .ok (.num q)
  | .term t => do
    let x ← pyIndex (← iv.filterStr i none t.assetName) 0
    x.getattr t.attr

/-- `add_two_variable_terms` for one term, `serial` being its position.  objectives.py:290-359.  A two variable term whose
function is a many variable one fails the `isinstance` assertion of `add_many_variables_terms`, a term with any other
unknown function is skipped. -/
def OneTerm.twoExprs (d : SiteData) (iv : IVars) (serial : Nat) : OneTerm → Res (List (Expr × List Con))
  | .two function a b M data coefficient =>
    if function = "max_two_variables" ∨ function = "min_two_variables" then
      mapE (fun (i : Nat) => do
        a.check
        b.check
        let x ← a.resolve iv i
        let y ← b.resolve iv i
        let (c, cons) ←
          if function = "max_two_variables" then maxTwoVariables (twoName function i a b) serial x y M
          else minTwoVariables (twoName function i a b) serial x y M
        let f ← d.factor data i
        .ok (Expr.var c * f * coefficient, cons)) (List.range d.n)
    else .ok []
  | .many function _ _ _ _ =>
    if function = "max_two_variables" ∨ function = "min_two_variables" then
      .error (.assertion "isinstance FunctionTermTwoVariables")
    else .ok []
  | .simple _ => .ok []

/-- The operands of a many variable term.  objectives.py:385-406 -/
def manyOperands (iv : IVars) (v : Term) (constant : ℚ) : Res (List Val) := do
  let assets ←
    if v.assetType = some "*" then iv.filterAllStr v.assetType none
    else if v.assetName = none then iv.filterAllStr v.assetType none
    else iv.filterAllStr none v.assetName
  let vals ← mapE (fun (a : OneInterval) => a.getattr v.attr) assets.flatten
  .ok (vals.filter (fun x => !x.isNone) ++ [.num constant])

/-- `add_many_variables_terms` for one term.  objectives.py:376-413 -/
def OneTerm.manyExprs (iv : IVars) (serial : Nat) : OneTerm → Res (List (Expr × List Con))
  | .many function v M constant coefficient =>
    if function = "max_many_variables" ∨ function = "min_many_variables" then do
      pyAssert (v.intervalData == none) "interval_data"
      let ops ← manyOperands iv v constant
      let (c, cons) ←
        if function = "max_many_variables" then
          maxManyVariables (manyName function v M constant coefficient) serial ops M
        else minManyVariables (manyName function v M constant coefficient) serial ops M
      .ok [(Expr.var c * coefficient, cons)]
    else .ok []
  | .two function _ _ _ _ _ =>
    if function = "max_many_variables" ∨ function = "min_many_variables" then
      .error (.assertion "isinstance FunctionTermManyVariables")
    else .ok []
  | .simple _ => .ok []

/-! ### price and carbon -/

/-- The terms of one interval of `price_objective`; the five blocks in the order of objectives.py:467-494. -/
def priceTerms (d : SiteData) (i : Nat) (assets : List OneInterval) : Res (List Expr) := do
  let p ← pyIndex d.electricityPrices i
  let x ← pyIndex d.exportElectricityPrices i
  let g ← pyIndex d.gasPrices i
  let pen := Defaults.spillObjectivePenalty
  let sites := assets.filterMap (fun a => match a with
    | .site s => some (Expr.var s.importPower * p - Expr.var s.exportPower * x)
    | _ => none)
  let spills := assets.filterMap (fun a => match a with
    | .spill _ => some (a.base.electricGeneration.toExpr * pen + a.base.htGeneration.toExpr * pen
        + a.base.electricLoad.toExpr * pen + a.base.htLoad.toExpr * pen)
    | _ => none)
  let spillEvs := assets.filterMap (fun a => match a with
    | .evSpill _ => some (a.base.electricCharge.toExpr * pen + a.base.electricDischarge.toExpr * pen)
    | _ => none)
  let chps := assets.filterMap (fun a => match a with
    | .chp c => some (Expr.var c.gas * g)
    | _ => none)
  let boilers := assets.filterMap (fun a => match a with
    | .boiler b => some (Expr.var b.gas * g)
    | _ => none)
  .ok (sites ++ spills ++ spillEvs ++ chps ++ boilers)

/-- The penalised quantities of spills and EV spills in the carbon objective.  objectives.py:552-570 -/
def carbonSpillTerm (b : Base) : Expr :=
  let pen := Defaults.spillObjectivePenalty
  b.electricGeneration.toExpr * pen + b.htGeneration.toExpr * pen + b.electricLoad.toExpr * pen
    + b.electricCharge.toExpr * pen + b.electricDischarge.toExpr * pen

/-- The terms of one interval of `carbon_objective`.  objectives.py:546-580 -/
def carbonTerms (d : SiteData) (i : Nat) (assets : List OneInterval) : Res (List Expr) := do
  let ci ← pyIndex d.electricityCarbonIntensities i
  let g := Defaults.gasCarbonIntensity
  let sites := assets.filterMap (fun a => match a with
    | .site s => some (Expr.var s.importPower * ci - Expr.var s.exportPower * ci)
    | _ => none)
  let spills := assets.filterMap (fun a => match a with
    | .spill _ => some (carbonSpillTerm a.base)
    | _ => none)
  let spillEvs := assets.filterMap (fun a => match a with
    | .evSpill _ => some (carbonSpillTerm a.base)
    | _ => none)
  let chps := assets.filterMap (fun a => match a with
    | .chp c => some (Expr.var c.gas * g)
    | _ => none)
  let boilers := assets.filterMap (fun a => match a with
    | .boiler b => some (Expr.var b.gas * g)
    | _ => none)
  .ok (sites ++ spills ++ spillEvs ++ chps ++ boilers)

/-- `price_objective`.  objectives.py:416-495 -/
def priceObjective (d : SiteData) (iv : IVars) : Res Expr := do
  let ts ← flatMapE (fun (i : Nat) => do
    let assets ← pyIndex iv i
    priceTerms d i assets) (List.range d.n)
  .ok (Expr.sum ts)

/-- `carbon_objective`.  objectives.py:498-581 -/
def carbonObjective (d : SiteData) (iv : IVars) : Res Expr := do
  let ts ← flatMapE (fun (i : Nat) => do
    let assets ← pyIndex iv i
    carbonTerms d i assets) (List.range d.n)
  .ok (Expr.sum ts)

/-- The custom part of `get_objective`.  objectives.py:635-654 -/
def customObjective (d : SiteData) (iv : IVars) (terms : List OneTerm) : Res (Expr × List Con) := do
  let simple ← flatMapE (OneTerm.simpleExprs d iv) terms
  let two ← flatMapE (fun (p : OneTerm × Nat) => p.1.twoExprs d iv p.2) terms.zipIdx
  let many ← flatMapE (fun (p : OneTerm × Nat) => p.1.manyExprs iv p.2) terms.zipIdx
  .ok (Expr.sum (simple ++ two.map Prod.fst ++ many.map Prod.fst),
       two.flatMap Prod.snd ++ many.flatMap Prod.snd)

/-- `get_objective`: the expression and the constraints it adds to the program.  objectives.py:584-654 -/
def getObjective (d : SiteData) (iv : IVars) : Objective → Res (Expr × List Con)
  | .str s =>
    if s = "price" then do
      let e ← priceObjective d iv
      .ok (e, [])
    else if s = "carbon" then do
      let e ← carbonObjective d iv
      .ok (e, [])
    else .error (.value "objective not in objectives")
  | .custom terms => customObjective d iv terms
  | .dict terms => do
    let ts ← mapE termFactory terms
    customObjective d iv ts

end EPL
