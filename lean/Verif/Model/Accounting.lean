/-
Accounts: accounting/accounting.py.
-/
import Verif.Model.Results

namespace EPL

/-- accounting/accounting.py:22-26 -/
structure Account where
  cost : ℚ := 0
  emissions : ℚ := 0
  deriving DecidableEq, Repr

/-- `Account.__sub__`.  accounting/accounting.py:36-54 -/
def Account.sub (a b : Account) : Account := { cost := a.cost - b.cost, emissions := a.emissions - b.emissions }

/-- accounting/accounting.py:57-66 -/
structure ElectricityAccount extends Account where
  importCost : ℚ
  exportCost : ℚ
  importEmissions : ℚ
  exportEmissions : ℚ
  deriving DecidableEq, Repr

/-- accounting/accounting.py:88-97 -/
structure Accounts extends Account where
  electricity : ElectricityAccount
  gas : Account
  custom : Account
  profit : ℚ
  deriving DecidableEq, Repr

/-- `(a * b).sum()` on pandas columns: rows are aligned, rows missing on one side are NaN and skipped. -/
def dot (a b : List ℚ) : ℚ := (List.zipWith (· * ·) a b).sum

/-- `get_one_gas_account`.  accounting/accounting.py:108-125 -/
def getOneGasAccount (results prices : Table) : Res Account := do
  let p ← prices.get "site-gas_prices"
  let g ← results.get "total-gas_consumption_mwh"
  .ok { cost := dot p g, emissions := (g.map (Defaults.gasCarbonIntensity * ·)).sum }

/-- `get_one_electricity_account`.  accounting/accounting.py:128-156 -/
def getOneElectricityAccount (results prices : Table) : Res ElectricityAccount := do
  let p ← prices.get "site-electricity_prices"
  let imp ← results.get "site-import_power_mwh"
  let exp ← results.get "site-export_power_mwh"
  let ci ← prices.get "site-electricity_carbon_intensities"
  let importCost := dot p imp
  let exportCost := -(dot p exp)
  let importEmissions := dot ci imp
  let exportEmissions := -(dot ci exp)
  .ok { importCost, exportCost, cost := importCost + exportCost,
        importEmissions, exportEmissions, emissions := importEmissions + exportEmissions }

/-- The number of rows of a frame. -/
def Table.rows (t : Table) : Nat :=
  match t with
  | [] => 0
  | (_, col) :: _ => col.length

/-- `find_all_assets_with_variable`.  accounting/accounting.py:235-237 -/
def findAllAssetsWithVariable (t : Table) (v : Term) : Table := t.filter (fun c => pyEndsWith c.1 v.attr)

/-- `find_asset_by_name`; a missing name is formatted as `None`.  accounting/accounting.py:268-276 -/
def findAssetByName (t : Table) (v : Term) : Table :=
  t.filter (fun c => pyEndsWith c.1 v.attr && pyStartsWith c.1 (v.assetName.getD "None" ++ "-"))

/-- `"-".join(col.split("-")[:-1])`: what stands before the last dash. -/
def beforeLastDash (c : String) : String :=
  String.ofList ((c.toList.reverse.dropWhile (· != '-')).drop 1).reverse

/-- `find_asset_type_with_variables`.  accounting/accounting.py:240-265 -/
def findAssetTypeWithVariables (t : Table) (v : Term) : Table :=
  let ids := if v.assetType = some "renewable-generator" then ["solar", "wind", "renewable-generator"]
    else [v.assetType.getD "None"]
  t.filter (fun c => pyEndsWith c.1 v.attr && ids.contains (beforeLastDash c.1))

/-- One simple term of the custom account.  accounting/accounting.py:159-182 -/
def simpleTermCost (t : Table) : OneTerm → Res ℚ
  | .simple v => do
    let vs := if v.assetType = some "*" ∨ (v.assetType ≠ none ∧ v.assetName = none) then
        findAllAssetsWithVariable t v
      else findAssetByName t v
    let f ← match v.intervalData with
      | some name => t.get ("site-" ++ name)
      | none => .ok (List.replicate t.rows 1)
    .ok ((vs.map (fun c => (List.zipWith (fun x y => x * y * v.coefficient) c.2 f).sum)).sum)
  | _ => .ok 0

/-- `np.full_like(results.index, q)`: the index is an integer array, the constant is truncated towards zero. -/
def fullLike (t : Table) (q : ℚ) : List ℚ := List.replicate t.rows (((q.num.tdiv q.den) : ℤ) : ℚ)

/-- `find_values_for_term`.  accounting/accounting.py:185-201 -/
def findValuesForTerm (t : Table) : TermOrFloat → Res (List ℚ)
  | .float q => .ok (fullLike t q)
  | .term v => do
    pyAssert (v.assetType == some "site") "asset_type"
    pyAssert (v.assetName == none || v.assetName == some "site") "asset_name"
    t.get ("site-" ++ v.attr)

/-- One two variable term of the custom account.  Multiplying an array with a (non-empty) string raises.
accounting/accounting.py:204-232 -/
def twoTermCost (t : Table) : OneTerm → Res ℚ
  | .two function a b _ data coefficient =>
    if function = "max_two_variables" ∨ function = "min_two_variables" then do
      let x ← findValuesForTerm t a
      let y ← findValuesForTerm t b
      pyAssert (decide (x.length = y.length)) "shape"
      if (data.getD "") ≠ "" then .error (.type "ufunc 'multiply' did not contain a loop")
      else
        let f : ℚ → ℚ → ℚ := if function = "max_two_variables" then max else min
        .ok ((List.zipWith (fun p q => f p q * coefficient) x y).sum)
    else .ok 0
  | .many function _ _ _ _ =>
    if function = "max_two_variables" ∨ function = "min_two_variables" then
      .error (.assertion "isinstance FunctionTermTwoVariables")
    else .ok 0
  | .simple _ => .ok 0

/-- `np.max` / `np.min` of a flat list, `ValueError` if it is empty. -/
def foldExtremum (f : ℚ → ℚ → ℚ) : List ℚ → Res ℚ
  | [] => .error (.value "zero-size array to reduction operation")
  | q :: qs => .ok (qs.foldl f q)

/-- One many variable term of the custom account.  accounting/accounting.py:279-315 -/
def manyTermCost (t : Table) : OneTerm → Res ℚ
  | .many function v _ constant coefficient =>
    if function = "max_many_variables" ∨ function = "min_many_variables" then do
      let vs := if v.assetType = some "*" then findAllAssetsWithVariable t v
        else if v.assetType ≠ none ∧ v.assetName = none then findAssetTypeWithVariables t v
        else findAssetByName t v
      let m ← foldExtremum (if function = "max_many_variables" then max else min)
        ((vs.flatMap Prod.snd) ++ fullLike t constant)
      .ok (m * coefficient)
    else .ok 0
  | .two function _ _ _ _ _ =>
    if function = "max_many_variables" ∨ function = "min_many_variables" then
      .error (.assertion "isinstance FunctionTermManyVariables")
    else .ok 0
  | .simple _ => .ok 0

/-- The custom cost.  accounting/accounting.py:346-351 -/
def customCost (t : Table) : Option (List OneTerm) → Res ℚ
  | none => .ok 0
  | some terms => do
    let terms ← mapE termFactory terms
    let a ← mapE (simpleTermCost t) terms
    let b ← mapE (twoTermCost t) terms
    let c ← mapE (manyTermCost t) terms
    .ok (a.sum + b.sum + c.sum)

/-- `get_accounts`.  accounting/accounting.py:318-362 -/
def getAccounts (results : Table) (priceResults : Option Table := none)
    (customTerms : Option (List OneTerm) := none) (validate : Bool := true) : Res Accounts := do
  let prices := priceResults.getD results
  let _ ← if validate then do
      checkResults results false
      checkResults prices false
    else .ok ()
  let electricity ← getOneElectricityAccount results prices
  let gas ← getOneGasAccount results prices
  let cc ← customCost results customTerms
  let custom : Account := { cost := cc, emissions := 0 }
  .ok { electricity, gas, custom,
        cost := electricity.cost + gas.cost + custom.cost,
        profit := -(electricity.cost + gas.cost + custom.cost),
        emissions := electricity.emissions + gas.emissions + custom.emissions }

end EPL
