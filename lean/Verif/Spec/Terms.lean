/-
What the terms of custom constraints and custom objectives mean.  The objects of a site in an interval are the site itself and
the objects of its assets (one each, one per charger and charge event for electric vehicles).
-/
import Verif.Spec.Values

namespace EPL

/-- The `asset_type` that selects a class of objects; valves cannot be selected by type. -/
def Kind.typeName : Kind → Option String
  | .site => some "site"
  | .battery => some "battery"
  | .boiler => some "boiler"
  | .chp => some "chp"
  | .ev => some "evs"
  | .evSpill => some "spill_evs"
  | .heatPump => some "heat-pump"
  | .renewable => some "renewable-generator"
  | .spill => some "spill"
  | .valve => none

/-- The values `asset_type` may have. -/
def assetTypes : List String :=
  ["battery", "boiler", "chp", "evs", "heat-pump", "renewable-generator", "site", "spill", "spill_evs", "*"]

/-- Does an object match a type (missing and `"*"` match everything) and a name (missing matches everything)? -/
def Selected (type name : Option String) (o : OneInterval) : Prop :=
  (type = none ∨ type = some "*" ∨ o.kind.typeName = type) ∧ (name = none ∨ name = some o.name)

instance (type name : Option String) (o : OneInterval) : Decidable (Selected type name o) := by
  unfold Selected; infer_instance

/-- The interval data factor of a term in interval `i`: 1 if there is none. -/
def SiteData.value (d : SiteData) (name : Option String) (i : Nat) : ℚ :=
  match name with
  | none => 1
  | some n =>
    if n = "idx" then i
    else if n = "electricity_prices" then d.electricityPrices.getD i 0
    else if n = "export_electricity_prices" then d.exportElectricityPrices.getD i 0
    else if n = "electricity_carbon_intensities" then d.electricityCarbonIntensities.getD i 0
    else if n = "gas_prices" then d.gasPrices.getD i 0
    else if n = "electric_load_mwh" then d.electricLoad.getD i 0
    else if n = "high_temperature_load_mwh" then d.htLoad.getD i 0
    else if n = "low_temperature_load_mwh" then d.ltLoad.getD i 0
    else if n = "low_temperature_generation_mwh" then d.ltGeneration.getD i 0
    else ((d.custom.lookup n).getD []).getD i 0

/-- The sum over some objects of `variable * interval_data[i] * coefficient`. -/
def termSum (σ : Assign) (d : SiteData) (i : Nat) (attr : String) (data : Option String) (coefficient : ℚ)
    (objects : List OneInterval) : ℚ :=
  (objects.map (fun o => o.attrValue σ attr * d.value data i * coefficient)).sum

/-- The value of an entry of a custom constraint in interval `i`: a number counts as itself, a term is summed over the
selected objects. -/
def CEntry.value (σ : Assign) (d : SiteData) (objects : List OneInterval) (i : Nat) : CEntry → ℚ
  | .num q => q
  | .term t => termSum σ d i t.attr t.intervalData t.coefficient (objects.filter (fun o => Selected t.assetType t.assetName o))

/-- The value of a side of a custom constraint in interval `i`. -/
def CSide.value (σ : Assign) (d : SiteData) (objects : List OneInterval) (i : Nat) (side : CSide) : ℚ :=
  (side.entries.map (CEntry.value σ d objects i)).sum

/-- The value of an entry over `n` intervals: a term is summed over the intervals, a number counts once. -/
def CEntry.total (σ : Assign) (d : SiteData) (iv : IVars) (n : Nat) : CEntry → ℚ
  | .num q => q
  | .term t => ((List.range n).map (fun i => CEntry.value σ d (iv.getD i []) i (.term t))).sum

/-- The value of a side over `n` intervals. -/
def CSide.total (σ : Assign) (d : SiteData) (iv : IVars) (n : Nat) (side : CSide) : ℚ :=
  (side.entries.map (CEntry.total σ d iv n)).sum

/-- Comparison of two numbers by the sense of a constraint. -/
def Sense.Compares : Sense → ℚ → ℚ → Prop
  | .le, a, b => a ≤ b
  | .eq, a, b => a = b
  | .ge, a, b => b ≤ a

/-- The types an asset's objects can be selected by. -/
def Asset.typeNames : Asset → List String
  | .battery _ => ["battery"]
  | .boiler _ => ["boiler"]
  | .chp _ => ["chp"]
  | .evs _ => ["evs", "spill_evs"]
  | .heatPump _ => ["heat-pump"]
  | .renewable _ => ["renewable-generator"]
  | .spill _ => ["spill"]
  | .valve _ => []

/-- Can a term's type and name select the site or one of its assets at all? -/
def Site.HasMatch (s : Site) (type name : Option String) : Prop :=
  ((type = none ∨ type = some "*" ∨ type = some "site") ∧ (name = none ∨ name = some "site")) ∨
  ∃ a ∈ s.assets, (type = none ∨ type = some "*" ∨ ∃ t ∈ a.typeNames, type = some t) ∧ (name = none ∨ name = some a.name)

end EPL
