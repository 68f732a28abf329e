/-
What a custom constraint means in terms of the columns of the results.
-/
import Verif.Spec.Balance
import Verif.Spec.Terms

namespace EPL

/-- The units of an asset that a type selects: electric vehicles report per charger, type "evs" selects the chargers and
"spill_evs" the spill charger. -/
def Asset.unitsOf (type : Option String) : Asset → List String
  | .evs c =>
    (if type = none ∨ type = some "*" ∨ type = some "evs" then c.chargers.map (fun ch => c.name ++ "-" ++ ch.name) else []) ++
    (if type = none ∨ type = some "*" ∨ type = some "spill_evs" then c.spillChargers.map (fun ch => c.name ++ "-" ++ ch.name) else [])
  | a => if type = none ∨ type = some "*" ∨ type ∈ a.typeNames.map some then [a.name] else []

/-- A flow of an asset read from row `i`, restricted to the units that a type and a name select. -/
def Asset.read (V : String → Nat → ℚ) (type name : Option String) (flow : String) (i : Nat) (a : Asset) : ℚ :=
  if (name = none ∨ name = some a.name) ∧ flow ∈ a.flows then rowSum V ((a.unitsOf type).map (fun u => u ++ "-" ++ flow)) i else 0

/-- The import or export of the site (if the type and the name select it) or a flow of the selected assets, read from row `i`. -/
def Site.read (s : Site) (V : String → Nat → ℚ) (type name : Option String) (flow : String) (i : Nat) : ℚ :=
  if flow = "import_power_mwh" ∨ flow = "export_power_mwh" then
    if (type = none ∨ type = some "*" ∨ type = some "site") ∧ (name = none ∨ name = some "site") then V ("site-" ++ flow) i else 0
  else (s.assets.map (Asset.read V type name flow i)).sum

/-- The attributes `Site.read` understands. -/
def readable : List String := "import_power_mwh" :: "export_power_mwh" :: totalFlows

/-- The value of an entry of a custom constraint read from row `i`. -/
def CEntry.read (s : Site) (V : String → Nat → ℚ) (i : Nat) : CEntry → ℚ
  | .num q => q
  | .term t => s.read V t.assetType t.assetName t.attr i * s.data.value t.intervalData i * t.coefficient

/-- The value of a side of a custom constraint read from row `i`. -/
def CSide.read (s : Site) (V : String → Nat → ℚ) (i : Nat) (side : CSide) : ℚ := (side.entries.map (CEntry.read s V i)).sum

/-- The value of an entry over all rows: a number counts once. -/
def CEntry.readTotal (s : Site) (V : String → Nat → ℚ) : CEntry → ℚ
  | .num q => q
  | .term t => ((List.range s.data.n).map (fun i => CEntry.read s V i (.term t))).sum

/-- The value of a side over all rows. -/
def CSide.readTotal (s : Site) (V : String → Nat → ℚ) (side : CSide) : ℚ := (side.entries.map (CEntry.readTotal s V)).sum

/-- All terms of a constraint are about flows that the results report. -/
def Constraint.Readable (c : Constraint) : Prop :=
  ∀ t, CEntry.term t ∈ c.lhs.entries ++ c.rhs.entries → t.attr ∈ readable

instance (c : Constraint) : Decidable c.Readable :=
  decidable_of_iff ((c.lhs.entries ++ c.rhs.entries).all (fun e => match e with | .num _ => true | .term t => decide (t.attr ∈ readable)) = true) (by
    unfold Constraint.Readable
    rw [List.all_eq_true]
    constructor
    · intro h t ht; simpa using h _ ht
    · intro h e he
      cases e with
      | num q => rfl
      | term t => simpa using h t he)

end EPL
