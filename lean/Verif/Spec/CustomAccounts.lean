/-
Which custom terms the accounts read the way the objective does.  The accounts find the columns of a term by their names (prefix and
suffix), the objective finds the objects of the site by their class and name.
-/
import Verif.Spec.ObjectiveTerms
import Verif.Spec.Accounts

namespace EPL

/-- No column of one can pass for a column of the other: neither `m-...` starts with `n-` nor the other way around. -/
def NamesApart (m n : String) : Prop := pyStartsWith (m ++ "-") (n ++ "-") = false ∧ pyStartsWith (n ++ "-") (m ++ "-") = false

instance (m n : String) : Decidable (NamesApart m n) := by unfold NamesApart; infer_instance

/-- The name of an asset is apart from "site", "total" and the names of the other assets. -/
def Site.Distinguished (s : Site) (n : String) : Prop :=
  NamesApart "site" n ∧ NamesApart "total" n ∧ ∀ b ∈ s.assets, b.name ≠ n → NamesApart b.name n

instance (s : Site) (n : String) : Decidable (s.Distinguished n) := by unfold Site.Distinguished; infer_instance

/-- The names of the interval data of a site. -/
def Site.dataNames (s : Site) : List String :=
  ["electricity_prices", "export_electricity_prices", "electricity_carbon_intensities", "gas_prices", "electric_load_mwh",
    "high_temperature_load_mwh", "low_temperature_load_mwh", "low_temperature_generation_mwh"] ++ s.data.custom.map Prod.fst

/-- The term is about the import or export of the site, and says so; no interval data is called like it. -/
def Term.AboutSite (s : Site) (t : Term) : Prop :=
  (t.attr = "import_power_mwh" ∨ t.attr = "export_power_mwh") ∧
  (t.assetType = some "*" ∨ t.assetType = some "site" ∧ t.assetName = none ∨
    (t.assetType = none ∨ t.assetType = some "site") ∧ t.assetName = some "site") ∧
  ∀ n ∈ s.dataNames, pyEndsWith n t.attr = false

/-- The term is about a flow of one asset, by name; the asset is not a fleet of electric vehicles. -/
def Term.AboutAsset (s : Site) (t : Term) : Prop :=
  ∃ a ∈ s.assets, (∀ c, a ≠ .evs c) ∧ t.assetName = some a.name ∧ (t.assetType = none ∨ t.assetType ∈ a.typeNames.map some) ∧
    t.attr ∈ a.flows ∧ s.Distinguished a.name

/-- The interval data of a term is data of the site. -/
def Site.HasData (s : Site) (data : Option String) : Prop :=
  ∀ n, data = some n → n ∈ s.dataNames ∧ n ≠ "electricity_balance_mwh" ∧ n ≠ "idx"

/-- A whole number: the accounts truncate constants to whole numbers. -/
def Whole (q : ℚ) : Prop := ∃ z : ℤ, q = z

/-- An operand of a two variable term: a whole number, or import or export of the site, and says so. -/
def TermOrFloat.Accountable : TermOrFloat → Prop
  | .float q => Whole q
  | .term t => (t.attr = "import_power_mwh" ∨ t.attr = "export_power_mwh") ∧ t.assetType = some "site" ∧
      (t.assetName = none ∨ t.assetName = some "site")

/-- The terms the accounts read as the objective does. -/
def OneTerm.Accountable (s : Site) : OneTerm → Prop
  | .simple t => (t.AboutSite s ∨ t.AboutAsset s) ∧ s.HasData t.intervalData
  | .two f a b _ data _ => pyIn "two_variables" f = true ∧ a.Accountable ∧ b.Accountable ∧ data = none
  | .many f v _ constant k =>
    (f = "min_many_variables" ∨ f = "max_many_variables" ∧ 0 < k) ∧ (v.AboutSite s ∨ v.AboutAsset s) ∧ Whole constant

/-- A charge on a peak: exact only at an optimum. -/
def OneTerm.IsPeak : OneTerm → Prop
  | .many f _ _ _ _ => f = "max_many_variables"
  | _ => False

end EPL
