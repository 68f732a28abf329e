/-
Names that do not get in each other's way.
-/
import Verif.Spec.Run
import Verif.Spec.Columns

namespace EPL

/-- The characters of a name as the solver sees them: `-+[] >/` become underscores. -/
def solverChars (name : String) : List Char := name.toList.map (fun c => if c ∈ "-+[] >/".toList then '_' else c)

/-- Names of assets and of custom interval data that cannot be mistaken for one another: the solver sees different names, no name has
a comma, no asset is called "site" or "site-...", no asset name continues the name of an EVs asset with a dash, and custom
data is not called like one of the site's own columns. -/
structure Site.ClearNames (s : Site) : Prop where
  solver : (s.assets.map (fun a => solverChars a.name)).Nodup
  comma : ∀ a ∈ s.assets, ',' ∉ a.name.toList
  site : ∀ a ∈ s.assets, a.name ≠ "site" ∧ ¬ "site-".toList <+: a.name.toList
  evs : ∀ c, Asset.evs c ∈ s.assets → ∀ a ∈ s.assets, ¬ (c.name ++ "-").toList <+: a.name.toList
  custom : ∀ f ∈ s.data.custom, "site-" ++ f.1 ∉ siteColumns
  customDistinct : (s.data.custom.map Prod.fst).Nodup

end EPL
