/-
What the checks on the results ask of the inputs of a site.
-/
import Verif.Spec.Balance
import Verif.Spec.Columns

namespace EPL

/-- All columns the results of a site have, apart from the totals. -/
def Site.columnNames (s : Site) : List String :=
  siteColumns ++ s.data.custom.map (fun f => "site-" ++ f.1) ++ s.assets.flatMap Asset.documentedColumns

/-- Inputs of an asset under which its results are not negative, and a CHP whose gas use is tied to what it generates. -/
def Asset.Sensible : Asset → Prop
  | .boiler c => 0 ≤ c.heatMin
  | .renewable c => (∀ g ∈ c.generation, 0 ≤ g) ∧ 0 ≤ c.lowerBoundPct
  | .chp c => 0 < c.electricEfficiency ∨ c.htEfficiency ≠ 0 ∨ c.ltEfficiency ≠ 0
  | _ => True

instance (a : Asset) : Decidable a.Sensible := by
  cases a <;> (simp only [Asset.Sensible]; infer_instance)

/-- A site the checks on the results were written for, up to the names of its columns: the valve check finds a valve named "valve",
only EVs have "evs" in their name once a site has EVs, and loads, heat and lengths of intervals are not negative. -/
structure Site.Sensible (s : Site) : Prop where
  valve : (∃ c, Asset.valve c ∈ s.assets) → ∃ c, Asset.valve c ∈ s.assets ∧ c.name = "valve"
  evs : (∃ c, Asset.evs c ∈ s.assets) → ∀ a ∈ s.assets, pyIn "evs" a.name = true → ∃ c, a = .evs c
  loads : ∀ x ∈ s.data.electricLoad ++ s.data.htLoad ++ s.data.ltLoad ++ s.data.ltGeneration, 0 ≤ x
  freq : 0 ≤ s.freqMins
  assets : ∀ a ∈ s.assets, a.Sensible

/-- A sensible site whose columns have different names. -/
structure Site.Checkable (s : Site) : Prop extends s.Sensible where
  columns : s.columnNames.Nodup

end EPL
