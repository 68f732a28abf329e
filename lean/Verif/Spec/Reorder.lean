/-
The vocabulary of the property about the order of the assets.
-/
import Verif.Spec.Run

namespace EPL

/-- The second site is the first one with its assets in another order. -/
structure Site.Reordered (s s' : Site) : Prop where
  data : s'.data = s.data
  constraints : s'.constraints = s.constraints
  freqMins : s'.freqMins = s.freqMins
  importLimit : s'.importLimit = s.importLimit
  exportLimit : s'.exportLimit = s.exportLimit
  assets : s.assets.Perm s'.assets

/-- The variable belongs to the site or one of its assets; the other ones are added by the min and max terms of a custom objective. -/
def VarId.OfSite : VarId → Prop
  | .aux _ _ => False
  | _ => True

/-- The second result is the first one with the columns of the table in another order. -/
structure SimResult.Same (r r' : SimResult) : Prop where
  table : r.results.Perm r'.results
  feasible : r'.feasible = r.feasible
  spill : r'.spill = r.spill
  status : r'.status = r.status

/-- The second objective has the terms of the first one in another order. -/
inductive Objective.Reordered : Objective → Objective → Prop
  | custom {terms terms' : List OneTerm} : terms.Perm terms' → Objective.Reordered (.custom terms) (.custom terms')
  | dict {terms terms' : List OneTerm} : terms.Perm terms' → Objective.Reordered (.dict terms) (.dict terms')

end EPL
