/-
Vehicle to grid: the flags with and without `allow_evs_discharge`.
-/
import Verif.Spec.Limit

namespace EPL

/-- The flags with `allow_evs_discharge=False`. -/
abbrev Flags.grounded (flags : Flags) : Flags := { flags with allowEvsDischarge := false }

/-- The flags with `allow_evs_discharge=True`. -/
abbrev Flags.toGrid (flags : Flags) : Flags := { flags with allowEvsDischarge := true }

end EPL
