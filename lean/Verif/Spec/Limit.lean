/-
What `limit_charge_variables_to_valid_events` needs of the inputs to be harmless.
-/
import Verif.Spec.Evs

namespace EPL

/-- The objective has no term that is the maximum of many variables. -/
def Objective.NoMaxMany : Objective → Prop
  | .str _ => True
  | .custom terms => ∀ v M c k, OneTerm.many "max_many_variables" v M c k ∉ terms
  | .dict terms => ∀ v M c k, OneTerm.many "max_many_variables" v M c k ∉ terms

/-- The flags with `limit_charge_variables_to_valid_events=False`. -/
abbrev Flags.unlimited (flags : Flags) : Flags := { flags with limitChargeVariables := false }

/-- The flags with `limit_charge_variables_to_valid_events=True`. -/
abbrev Flags.limited (flags : Flags) : Flags := { flags with limitChargeVariables := true }

/-- Every `EVs` asset of the site was made by its constructor from chargers without negative power and a charge event matrix with entries
between 0 and 1. -/
def Site.PlainEvs (s : Site) : Prop :=
  ∀ c, Asset.evs c ∈ s.assets → ∃ a : EvArgs, a.make = .ok c ∧ (∀ q ∈ a.powers, 0 ≤ q) ∧ ∀ row ∈ a.chargeEvents, ∀ q ∈ row, 0 ≤ q ∧ q ≤ 1

end EPL
