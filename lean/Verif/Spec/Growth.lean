/-
The vocabulary of the properties about larger sites: what it means that a site has at least the capacities of another one.
-/
import Verif.Spec.Run

namespace EPL

/-- The limits of the site are numbers a custom constraint or objective may use by name. -/
def limitAttrs : List String := ["import_limit_mwh", "export_limit_mwh"]

/-- A side of a custom constraint that does not use the limits of the site. -/
def CSide.Plain (side : CSide) : Prop := ∀ t, CEntry.term t ∈ side.entries → t.attr ∉ limitAttrs

/-- A custom constraint that does not use the limits of the site. -/
def Constraint.Plain (c : Constraint) : Prop := c.lhs.Plain ∧ c.rhs.Plain

/-- A term of a custom objective that does not use the limits of the site. -/
def OneTerm.Plain : OneTerm → Prop
  | .simple t => t.attr ∉ limitAttrs
  | .two _ a b _ _ _ => (∀ t, a = .term t → t.attr ∉ limitAttrs) ∧ (∀ t, b = .term t → t.attr ∉ limitAttrs)
  | .many _ v _ _ _ => v.attr ∉ limitAttrs

/-- An objective that does not use the limits of the site; "price" and "carbon" never do. -/
def Objective.Plain : Objective → Prop
  | .str _ => True
  | .custom terms => ∀ t ∈ terms, t.Plain
  | .dict terms => ∀ t ∈ terms, t.Plain

/-- The second asset is the first one with at least its capacities: a battery with more power, discharge power or capacity (and the same
efficiency, initial and final charge), a boiler, CHP or heat pump that had some capacity and now has more, a CHP with a smaller minimum. -/
inductive Asset.Grown : Asset → Asset → Prop
  | same {a : Asset} : Asset.Grown a a
  | battery {c : BatteryCfg} {power discharge capacity : ℚ} : c.chargePower ≤ power → c.dischargePower ≤ discharge → c.capacity ≤ capacity →
      Asset.Grown (.battery c) (.battery { c with chargePower := power, dischargePower := discharge, capacity := capacity })
  | boiler {c : BoilerCfg} {heat : ℚ} : 0 < c.heatMax → c.heatMax ≤ heat → Asset.Grown (.boiler c) (.boiler { c with heatMax := heat })
  | chp {c : ChpCfg} {max min : ℚ} : 0 < c.powerMax → c.powerMax ≤ max → min ≤ c.powerMin →
      Asset.Grown (.chp c) (.chp { c with powerMax := max, powerMin := min })
  | heatPump {c : HeatPumpCfg} {power : ℚ} : 0 < c.power → c.power ≤ power → Asset.Grown (.heatPump c) (.heatPump { c with power := power })

/-- The second site is the first one with at least its capacities. -/
structure Site.Grown (s s' : Site) : Prop where
  data : s'.data = s.data
  constraints : s'.constraints = s.constraints
  freqMins : s'.freqMins = s.freqMins
  positive : 0 < s.freqMins
  importLimit : s.importLimit ≤ s'.importLimit
  exportLimit : s.exportLimit ≤ s'.exportLimit
  assets : List.Forall₂ Asset.Grown s.assets s'.assets

end EPL
