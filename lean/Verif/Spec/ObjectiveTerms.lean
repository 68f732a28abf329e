/-
What the terms of a custom objective mean.
-/
import Verif.Spec.Terms
import Verif.Spec.Cost
import Verif.Spec.Reads

namespace EPL

/-- The objects of an interval that a simple term is about; `"*"` ignores the asset name. -/
def Term.select (t : Term) (objects : List OneInterval) : List OneInterval :=
  if t.assetType = some "*" then objects else objects.filter (fun o => Selected t.assetType t.assetName o)

/-- The value of a simple term in interval `i`: variable * interval data * coefficient, summed over the selected objects. -/
def Term.value (σ : Assign) (d : SiteData) (objects : List OneInterval) (i : Nat) (t : Term) : ℚ :=
  termSum σ d i t.attr t.intervalData t.coefficient (t.select objects)

/-- An operand of a two variable term in interval `i`: a number or an attribute of the site. -/
def TermOrFloat.value (σ : Assign) (s : Site) (i : Nat) : TermOrFloat → ℚ
  | .float q => q
  | .term t => (OneInterval.site (s.oneInterval i)).attrValue σ t.attr

/-- The objects of an interval that a many variable term is about: all for `"*"`, else those with the name if there is one, else
those of the type. -/
def Term.pool (t : Term) (objects : List OneInterval) : List OneInterval :=
  if t.assetType = some "*" then objects
  else if t.assetName = none then objects.filter (fun o => Selected t.assetType none o)
  else objects.filter (fun o => Selected none t.assetName o)

/-- The number behind an attribute, if it is not `None`. -/
def OneInterval.number? (σ : Assign) (attr : String) (o : OneInterval) : Option ℚ :=
  match o.getattr attr with
  | .ok .none => none
  | .ok v => some (v.eval σ)
  | .error _ => none

/-- The operands of a many variable term: the numbers of all intervals and the constant. -/
def Term.operands (σ : Assign) (iv : IVars) (constant : ℚ) (t : Term) : List ℚ :=
  (iv.flatMap t.pool).filterMap (OneInterval.number? σ t.attr) ++ [constant]

/-- What a term adds to the objective in a feasible assignment.  Functions with unknown names add nothing. -/
def OneTerm.Contributes (σ : Assign) (s : Site) (iv : IVars) : OneTerm → ℚ → Prop
  | .simple t, q => q = s.sumIntervals (fun i => t.value σ s.data (iv.getD i []) i)
  | .two f a b _ data k, q =>
    if f = "max_two_variables" then q = s.sumIntervals (fun i => max (a.value σ s i) (b.value σ s i) * s.data.value data i * k)
    else if f = "min_two_variables" then q = s.sumIntervals (fun i => min (a.value σ s i) (b.value σ s i) * s.data.value data i * k)
    else q = 0
  | .many f v _ constant k, q =>
    if f = "max_many_variables" then ∃ m, (∀ x ∈ v.operands σ iv constant, x ≤ m) ∧ q = m * k
    else if f = "min_many_variables" then ∃ m, Least (v.operands σ iv constant) m ∧ q = m * k
    else q = 0

/-- What a term adds to the objective at an optimum: a charge on a maximum is a charge on exactly the maximum. -/
def OneTerm.AtOptimum (σ : Assign) (s : Site) (iv : IVars) (t : OneTerm) (q : ℚ) : Prop :=
  t.Contributes σ s iv q ∧
  ∀ v M constant k, t = .many "max_many_variables" v M constant k → 0 < k → ∃ m, Greatest (v.operands σ iv constant) m ∧ q = m * k

/-- A simple term read from row `i` of the results. -/
def Term.read (s : Site) (V : String → Nat → ℚ) (i : Nat) (t : Term) : ℚ :=
  s.read V t.assetType (if t.assetType = some "*" then none else t.assetName) t.attr i * s.data.value t.intervalData i * t.coefficient

/-- An operand of a two variable term read from row `i`: a number, or the import or export of the site. -/
def TermOrFloat.read (V : String → Nat → ℚ) (i : Nat) : TermOrFloat → ℚ
  | .float q => q
  | .term t => V ("site-" ++ t.attr) i

/-- The operand is a number, or the import or export of the site. -/
def TermOrFloat.Readable : TermOrFloat → Prop
  | .float _ => True
  | .term t => t.attr = "import_power_mwh" ∨ t.attr = "export_power_mwh"

instance (a : TermOrFloat) : Decidable a.Readable := by
  cases a <;> (simp only [TermOrFloat.Readable]; infer_instance)

end EPL
