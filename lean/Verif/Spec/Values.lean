/-
The vocabulary of the theorems about single constraints and terms: the number an attribute of a linear program object
stands for.
-/
import Verif.Model.History

namespace EPL

/-- The value of an attribute in an assignment. -/
def Val.eval (σ : Assign) : Val → ℚ
  | .none => 0
  | .num q => q
  | .int k => k
  | .var v => σ v.id

/-- The value of an attribute under an assignment (zero if there is no such attribute). -/
def OneInterval.attrValue (σ : Assign) (x : OneInterval) (attr : String) : ℚ :=
  match x.getattr attr with
  | .ok v => v.eval σ
  | .error _ => 0

/-- An operand whose variable, if it is one, respects its bounds. -/
def Val.InBounds (σ : Assign) : Val → Prop
  | .var v => v.InBounds σ
  | _ => True

/-- The operand is the variable with this identity. -/
def Val.Is (id : VarId) : Val → Prop
  | .var v => v.id = id
  | _ => False

/-- `a` is the smallest element of the list. -/
def Least (l : List ℚ) (a : ℚ) : Prop := a ∈ l ∧ ∀ x ∈ l, a ≤ x

/-- `a` is the greatest element of the list. -/
def Greatest (l : List ℚ) (a : ℚ) : Prop := a ∈ l ∧ ∀ x ∈ l, x ≤ a

/-- The values of some operands. -/
def values (σ : Assign) (xs : List Val) : List ℚ := xs.map (Val.eval σ)

end EPL
