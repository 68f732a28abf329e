/-
Linear programs as `pulp` (2.9) builds them and `energypylinear/optimizer.py` uses them.
-/
import Verif.Model.Py
import Mathlib.Algebra.Order.Field.Rat

namespace EPL

/-- Identity of a linear program variable: the site or asset, the attribute and the interval it was
created for.  In Python the identity is the object; each constructor below is one naming scheme of
the repository and its rendering is `VarId.pyName`. -/
inductive VarId where
  /-- `f"{attr}-{i}"`: assets/site.py:414-421 -/
  | site (attr : String) (i : Nat)
  /-- `f"{name}-{attr}-{i}"`: battery.py:275-305, boiler.py:62-75, chp.py:141-162, spill.py:59-73, valve.py:49-57 -/
  | asset (name attr : String) (i : Nat)
  /-- `f"{attr},i:{i},asset:{name}"`: heat_pump.py:132-151, renewable_generator.py:201-211 -/
  | tagged (attr : String) (i : Nat) (name : String)
  /-- `f"{attr},i:{i},asset:{name},charge_event:{event}"`: evs.py:301-311 -/
  | evSoc (attr : String) (i : Nat) (name : String) (event : String)
  /-- `f"{attr},i:{i},asset:{name},charge-event:{idx},charger:{charger},is_spill:{b}"`: evs.py:317-367 -/
  | evFlow (attr : String) (i : Nat) (name : String) (event : Nat) (charger : String) (isSpill : Bool)
  /-- auxiliary variables of `min_two_variables` and friends, optimizer.py:197-310; `serial` separates
  different Python objects that carry the same name -/
  | aux (name : String) (serial : Nat)
  deriving DecidableEq, Repr

/-- Python `str(bool)`. -/
def pyBool (b : Bool) : String := if b then "True" else "False"

/-- The name a variable is created with (see the constructors of `VarId` for the sources). -/
def VarId.pyName : VarId → String
  | .site attr i => attr ++ "-" ++ toString i
  | .asset name attr i => name ++ "-" ++ attr ++ "-" ++ toString i
  | .tagged attr i name => attr ++ ",i:" ++ toString i ++ ",asset:" ++ name
  | .evSoc attr i name event =>
      attr ++ ",i:" ++ toString i ++ ",asset:" ++ name ++ ",charge_event:" ++ event
  | .evFlow attr i name event charger b =>
      attr ++ ",i:" ++ toString i ++ ",asset:" ++ name ++ ",charge-event:" ++ toString event ++
        ",charger:" ++ charger ++ ",is_spill:" ++ pyBool b
  | .aux name _ => name

/-- pulp replaces the characters of `-+[] ->/` by an underscore in variable names
(`pulp.LpElement.setName`, third party). -/
def sanitizeChar (c : Char) : Char :=
  if c ∈ ['-', '+', '[', ']', ' ', '>', '/'] then '_' else c

/-- The name the solver sees. -/
def VarId.solverName (v : VarId) : String := String.ofList (v.pyName.toList.map sanitizeChar)

/-- A pulp variable: identity, bounds and category.  optimizer.py:71-89 -/
structure LpVar where
  id : VarId
  low : Option ℚ
  up : Option ℚ
  isBinary : Bool
  deriving DecidableEq, Repr

/-- `Optimizer.continuous(name, low=0, up=None)`.  optimizer.py:71-81 -/
def continuous (id : VarId) (low : Option ℚ := some 0) (up : Option ℚ := none) : LpVar :=
  { id := id, low := low, up := up, isBinary := false }

/-- `Optimizer.binary(name)`: an integer variable in `[0, 1]`.  optimizer.py:83-89 -/
def binary (id : VarId) : LpVar :=
  { id := id, low := some 0, up := some 1, isBinary := true }

/-- A pulp affine expression.  pulp keeps a dictionary; a list with repetitions has the same value and
the same variables. -/
structure Expr where
  terms : List (LpVar × ℚ)
  const : ℚ
  deriving DecidableEq, Repr

namespace Expr
/-- A number as an expression. -/
def num (c : ℚ) : Expr := ⟨[], c⟩
/-- A variable as an expression. -/
def var (v : LpVar) : Expr := ⟨[(v, 1)], 0⟩
/-- Addition of expressions. -/
def add (a b : Expr) : Expr := ⟨a.terms ++ b.terms, a.const + b.const⟩
/-- Multiplication by a number; pulp returns the empty expression for 0. -/
def smul (c : ℚ) (a : Expr) : Expr :=
  if c = 0 then ⟨[], 0⟩ else ⟨a.terms.map (fun t => (t.1, c * t.2)), c * a.const⟩
/-- Subtraction of expressions. -/
def sub (a b : Expr) : Expr :=
  ⟨a.terms ++ b.terms.map (fun t => (t.1, -t.2)), a.const - b.const⟩
/-- Negation. -/
def neg (a : Expr) : Expr := ⟨a.terms.map (fun t => (t.1, -t.2)), -a.const⟩

instance : Add Expr := ⟨add⟩
instance : Sub Expr := ⟨sub⟩
instance : Neg Expr := ⟨neg⟩
instance : HMul Expr ℚ Expr := ⟨fun a c => smul c a⟩

/-- `Optimizer.sum`, i.e. `pulp.lpSum`.  optimizer.py:91-99 -/
def sum : List Expr → Expr
  | [] => ⟨[], 0⟩
  | e :: es => e + sum es
end Expr

/-- An assignment of the variables. -/
abbrev Assign := VarId → ℚ

/-- The value of an expression. -/
def Expr.eval (σ : Assign) (e : Expr) : ℚ :=
  (e.terms.map (fun t => t.2 * σ t.1.id)).sum + e.const

/-- Constraint senses. -/
inductive Sense where
  | le | eq | ge
  deriving DecidableEq, Repr

/-- A pulp constraint `e sense 0`. -/
structure Con where
  e : Expr
  sense : Sense
  deriving DecidableEq, Repr

/-- `a <= b`, `a == b`, `a >= b` on pulp expressions. -/
def Expr.leC (a b : Expr) : Con := ⟨a - b, .le⟩
/-- see `Expr.leC` -/
def Expr.eqC (a b : Expr) : Con := ⟨a - b, .eq⟩
/-- see `Expr.leC` -/
def Expr.geC (a b : Expr) : Con := ⟨a - b, .ge⟩

/-- When an assignment satisfies a constraint. -/
def Con.Holds (σ : Assign) (c : Con) : Prop :=
  match c.sense with
  | .le => c.e.eval σ ≤ 0
  | .eq => c.e.eval σ = 0
  | .ge => 0 ≤ c.e.eval σ

/-- When an assignment respects the bounds and category of a variable. -/
def LpVar.InBounds (σ : Assign) (v : LpVar) : Prop :=
  (∀ l ∈ v.low, l ≤ σ v.id) ∧ (∀ u ∈ v.up, σ v.id ≤ u) ∧
    (v.isBinary = true → σ v.id = 0 ∨ σ v.id = 1)

/-- A linear program: constraints and the objective to minimise.  optimizer.py:50-65, 101-116 -/
structure Prob where
  cons : List Con
  obj : Expr
  deriving Repr

/-- The variables of a program: those occurring in a constraint or the objective
(`LpProblem.addConstraint`/`setObjective` register them). -/
def Prob.vars (p : Prob) : List LpVar :=
  p.cons.flatMap (fun c => c.e.terms.map Prod.fst) ++ p.obj.terms.map Prod.fst

/-- An assignment satisfying all constraints, bounds and integrality requirements. -/
def Prob.Feasible (p : Prob) (σ : Assign) : Prop :=
  (∀ c ∈ p.cons, c.Holds σ) ∧ (∀ v ∈ p.vars, v.InBounds σ)

/-- An assignment that minimises the objective among the feasible ones. -/
def Prob.Optimal (p : Prob) (σ : Assign) : Prop :=
  p.Feasible σ ∧ ∀ τ, p.Feasible τ → p.obj.eval σ ≤ p.obj.eval τ

/-- `Optimizer.constrain_max`.  optimizer.py:173-183 -/
def constrainMax (x : Expr) (b : Expr) (max : ℚ) : Con := (x - b * max).leC (Expr.num 0)

/-- `Optimizer.constrain_min`.  optimizer.py:185-195 -/
def constrainMin (x : Expr) (b : Expr) (min : ℚ) : Con := (-x + b * min).leC (Expr.num 0)

end EPL
