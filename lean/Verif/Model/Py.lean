/-
The Python level: exceptions as values, asserts, indexing, substring tests, string rendering.
Nothing here models a particular file of the repository; these are the Python primitives its
functions are written in.
-/
import Mathlib.Data.Rat.Defs
import Mathlib.Data.List.Infix

namespace EPL

/-- Python exceptions the modelled code can raise.  `unmodelled` marks branches whose behaviour lies in
third party code that the model does not follow. -/
inductive Err where
  | assertion (msg : String)
  | index
  | key (k : String)
  | attribute (a : String)
  | value (msg : String)
  /-- a pydantic `ValidationError` (also raised for an `assert` or `ValueError` inside a validator) -/
  | validation (msg : String)
  | type (msg : String)
  | zeroDivision
  /-- a pandera `SchemaError` -/
  | schema (col : String)
  | unmodelled (why : String)
  deriving DecidableEq, Repr

/-- The result of a Python call: a value or an exception. -/
abbrev Res (α : Type) := Except Err α

/-- Python `assert b, msg`. -/
def pyAssert (b : Bool) (msg : String) : Res Unit :=
  if b then .ok () else .error (.assertion msg)

/-- A check inside a pydantic validator. -/
def pyValidate (b : Bool) (msg : String) : Res Unit :=
  if b then .ok () else .error (.validation msg)

/-- A Python `for` loop that collects one value per element and stops at the first exception. -/
def mapE {α β : Type} (f : α → Res β) : List α → Res (List β)
  | [] => .ok []
  | a :: as => do
    let b ← f a
    let bs ← mapE f as
    .ok (b :: bs)

/-- A Python `for` loop that extends a list and stops at the first exception. -/
def flatMapE {α β : Type} (f : α → Res (List β)) (l : List α) : Res (List β) := do
  let bs ← mapE f l
  .ok bs.flatten

/-- Python list indexing `l[i]`, negative indices counting from the end, `IndexError` otherwise. -/
def pyIndex {α : Type} (l : List α) (i : Int) : Res α :=
  let j : Int := if i < 0 then i + l.length else i
  if j < 0 then .error .index
  else match l[j.toNat]? with
    | some a => .ok a
    | none => .error .index

/-- Python `sub in s` on strings. -/
def pyIn (sub s : String) : Bool := decide (sub.toList <:+: s.toList)

/-- Python `s.startswith(p)`. -/
def pyStartsWith (s p : String) : Bool := decide (p.toList <+: s.toList)

/-- Python `s.endswith(p)`. -/
def pyEndsWith (s p : String) : Bool := decide (p.toList <:+ s.toList)

/-- Python `len(xs) == len(set(xs))`. -/
def noDup {α : Type} [DecidableEq α] (l : List α) : Bool := decide l.Nodup

end EPL
