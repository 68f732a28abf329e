/-
Tables made from other tables, column by column: a column is a unit and an attribute joined by the last dash.
-/
import Verif.Proofs.Strings
import Verif.Spec.Dispatch

namespace EPL

/-- The unit and the attribute of a column. -/
def columnParts (col : String) : String × String :=
  let attr := (col.toList.reverse.takeWhile (fun c => c != '-')).reverse
  (String.ofList (col.toList.take (col.toList.length - (attr.length + 1))), String.ofList attr)

theorem takeWhile_dash {a b : List Char} (h : '-' ∉ b) : (b ++ '-' :: a).takeWhile (fun c => c != '-') = b := by
  induction b with
  | nil => simp
  | cons x t ih =>
    simp only [List.mem_cons, not_or] at h
    have hx : (x != '-') = true := by simp [Ne.symm h.1]
    simp [List.takeWhile_cons, hx, ih h.2]

theorem columnParts_dash {a b : String} (h : NoDash b) : columnParts (a ++ "-" ++ b) = (a, b) := by
  unfold columnParts
  rw [toList_dash]
  have e : ((a.toList ++ '-' :: b.toList).reverse.takeWhile (fun c => c != '-')).reverse = b.toList := by
    have : (a.toList ++ '-' :: b.toList).reverse = b.toList.reverse ++ '-' :: a.toList.reverse := by simp
    rw [this, takeWhile_dash (by rw [List.mem_reverse]; exact h), List.reverse_reverse]
  simp only [e]
  have e2 : (a.toList ++ '-' :: b.toList).length - (b.toList.length + 1) = a.toList.length := by simp
  rw [e2]
  simp

/-- A table by unit, attribute and row. -/
def remap (F : String → String → Nat → ℚ) : String → Nat → ℚ := fun col i => F (columnParts col).1 (columnParts col).2 i

theorem remap_dash {F : String → String → Nat → ℚ} {a b : String} (h : NoDash b) (i : Nat) : remap F (a ++ "-" ++ b) i = F a b i := by
  unfold remap
  rw [columnParts_dash h]

theorem remap_lit {F : String → String → Nat → ℚ} {lit : String} (a b : String) (hl : lit = "-" ++ b) (h : NoDash b) (i : Nat) :
    remap F (a ++ lit) i = F a b i := by
  rw [hl, ← String.append_assoc]
  exact remap_dash h i

theorem remap_site {F : String → String → Nat → ℚ} {col : String} (b : String) (hl : col = "site" ++ "-" ++ b) (h : NoDash b) (i : Nat) :
    remap F col i = F "site" b i := by
  rw [hl]
  exact remap_dash h i

end EPL
