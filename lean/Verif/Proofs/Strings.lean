/-
Column names: splitting at dashes.
-/
import Verif.Proofs.Extract

namespace EPL

theorem list_dash_inj {α : Type} {d : α} {a b a' b' : List α} (hb : d ∉ b) (hb' : d ∉ b') (h : a ++ d :: b = a' ++ d :: b') :
    a = a' ∧ b = b' := by
  rw [List.append_eq_append_iff] at h
  rcases h with ⟨c, h1, h2⟩ | ⟨c, h1, h2⟩
  · cases c with
    | nil => simp at h1 h2; exact ⟨h1.symm, h2⟩
    | cons x c =>
      simp only [List.cons_append, List.cons.injEq] at h2
      exact absurd (by rw [h2.2]; simp) hb
  · cases c with
    | nil => simp at h1 h2; exact ⟨h1, h2.symm⟩
    | cons x c =>
      simp only [List.cons_append, List.cons.injEq] at h2
      exact absurd (by rw [h2.2]; simp) hb'

theorem str_eq_iff {a b : String} : a = b ↔ a.toList = b.toList := by
  constructor
  · rintro rfl; rfl
  · exact fun h => String.toList_injective h

theorem toList_dash (a b : String) : (a ++ "-" ++ b).toList = a.toList ++ '-' :: b.toList := by
  simp [String.toList_append]

theorem dash_inj {a b a' b' : String} (hb : '-' ∉ b.toList) (hb' : '-' ∉ b'.toList) (h : a ++ "-" ++ b = a' ++ "-" ++ b') :
    a = a' ∧ b = b' := by
  rw [str_eq_iff, toList_dash, toList_dash] at h
  obtain ⟨h1, h2⟩ := list_dash_inj hb hb' h
  exact ⟨str_eq_iff.2 h1, str_eq_iff.2 h2⟩

/-- No dash in a name. -/
def NoDash (a : String) : Prop := '-' ∉ a.toList

instance (a : String) : Decidable (NoDash a) := inferInstanceAs (Decidable (¬ _))

theorem cols_noDash {k : Kind} {attr : String} (h : attr ∈ k.cols) : NoDash attr := by
  cases k <;> simp only [Kind.cols, spillCols, batteryCols, chpCols, boilerCols, valveCols, heatPumpCols, renewableCols,
    List.mem_cons, List.not_mem_nil, or_false] at h <;> (try rcases h with rfl | rfl | rfl | rfl | rfl | rfl | rfl) <;>
    (try rcases h with rfl | rfl | rfl | rfl) <;> (try rcases h with rfl | rfl | rfl) <;> (try rcases h with rfl | rfl) <;>
    (try subst h) <;> (try decide) <;> (try exact absurd h (by simp))

theorem evCols_noDash {attr : String} (h : attr ∈ evCols) : NoDash attr := by
  simp only [evCols, List.mem_cons, List.not_mem_nil, or_false] at h
  rcases h with rfl | rfl | rfl | rfl | rfl <;> decide

theorem evEventCols_noDash {attr : String} (h : attr ∈ evEventCols) : NoDash attr := by
  simp only [evEventCols, List.mem_cons, List.not_mem_nil, or_false] at h
  rcases h with rfl | rfl | rfl <;> decide

theorem quantities_noDash {q : String} (h : q ∈ quantities) : NoDash q := by
  simp only [quantities, List.mem_cons, List.not_mem_nil, or_false] at h
  rcases h with rfl | rfl | rfl | rfl | rfl | rfl | rfl | rfl | rfl <;> decide

/-- An occurrence of `-q` in `a-b` lies in `a`, starts at the dash, or lies in `b`. -/
theorem infix_dash {α : Type} {d : α} {q a b : List α} (hq : d ∉ q) :
    (d :: q) <:+: a ++ d :: b ↔ (d :: q) <:+: a ∨ q <+: b ∨ (d :: q) <:+: b := by
  constructor
  · rintro ⟨s, t, h⟩
    rw [List.append_assoc, List.append_eq_append_iff] at h
    rcases h with ⟨c, h1, h2⟩ | ⟨c, h1, h2⟩
    · -- a = s ++ c
      cases c with
      | nil =>
        simp only [List.nil_append, List.cons_append, List.cons.injEq, true_and] at h2
        exact .inr (.inl ⟨t, h2⟩)
      | cons x c =>
        simp only [List.cons_append, List.cons.injEq] at h2
        obtain ⟨rfl, h2⟩ := h2
        rw [List.append_eq_append_iff] at h2
        rcases h2 with ⟨e, h3, h4⟩ | ⟨e, h3, h4⟩
        · refine .inl ⟨s, e, ?_⟩
          rw [h1, h3]
          simp
        · cases e with
          | nil =>
            refine .inl ⟨s, [], ?_⟩
            rw [h1, h3]; simp
          | cons y e =>
            simp only [List.cons_append, List.cons.injEq] at h4
            exact absurd (by rw [h3, h4.1]; simp) hq
    · cases c with
      | nil =>
        simp only [List.nil_append, List.cons_append, List.cons.injEq, true_and] at h2
        exact .inr (.inl ⟨t, h2.symm⟩)
      | cons x c =>
        simp only [List.cons_append, List.cons.injEq] at h2
        refine .inr (.inr ⟨c, t, ?_⟩)
        rw [h2.2]; simp
  · rintro (⟨s, t, h⟩ | ⟨t, h⟩ | ⟨s, t, h⟩)
    · exact ⟨s, t ++ d :: b, by rw [← h]; simp⟩
    · exact ⟨a, t, by rw [← h]; simp⟩
    · exact ⟨a ++ d :: s, t, by rw [← h]; simp⟩

theorem pyIn_iff {a b : String} : pyIn a b = true ↔ a.toList <:+: b.toList := by simp [pyIn]

/-- `-q in name-rest` -/
theorem pyIn_dash {q a b : String} (hq : NoDash q) :
    pyIn ("-" ++ q) (a ++ "-" ++ b) = true ↔
      pyIn ("-" ++ q) a = true ∨ q.toList <+: b.toList ∨ pyIn ("-" ++ q) b = true := by
  have h : ("-" ++ q).toList = '-' :: q.toList := by simp [String.toList_append]
  rw [pyIn_iff, pyIn_iff, pyIn_iff, toList_dash, h]
  exact infix_dash hq

theorem pyIn_noDash {q b : String} (hb : NoDash b) : pyIn ("-" ++ q) b = false := by
  rw [← Bool.not_eq_true, pyIn_iff]
  rintro ⟨s, t, h⟩
  apply hb
  rw [← h]
  simp [String.toList_append]

end EPL
