/-
Concrete calls of `Site.optimize`, to show that the hypotheses of the theorems are met: a solver that answers with a given
assignment after checking it, and a test that evaluates the whole model.
-/
import Verif.Proofs.RunCore

namespace EPL

instance (σ : Assign) (c : Con) : Decidable (c.Holds σ) := by
  unfold Con.Holds
  split <;> infer_instance

instance (σ : Assign) (v : LpVar) : Decidable (v.InBounds σ) := by
  unfold LpVar.InBounds
  infer_instance

instance (σ : Assign) (p : Prob) : Decidable (p.Feasible σ) := by
  unfold Prob.Feasible
  infer_instance

/-- A solver that proposes `σ` and says "Optimal" only if it satisfies the program. -/
def checkSolver (σ : Assign) : Solver := fun p =>
  if p.Feasible σ then ⟨"Optimal", fun v => some (σ v)⟩ else ⟨"Infeasible", fun v => some (σ v)⟩

theorem checkSolver_sound (σ : Assign) : (checkSolver σ).Sound := by
  intro p h
  unfold checkSolver at h ⊢
  split
  · rename_i hf
    exact ⟨σ, hf, fun _ _ => rfl⟩
  · rename_i hf
    rw [if_neg hf] at h
    exact absurd h (by simp)

/-- An assignment given by a table, zero elsewhere. -/
def tab (l : List (VarId × ℚ)) : Assign := fun v => (l.lookup v).getD 0

/-- The arguments of one demonstration. -/
structure Demo where
  assets : List Asset
  raw : RawSiteData
  freqMins : ℚ := 60
  importLimit : ℚ := 10000
  exportLimit : ℚ := 10000
  constraints : List Constraint := []
  kwargs : List (String × KwData) := []
  objective : Objective := .str "price"
  flags : Flags := {}
  answer : List (VarId × ℚ)

/-- The site of a demonstration. -/
def Demo.site (d : Demo) : Res Site := Site.new d.assets d.raw d.freqMins d.importLimit d.exportLimit d.constraints d.kwargs

/-! The check for duplicate variable names compares all pairs of names, which the kernel does slowly on strings.  The test below
compares numbers computed from the names instead, which is enough for the names to differ. -/

/-- The characters of the name of a variable. -/
def VarId.chars : VarId → List Char
  | .site attr i => attr.toList ++ "-".toList ++ (toString i).toList
  | .asset name attr i => name.toList ++ "-".toList ++ attr.toList ++ "-".toList ++ (toString i).toList
  | .tagged attr i name => attr.toList ++ ",i:".toList ++ (toString i).toList ++ ",asset:".toList ++ name.toList
  | .evSoc attr i name event =>
      attr.toList ++ ",i:".toList ++ (toString i).toList ++ ",asset:".toList ++ name.toList ++ ",charge_event:".toList ++ event.toList
  | .evFlow attr i name event charger b =>
      attr.toList ++ ",i:".toList ++ (toString i).toList ++ ",asset:".toList ++ name.toList ++ ",charge-event:".toList ++
        (toString event).toList ++ ",charger:".toList ++ charger.toList ++ ",is_spill:".toList ++ (pyBool b).toList
  | .aux name _ => name.toList

theorem VarId.chars_eq (v : VarId) : v.chars = v.pyName.toList := by
  cases v <;> simp [VarId.chars, VarId.pyName, String.toList_append]

/-- A number computed from the characters of a name, as the solver sees them. -/
def VarId.code (v : VarId) : Nat := v.chars.foldl (fun n c => n * 2097152 + (sanitizeChar c).toNat) 1

theorem VarId.code_of_name {v w : VarId} (h : v.solverName = w.solverName) : v.code = w.code := by
  have h' : v.chars.map sanitizeChar = w.chars.map sanitizeChar := by
    rw [VarId.chars_eq, VarId.chars_eq]
    exact String.ofList_injective h
  have key : ∀ u : VarId, u.code = (u.chars.map sanitizeChar).foldl (fun n c => n * 2097152 + c.toNat) 1 := by
    intro u
    rw [List.foldl_map]
    rfl
  rw [key, key, h']

/-- Are the numbers of the variables of a program distinct? -/
def Prob.codesDiffer (p : Prob) : Bool := noDup ((p.vars.map LpVar.id).dedup.map VarId.code)

theorem Prob.codesDiffer_ok {p : Prob} (h : p.codesDiffer = true) : p.noDuplicateVariables = true := by
  unfold Prob.codesDiffer noDup at h
  unfold Prob.noDuplicateVariables noDup
  rw [decide_eq_true_iff] at h ⊢
  have h2 := List.pairwise_map.1 h
  refine List.pairwise_map.2 (h2.imp ?_)
  intro v w hne he
  exact hne (VarId.code_of_name he)

/-- `Site.optimize` with the quick check. -/
def Site.quick (s : Site) (objective : Objective) (flags : Flags) (S : Solver) : Res SimResult := do
  let (iv, p) ← s.program objective flags
  if p.codesDiffer then
    let out := S p
    let vals := p.valuesOf out
    let value := p.obj.value vals
    if out.status == "Optimal" && value.isSome then
      extractResults s iv { status := out.status, feasible := true, objective := value } vals flags
    else .error .index
  else .error .index

theorem Site.quick_ok {s : Site} {objective : Objective} {flags : Flags} {S : Solver} {r : SimResult}
    (h : s.quick objective flags S = .ok r) : s.optimize objective flags S = .ok r := by
  unfold Site.quick at h
  rw [bind_ok] at h
  obtain ⟨⟨iv, p⟩, hp, h⟩ := h
  simp only at h
  split at h
  · rename_i hc
    split at h
    · rename_i ho
      rw [Bool.and_eq_true] at ho
      have hs : (S p).status == "Optimal" := ho.1
      simp only [Site.optimize, hp, ok_bind, Prob.solve, Prob.codesDiffer_ok hc, pyAssert_true]
      cases hfl : flags.allowInfeasible
      · simp only [hs, ho.2, pyAssert_true, ok_bind, Bool.false_eq_true, if_false]
        exact h
      · simp only [hs, ok_bind, if_true]
        exact h
    · simp at h
  · simp at h

/-- Runs the model and tests the outcome. -/
def Demo.test (d : Demo) (P : Site → SimResult → Bool) : Bool :=
  match d.site with
  | .error _ => false
  | .ok s => match s.quick d.objective d.flags (checkSolver (tab d.answer)) with
    | .error _ => false
    | .ok r => r.feasible && P s r

theorem Demo.run {d : Demo} {P : Site → SimResult → Bool} (h : d.test P = true) :
    ∃ s r V, d.site = .ok s ∧ Run s d.objective d.flags (checkSolver (tab d.answer)) r V ∧ P s r = true := by
  unfold Demo.test at h
  split at h
  · simp at h
  · rename_i s hs
    split at h
    · simp at h
    · rename_i r hr
      replace hr := Site.quick_ok hr
      simp only [Bool.and_eq_true] at h
      have hcon : s.Constructed := ⟨_, _, _, _, _, _, _, hs⟩
      obtain ⟨p, σ, _, _, _, _, ho⟩ := optimize_feasible (checkSolver_sound _) hcon.wf hr h.1
      obtain ⟨V, hV⟩ := exists_reads ho.lengths ho.colsNodup
      exact ⟨s, r, V, hs, ⟨checkSolver_sound _, hcon, hr, h.1, hV⟩, h.2⟩

/-- `prices` as an argument of `Site`. -/
def prices (l : List ℚ) : RawField := .array (l.map some)

end EPL
