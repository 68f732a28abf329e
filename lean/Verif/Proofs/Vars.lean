/-
All variables of a program.
-/
import Verif.Proofs.Mine

namespace EPL

/-- A variable with the property or an auxiliary variable of a min or max term. -/
def OrAny (P : LpVar → Prop) (v : LpVar) : Prop := P v ∨ ∃ k, v.id.owner = .aux k

/-- The objective has no min or max terms. -/
def Objective.NoExtremes : Objective → Prop
  | .str _ => True
  | .custom terms => ∀ t ∈ terms, ∃ x, t = .simple x
  | .dict terms => ∀ t ∈ terms, ∃ x, t = .simple x

section
variable {P : LpVar → Prop} {iv : IVars} {d : SiteData}

theorem filterMap_over {l : List OneInterval} {g : OneInterval → Option Expr} (h : ∀ o ∈ l, ∀ e, g o = some e → e.Over P) :
    ∀ e ∈ l.filterMap g, e.Over P := by
  intro e he
  obtain ⟨o, ho, hg⟩ := List.mem_filterMap.1 he
  exact h o ho e hg

theorem site_over {x : SiteOI} (h : (OneInterval.site x).Over P) : P x.importPower ∧ P x.exportPower :=
  ⟨h "import_power_mwh" (.var x.importPower) rfl, h "export_power_mwh" (.var x.exportPower) rfl⟩

theorem priceTerms_over {i : Nat} {l : List OneInterval} (h : ∀ o ∈ l, o.base.AllOver P ∧ o.Over P) {es : List Expr}
    (he : priceTerms d i l = .ok es) : ∀ e ∈ es, e.Over P := by
  unfold priceTerms at he
  simp only [bind_ok, Except.ok.injEq] at he
  obtain ⟨p, -, x, -, g, -, rfl⟩ := he
  intro e hm
  simp only [List.mem_append] at hm
  rcases hm with (((hm | hm) | hm) | hm) | hm <;> revert e <;> refine filterMap_over fun o ho e hg => ?_ <;> obtain ⟨hb, ho⟩ := h o ho <;>
    cases o <;> simp only [reduceCtorEq, Option.some.injEq] at hg <;> subst hg
  · exact .sub (.mul (.var (site_over ho).1) _) (.mul (.var (site_over ho).2) _)
  · exact .add (.add (.add (.mul hb.electricGeneration.toExpr _) (.mul hb.htGeneration.toExpr _)) (.mul hb.electricLoad.toExpr _))
      (.mul hb.htLoad.toExpr _)
  · exact .add (.mul hb.electricCharge.toExpr _) (.mul hb.electricDischarge.toExpr _)
  · exact .mul hb.gasConsumption.toExpr _
  · exact .mul hb.gasConsumption.toExpr _

theorem carbonSpill_over {b : Base} (hb : b.AllOver P) : (carbonSpillTerm b).Over P :=
  .add (.add (.add (.add (.mul hb.electricGeneration.toExpr _) (.mul hb.htGeneration.toExpr _)) (.mul hb.electricLoad.toExpr _))
    (.mul hb.electricCharge.toExpr _)) (.mul hb.electricDischarge.toExpr _)

theorem carbonTerms_over {i : Nat} {l : List OneInterval} (h : ∀ o ∈ l, o.base.AllOver P ∧ o.Over P) {es : List Expr}
    (he : carbonTerms d i l = .ok es) : ∀ e ∈ es, e.Over P := by
  unfold carbonTerms at he
  simp only [bind_ok, Except.ok.injEq] at he
  obtain ⟨p, -, rfl⟩ := he
  intro e hm
  simp only [List.mem_append] at hm
  rcases hm with (((hm | hm) | hm) | hm) | hm <;> revert e <;> refine filterMap_over fun o ho e hg => ?_ <;> obtain ⟨hb, ho⟩ := h o ho <;>
    cases o <;> simp only [reduceCtorEq, Option.some.injEq] at hg <;> subst hg
  · exact .sub (.mul (.var (site_over ho).1) _) (.mul (.var (site_over ho).2) _)
  · exact carbonSpill_over hb
  · exact carbonSpill_over hb
  · exact .mul hb.gasConsumption.toExpr _
  · exact .mul hb.gasConsumption.toExpr _

theorem intervals_over (hv : iv.Over P) {g : Nat → List OneInterval → Res (List Expr)} {n : Nat} {ts : List Expr}
    (hg : ∀ i l es, (∀ o ∈ l, o.base.AllOver P ∧ o.Over P) → g i l = .ok es → ∀ e ∈ es, e.Over P)
    (h : flatMapE (fun (i : Nat) => do
      let assets ← pyIndex iv i
      g i assets) (List.range n) = .ok ts) : (Expr.sum ts).Over P := by
  refine .sum fun e he => ?_
  obtain ⟨i, _, es, h1, h2⟩ := (flatMapE_mem h).1 he
  rw [bind_ok] at h1
  obtain ⟨l, hl, h1⟩ := h1
  exact hg i l es (hv l (mem_of_index hl)) h1 e h2

theorem customObjective_over (hv : iv.Over P) {terms : List OneTerm} {x : Expr × List Con} (h : customObjective d iv terms = .ok x) :
    x.1.Over (OrAny P) ∧ ∀ c ∈ x.2, c.Over (OrAny P) := by
  unfold customObjective at h
  simp only [bind_ok, Except.ok.injEq] at h
  obtain ⟨a, ha, b, hb, c, hc, rfl⟩ := h
  have or : ∀ (k : Nat) (v : LpVar), OrAux P k v → OrAny P v := fun k v hv => hv.imp id fun h => ⟨k, h⟩
  have hb' : ∀ x ∈ b, x.1.Over (OrAny P) ∧ ∀ c ∈ x.2, c.Over (OrAny P) := by
    intro x hx
    obtain ⟨t, _, es, h1, h2⟩ := (flatMapE_mem hb).1 hx
    obtain ⟨g1, g2⟩ := twoExprs_over hv h1 x h2
    exact ⟨g1.mono (or t.2), fun c hc => (g2 c hc).mono (or t.2)⟩
  have hc' : ∀ x ∈ c, x.1.Over (OrAny P) ∧ ∀ c ∈ x.2, c.Over (OrAny P) := by
    intro x hx
    obtain ⟨t, _, es, h1, h2⟩ := (flatMapE_mem hc).1 hx
    obtain ⟨g1, g2⟩ := manyExprs_over hv h1 x h2
    exact ⟨g1.mono (or t.2), fun c hc => (g2 c hc).mono (or t.2)⟩
  refine ⟨.sum fun e he => ?_, fun con hcon => ?_⟩
  · simp only [List.mem_append, List.mem_map] at he
    rcases he with (he | ⟨x, hx, rfl⟩) | ⟨x, hx, rfl⟩
    · obtain ⟨t, _, es, h1, h2⟩ := (flatMapE_mem ha).1 he
      exact (simpleExprs_over hv h1 e h2).mono fun v hv => .inl hv
    · exact (hb' x hx).1
    · exact (hc' x hx).1
  · simp only [List.mem_append, List.mem_flatMap] at hcon
    rcases hcon with ⟨x, hx, hcon⟩ | ⟨x, hx, hcon⟩
    · exact (hb' x hx).2 con hcon
    · exact (hc' x hx).2 con hcon

theorem customObjective_simple (hv : iv.Over P) {terms : List OneTerm} (ht : ∀ t ∈ terms, ∃ x, t = .simple x) {x : Expr × List Con}
    (h : customObjective d iv terms = .ok x) : x.1.Over P ∧ x.2 = [] := by
  unfold customObjective at h
  simp only [bind_ok, Except.ok.injEq] at h
  obtain ⟨a, ha, b, hb, c, hc, rfl⟩ := h
  have hz : ∀ q ∈ terms.zipIdx, ∃ x, q.1 = .simple x := by
    rintro ⟨t, k⟩ hq
    exact ht t (List.mem_of_getElem? (mem_zipIdx_iff.1 hq))
  have hb' : b = [] := by
    refine List.eq_nil_iff_forall_not_mem.2 fun x hx => ?_
    obtain ⟨q, hq, es, h1, h2⟩ := (flatMapE_mem hb).1 hx
    obtain ⟨t, ht⟩ := hz q hq
    rw [ht] at h1
    simp only [OneTerm.twoExprs, Except.ok.injEq] at h1
    subst h1
    simp at h2
  have hc' : c = [] := by
    refine List.eq_nil_iff_forall_not_mem.2 fun x hx => ?_
    obtain ⟨q, hq, es, h1, h2⟩ := (flatMapE_mem hc).1 hx
    obtain ⟨t, ht⟩ := hz q hq
    rw [ht] at h1
    simp only [OneTerm.manyExprs, Except.ok.injEq] at h1
    subst h1
    simp at h2
  subst hb' hc'
  refine ⟨.sum fun e he => ?_, by simp⟩
  simp only [List.map_nil, List.append_nil] at he
  obtain ⟨t, _, es, h1, h2⟩ := (flatMapE_mem ha).1 he
  exact simpleExprs_over hv h1 e h2

theorem termFactory_eq {t t' : OneTerm} (h : termFactory t = .ok t') : t' = t := by
  cases t with
  | simple t => simp only [termFactory, Except.ok.injEq] at h; exact h.symm
  | two f a b M data q =>
    simp only [termFactory] at h
    repeat' split at h
    all_goals first | (simp only [Except.ok.injEq] at h; exact h.symm) | simp at h
  | many f v M c q =>
    simp only [termFactory] at h
    repeat' split at h
    all_goals first | (simp only [Except.ok.injEq] at h; exact h.symm) | simp at h

theorem str_over (hv : iv.Over P) {name : String} {x : Expr × List Con} (h : getObjective d iv (.str name) = .ok x) : x.1.Over P ∧ x.2 = [] := by
  simp only [getObjective] at h
  split at h
  · simp only [bind_ok, Except.ok.injEq, priceObjective] at h
    obtain ⟨_, ⟨ts, hts, rfl⟩, rfl⟩ := h
    exact ⟨intervals_over hv (g := priceTerms d) (fun i l es hl he => priceTerms_over hl he) hts, rfl⟩
  · split at h
    · simp only [bind_ok, Except.ok.injEq, carbonObjective] at h
      obtain ⟨_, ⟨ts, hts, rfl⟩, rfl⟩ := h
      exact ⟨intervals_over hv (g := carbonTerms d) (fun i l es hl he => carbonTerms_over hl he) hts, rfl⟩
    · simp at h

theorem objective_over (hv : iv.Over P) {objective : Objective} {x : Expr × List Con} (h : getObjective d iv objective = .ok x) :
    x.1.Over (OrAny P) ∧ ∀ c ∈ x.2, c.Over (OrAny P) := by
  cases objective with
  | str name =>
    obtain ⟨h1, h2⟩ := str_over hv h
    exact ⟨h1.mono fun v hv => .inl hv, by rw [h2]; simp⟩
  | custom terms => exact customObjective_over hv h
  | dict terms =>
    simp only [getObjective, bind_ok] at h
    obtain ⟨ts, -, h⟩ := h
    exact customObjective_over hv h

theorem objective_simple (hv : iv.Over P) {objective : Objective} (ho : objective.NoExtremes) {x : Expr × List Con}
    (h : getObjective d iv objective = .ok x) : x.1.Over P ∧ x.2 = [] := by
  cases objective with
  | str name => exact str_over hv h
  | custom terms => exact customObjective_simple hv ho h
  | dict terms =>
    simp only [getObjective, bind_ok] at h
    obtain ⟨ts, hts, h⟩ := h
    refine customObjective_simple hv (fun t ht => ?_) h
    obtain ⟨t0, h0, h1⟩ := (mapE_mem hts).1 ht
    rw [termFactory_eq h1]
    exact ho t0 h0

end

section
variable {s : Site} {objective : Objective} {flags : Flags} {p : Prob} {iv : IVars}

theorem ivars_mine (hv : VarsOk s flags s.data.n) (hb : ∀ i < s.data.n, ∀ a ∈ s.assets, a.Buildable i) :
    (s.ivarsTo flags s.data.n).Over (s.Holds flags) := by
  intro l hl o ho
  simp only [Site.ivarsTo, List.mem_map, List.mem_range] at hl
  obtain ⟨i, hi, rfl⟩ := hl
  exact ones_mine hv hi (hb i hi) ho

theorem base_mine (hv : VarsOk s flags s.data.n) (hb : ∀ i < s.data.n, ∀ a ∈ s.assets, a.Buildable i) {c : Con} (hc : s.BaseCon flags c) :
    c.Over (s.Holds flags) := by
  rcases hc with ⟨i, hi, hc⟩ | ⟨i, hi, a, ha, hc⟩ | ⟨a, ha, hc⟩
  · exact siteList_mine hv hi (hb i hi) c hc
  · exact (within_mine c hc).mono fun v hv => .inr ⟨a, ha, hv⟩
  · exact (after_mine c hc).mono fun v hv => .inr ⟨a, ha, hv⟩

/-- Every variable of a program belongs to the site, to one of its assets or to a min or max term of the objective. -/
theorem prog_vars (h : s.program objective flags = .ok (iv, p)) {v : LpVar} (hv : v ∈ p.vars) : OrAny (s.Holds flags) v := by
  obtain ⟨base, custom, objCons, hbu, hcu, hob, hcons⟩ := (program_spec h).built
  rw [hbu.iv_eq] at hcu hob
  have hov := ivars_mine hbu.vars hbu.buildable
  obtain ⟨h1, h2⟩ := objective_over hov hob
  rcases prob_vars_iff.1 hv with ⟨c, hc, hv⟩ | hv
  · rw [hcons, List.mem_append, List.mem_append] at hc
    rcases hc with (hc | hc) | hc
    · exact .inl (base_mine hbu.vars hbu.buildable ((hbu.mem_iff c).1 hc) v hv)
    · exact .inl (custom_over hov hcu c hc v hv)
    · exact h2 c hc v hv
  · exact h1 v hv

/-- Without min and max terms every variable belongs to the site or to one of its assets. -/
theorem prog_vars_simple (ho : objective.NoExtremes) (h : s.program objective flags = .ok (iv, p)) {v : LpVar} (hv : v ∈ p.vars) :
    s.Holds flags v := by
  obtain ⟨base, custom, objCons, hbu, hcu, hob, hcons⟩ := (program_spec h).built
  rw [hbu.iv_eq] at hcu hob
  have hov := ivars_mine hbu.vars hbu.buildable
  obtain ⟨h1, h2⟩ := objective_simple hov ho hob
  simp only at h2
  subst h2
  rcases prob_vars_iff.1 hv with ⟨c, hc, hv⟩ | hv
  · rw [hcons, List.append_nil, List.mem_append] at hc
    rcases hc with hc | hc
    · exact base_mine hbu.vars hbu.buildable ((hbu.mem_iff c).1 hc) v hv
    · exact custom_over hov hcu c hc v hv
  · exact h1 v hv

end

end EPL
