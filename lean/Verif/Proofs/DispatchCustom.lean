/-
From a valid dispatch of a site to a feasible point of its program for a custom objective of simple terms.
-/
import Verif.Proofs.DispatchPoint
import Verif.Props.CustomObjectives

namespace EPL

section
variable {s : Site} {flags : Flags} {W : String → Nat → ℚ} {d : SiteData} {iv : IVars} {A : String → Prop} {P : LpVar → Prop}

/-- The expressions of a simple term are about the attribute it names. -/
theorem simpleExprs_has (hv : iv.Has A P) {t : Term} (hA : A t.attr) {es : List Expr} (h : (OneTerm.simple t).simpleExprs d iv = .ok es) :
    ∀ x ∈ es, x.Over P := by
  intro x hx
  simp only [OneTerm.simpleExprs] at h
  obtain ⟨i, _, l, hl, hx⟩ := (flatMapE_mem h).1 hx
  rw [bind_ok] at hl
  obtain ⟨objs, ho, hl⟩ := hl
  have hobjs : ∀ o ∈ objs, ∀ attr v, A attr → o.getattr attr = .ok v → v.Over P := by
    unfold simpleTermAssets at ho
    split at ho
    · exact hv _ (mem_of_index ho)
    · exact filterStr_has hv ho
  unfold simpleTermExprs at hl
  obtain ⟨o, hom, hox⟩ := (mapE_mem hl).1 hx
  simp only [bind_ok, Except.ok.injEq] at hox
  obtain ⟨v, hv', q, -, rfl⟩ := hox
  exact .mul (.mul (hobjs o hom _ _ hA hv').toExpr _) _

/-- A custom objective of simple terms brings no constraints, and is about the attributes it names. -/
theorem simple_objective {ts : List Term} {e : Expr} {cs : List Con} (ho : getObjective d iv (.custom (ts.map .simple)) = .ok (e, cs)) :
    cs = [] ∧ (iv.Has A P → (∀ t ∈ ts, A t.attr) → e.Over P) := by
  simp only [getObjective, customObjective, bind_ok, Except.ok.injEq, Prod.mk.injEq] at ho
  obtain ⟨simple, h1, two, h2, many, h3, rfl, rfl⟩ := ho
  rw [simple_two_nil h2, simple_many_nil h3]
  refine ⟨rfl, fun hv hA => ?_⟩
  simp only [List.map_nil, List.append_nil]
  refine .sum fun x hx => ?_
  obtain ⟨o, ho, l, hl, hx⟩ := (flatMapE_mem h1).1 hx
  obtain ⟨t, ht, rfl⟩ := List.mem_map.1 ho
  exact simpleExprs_has hv (hA t ht) hl x hx

/-- A simple term against the columns. -/
theorem value_shows {σ : Assign} (h : s.Shows flags W σ) {i : Nat} (hi : i < s.data.n) {t : Term} (ht : t.attr ∈ readable) :
    t.value σ s.data ((s.ivarsTo flags s.data.n).getD i []) i = t.read s W i := by
  have e : (s.ivarsTo flags s.data.n).getD i [] = s.ones flags i := by
    rw [List.getD_eq_getElem?_getD, ivarsTo_get s flags hi]; rfl
  rw [e]
  unfold Term.value Term.select Term.read
  split
  · rename_i hs
    have := term_shows h hi ht t.assetType none t.intervalData t.coefficient
    rw [← this]
    congr 1
    symm
    rw [List.filter_eq_self]
    intro o _
    simp [Selected, hs]
  · exact term_shows h hi ht ..

/-- A valid dispatch that respects the custom constraints is a feasible point of the program for a custom objective, with the value of its terms. -/
theorem dispatch_custom {ts : List Term} {p : Prob} (hprog : s.program (.custom (ts.map .simple)) flags = .ok (iv, p)) (hn : 0 < s.data.n) (hp : s.Plugs)
    (hr : ∀ c ∈ s.constraints, c.Readable) (ht : ∀ t ∈ ts, t.attr ∈ readable) (hW : s.Dispatch flags W) (hob : s.Obeys W) :
    ∃ σ, p.Feasible σ ∧ p.obj.eval σ = (ts.map (fun t => s.sumIntervals (fun i => t.read s W i))).sum ∧ s.costOf σ = s.readCost W ∧
      s.emissionsOf σ = s.readEmissions W ∧ s.spillOf flags σ = s.readSpill W := by
  have hP := program_spec hprog
  obtain ⟨σ, F, hsh, hrest⟩ := dispatch_fulfils (fun i hi => hP.rows hi) hP.vars.nodup hn (fun i hi a ha => hP.buildable hi ha) hp hW
  have hiv := hP.iv_eq
  refine ⟨σ, ?_, ?_, hrest⟩
  · obtain ⟨base, custom, objCons, hb, hcu, ho, he⟩ := hP.built
    have hin := hiv ▸ fulfils_has F hP.vars
    obtain ⟨hnil, hover⟩ := simple_objective (A := (· ∈ readable)) (P := fun v => v.InBounds σ) ho
    have hgood : ∀ c ∈ p.cons, c.Good σ := by
      intro con hcon
      rw [he, hnil, List.append_nil, List.mem_append] at hcon
      rcases hcon with hcon | hcon
      · exact F.base con ((hb.mem_iff con).1 hcon)
      · obtain ⟨c, hc, cs, hcs, hmem⟩ := (flatMapE_mem hcu).1 hcon
        have hl : c.lhs.On (· ∈ readable) := fun t ht => hr c hc t (List.mem_append_left _ ht)
        have hrr : c.rhs.On (· ∈ readable) := fun t ht => hr c hc t (List.mem_append_right _ ht)
        refine good ?_ (customConstraint_has hin hl hrr hcs con hmem)
        revert con
        suffices H : ∀ con ∈ cs, con.Holds σ from fun con _ hm => H con hm
        cases ha : c.sumAgg with
        | false =>
          rw [C37_exact ha hcs]
          intro i hi
          rw [hiv, side_read hsh hi hl, side_read hsh hi hrr]
          exact (hob c hc).1 ha i hi
        | true =>
          rw [C38_exact ha hn hcs, hiv, side_total_read hsh hl, side_total_read hsh hrr]
          exact (hob c hc).2 ha
    refine ⟨fun c hc => (hgood c hc).1, fun v hv => ?_⟩
    rcases prob_vars_iff.1 hv with ⟨c, hc, hv⟩ | hv
    · exact (hgood c hc).2 v hv
    · exact hover hin ht v hv
  · rw [C42_simple hprog]
    refine list_sum_congr fun t h => ?_
    unfold Site.sumIntervals
    refine list_sum_congr fun i hi => ?_
    rw [List.mem_range] at hi
    rw [hiv]
    exact value_shows hsh hi (ht t h)

end

end EPL
