/-
From a valid dispatch of a site to a feasible point of its program for simple terms and a charge on the peak import or export.
-/
import Verif.Proofs.DispatchCustom
import Verif.Props.Peak

namespace EPL

section
variable {s : Site} {flags : Flags} {W : String → Nat → ℚ} {d : SiteData} {iv : IVars} {A : String → Prop} {P : LpVar → Prop}

/-- The operands of a many variables term are about the attribute it names; the constant is the last of them. -/
theorem manyOperands_has (hv : iv.Has A P) {v : Term} (hA : A v.attr) {constant : ℚ} {xs : List Val} (h : manyOperands iv v constant = .ok xs) :
    ∃ ys, xs = ys ++ [.num constant] ∧ ∀ x ∈ ys, x.Over P := by
  have all : ∀ {type name : Option String} {l : List (List OneInterval)}, iv.filterAllStr type name = .ok l →
      ∀ o ∈ l.flatten, ∀ attr v, A attr → o.getattr attr = .ok v → v.Over P := by
    intro type name l hl o ho
    rw [filterAllStr_ok hl, List.mem_flatten] at ho
    obtain ⟨l', hl', ho⟩ := ho
    obtain ⟨objs, hobjs, rfl⟩ := List.mem_map.1 hl'
    exact hv objs hobjs o (List.mem_filter.1 ho).1
  have fin : ∀ {l : List OneInterval}, (∀ o ∈ l, ∀ attr v, A attr → o.getattr attr = .ok v → v.Over P) →
      (do let vals ← mapE (fun (a : OneInterval) => a.getattr v.attr) l
          (.ok (vals.filter (fun (x : Val) => !x.isNone) ++ [Val.num constant]) : Res (List Val))) = .ok xs →
      ∃ ys, xs = ys ++ [.num constant] ∧ ∀ x ∈ ys, x.Over P := by
    intro l hl h
    simp only [bind_ok, Except.ok.injEq] at h
    obtain ⟨vals, hvals, rfl⟩ := h
    refine ⟨_, rfl, fun x hx => ?_⟩
    obtain ⟨o, ho, hox⟩ := (mapE_mem hvals).1 (List.mem_filter.1 hx).1
    exact hl o ho _ _ hA hox
  unfold manyOperands at h
  by_cases h1 : v.assetType = some "*"
  · simp only [if_pos h1] at h
    rw [bind_ok] at h
    obtain ⟨l, hl, h⟩ := h
    exact fin (all hl) h
  · by_cases h2 : v.assetName = none
    · simp only [if_neg h1, if_pos h2] at h
      rw [bind_ok] at h
      obtain ⟨l, hl, h⟩ := h
      exact fin (all hl) h
    · simp only [if_neg h1, if_neg h2] at h
      rw [bind_ok] at h
      obtain ⟨l, hl, h⟩ := h
      exact fin (all hl) h

/-- The operands of a charge on the peak of the site are the cells of its column and the constant. -/
theorem site_operands_shows {σ : Assign} (h : s.Shows flags W σ) {attr : String} (ha : attr = "import_power_mwh" ∨ attr = "export_power_mwh") (constant : ℚ) :
    (siteTerm attr).operands σ (s.ivarsTo flags s.data.n) constant = (List.range s.data.n).map (fun i => W ("site-" ++ attr) i) ++ [constant] := by
  unfold Term.operands
  congr 1
  simp only [Site.ivarsTo, List.flatMap_map, List.filterMap_flatMap]
  have : ∀ i ∈ List.range s.data.n, ((siteTerm attr).pool (s.ones flags i)).filterMap (OneInterval.number? σ (siteTerm attr).attr) =
      [W ("site-" ++ attr) i] := by
    intro i hi
    rw [List.mem_range] at hi
    have hpool : (siteTerm attr).pool (s.ones flags i) = [.site (s.oneInterval i)] := by
      unfold Term.pool siteTerm
      have h1 : ¬ (some "site" : Option String) = some "*" := by decide
      simp only [h1, if_false, if_true]
      rw [ones_eq h.vars hi, List.filter_cons, if_pos (by simp [Selected, OneInterval.kind, Kind.typeName])]
      congr 1
      rw [List.filter_eq_nil_iff]
      intro o ho
      obtain ⟨a, ha, ho⟩ := List.mem_flatMap.1 ho
      have hk := (ois_name_kind ho).2
      rw [decide_eq_true_iff]
      intro hsel
      have hty := hsel.1
      simp only [h1, false_or, reduceCtorEq] at hty
      cases a <;> simp [Asset.kinds] at hk <;> (try rcases hk with hk | hk) <;> rw [hk] at hty <;> simp [Kind.typeName] at hty
    rw [hpool]
    rcases ha with rfl | rfl
    · rw [show "site-" ++ "import_power_mwh" = "site-import_power_mwh" from rfl, h.imports i hi]
      rfl
    · rw [show "site-" ++ "export_power_mwh" = "site-export_power_mwh" from rfl, h.exports i hi]
      rfl
  rw [← List.flatMap_singleton' ((List.range s.data.n).map (fun i => W ("site-" ++ attr) i)), List.flatMap_map]
  rw [List.flatMap_def, List.flatMap_def]
  congr 1
  exact List.map_congr_left this

/-- A valid dispatch that respects the custom constraints is a feasible point of the program for simple terms and a charge on a peak within `M` of its cells. -/
theorem dispatch_peak {ts : List Term} {attr : String} {M constant k peak : ℚ} {p : Prob} (ha : attr = "import_power_mwh" ∨ attr = "export_power_mwh")
    (hprog : s.program (.custom (ts.map .simple ++ [.many "max_many_variables" (siteTerm attr) M constant k])) flags = .ok (iv, p)) (hn : 0 < s.data.n)
    (hp : s.Plugs) (hr : ∀ c ∈ s.constraints, c.Readable) (ht : ∀ t ∈ ts, t.attr ∈ readable) (hM : 0 ≤ M) (hW : s.Dispatch flags W) (hob : s.Obeys W)
    (hpeak : ∀ x ∈ (List.range s.data.n).map (fun i => W ("site-" ++ attr) i) ++ [constant], x ≤ peak)
    (hnear : ∀ i < s.data.n, peak ≤ W ("site-" ++ attr) i + M) :
    ∃ σ, p.Feasible σ ∧ p.obj.eval σ = (ts.map (fun t => s.sumIntervals (fun i => t.read s W i))).sum + peak * k := by
  have hP := program_spec hprog
  obtain ⟨σ, F, hsh, -⟩ := dispatch_fulfils (fun i hi => hP.rows hi) hP.vars.nodup hn (fun i hi a ha => hP.buildable hi ha) hp hW
  obtain ⟨base, custom, objCons, hb, hcu, ho, he⟩ := hP.built
  have hiv := hb.iv_eq
  have hov : iv.Over s.Owns := by rw [hiv]; exact ivars_over hb.vars hb.buildable
  have hin := hiv ▸ fulfils_has F hP.vars
  simp only [getObjective, customObjective, bind_ok, Except.ok.injEq, Prod.mk.injEq] at ho
  obtain ⟨simple, h1, two, h2, many, h3, hobj, hoc⟩ := ho
  -- the parts of the objective
  rw [flatMapE_append] at h1
  simp only [bind_ok, Except.ok.injEq] at h1
  obtain ⟨simple', h1, l1, hl1, rfl⟩ := h1
  have e1 : l1 = [] := by
    simp only [flatMapE_cons, flatMapE_nil, OneTerm.simpleExprs, bind_ok, Except.ok.injEq] at hl1
    obtain ⟨_, rfl, _, rfl, rfl⟩ := hl1
    rfl
  subst e1
  rw [List.zipIdx_append, flatMapE_append] at h2 h3
  simp only [bind_ok, Except.ok.injEq] at h2 h3
  obtain ⟨two', h2, l2, hl2, rfl⟩ := h2
  obtain ⟨many', h3, l3, hl3, rfl⟩ := h3
  have e2 : l2 = [] := by
    rw [List.zipIdx_cons, List.zipIdx_nil, flatMapE_cons] at hl2
    simp only [bind_ok, Except.ok.injEq] at hl2
    obtain ⟨x, hx, y, hy, rfl⟩ := hl2
    simp only [flatMapE_nil, Except.ok.injEq] at hy
    rw [two_nil hx (by simp), ← hy]
    rfl
  subst e2
  have E2 := simple_two_nil h2
  have E3 := simple_many_nil h3
  subst E2 E3
  rw [List.zipIdx_cons, List.zipIdx_nil, flatMapE_cons] at hl3
  simp only [bind_ok, Except.ok.injEq, OneTerm.manyExprs, true_or, if_true, Prod.exists, flatMapE_nil] at hl3
  obtain ⟨_, ⟨_, -, xs, hxs, c, cons, hmax, rfl⟩, _, rfl, rfl⟩ := hl3
  -- the value of the peak
  have hattr : (siteTerm attr).attr ∈ readable := by rcases ha with rfl | rfl <;> decide
  obtain ⟨ys, hys, hyb⟩ := manyOperands_has hin hattr hxs
  have hval : values σ xs = (List.range s.data.n).map (fun i => W ("site-" ++ attr) i) ++ [constant] := by
    rw [manyOperands_ok hxs, hiv, site_operands_shows hsh ha]
  have hcell : values σ ys = (List.range s.data.n).map (fun i => W ("site-" ++ attr) i) := by
    rw [hys] at hval
    unfold values at hval ⊢
    rw [List.map_append] at hval
    exact (List.append_inj' hval rfl).1
  have howns := manyOperands_over hov hxs
  obtain ⟨τ, hτ, hq, hf⟩ := (C36_max_values hmax hM (σ := σ) peak (by
      intro x hx
      rw [hys] at hx
      rcases List.mem_append.1 hx with hx | hx
      · have := hyb x hx
        cases x <;> first | exact this | trivial
      · rw [List.mem_singleton] at hx; subst hx; trivial) (by
      intro x hx id hid hxi
      have := howns x hx
      cases x with
      | var w =>
        have ow : id.owner = .aux (ts.map OneTerm.simple).length := by
          simp only [manyIds, List.mem_cons, List.mem_map, zero_add] at hid
          rcases hid with rfl | ⟨_, -, rfl⟩ <;> rfl
        exact not_aux this (by rw [show w.id = id from hxi]; exact ow)
      | _ => exact hxi)).2 ⟨by rw [hval]; exact hpeak, by
      intro w hw
      rw [hys] at hw
      rcases List.mem_append.1 hw with hw | hw
      · have : σ w.id ∈ values σ ys := List.mem_map.2 ⟨_, hw, rfl⟩
        rw [hcell] at this
        obtain ⟨i, hi, hiw⟩ := List.mem_map.1 this
        rw [← hiw]
        exact hnear i (List.mem_range.1 hi)
      · simp at hw⟩
  have same : ∀ {v : LpVar}, s.Owns v → τ v.id = σ v.id := by
    intro v hv
    refine hτ _ fun hid => ?_
    have ow : v.id.owner = .aux (ts.map OneTerm.simple).length := by
      simp only [manyIds, List.mem_cons, List.mem_map, zero_add] at hid
      rcases hid with h | ⟨_, -, h⟩
      · rw [h]; rfl
      · rw [← h]; rfl
    exact not_aux hv ow
  have move : ∀ {con : Con}, con.Over s.Owns → con.Good σ → con.Good τ := by
    intro con hc hg
    refine ⟨(Con.Over.holds fun v hv => (same (hc v hv)).symm).1 hg.1, fun v hv => ?_⟩
    have := hg.2 v hv
    simpa only [LpVar.InBounds, same (hc v hv)] using this
  have hsimple : ∀ x ∈ simple', x.Over s.Owns ∧ x.Over (fun v => v.InBounds σ) := by
    intro x hx
    obtain ⟨o, ho, l, hl, hx⟩ := (flatMapE_mem h1).1 hx
    obtain ⟨t, htm, rfl⟩ := List.mem_map.1 ho
    exact ⟨simpleExprs_over hov hl x hx, simpleExprs_has (A := (· ∈ readable)) hin (ht t htm) hl x hx⟩
  have hgood : ∀ con ∈ base ++ custom, con.Good τ := by
    intro con hcon
    rcases List.mem_append.1 hcon with hcon | hcon
    · exact move (base_over hb.vars hb.buildable ((hb.mem_iff con).1 hcon)) (F.base con ((hb.mem_iff con).1 hcon))
    · refine move (custom_over hov hcu con hcon) ?_
      obtain ⟨c, hc, cs, hcs, hmem⟩ := (flatMapE_mem hcu).1 hcon
      have hl : c.lhs.On (· ∈ readable) := fun t ht => hr c hc t (List.mem_append_left _ ht)
      have hrr : c.rhs.On (· ∈ readable) := fun t ht => hr c hc t (List.mem_append_right _ ht)
      refine good ?_ (customConstraint_has hin hl hrr hcs con hmem)
      suffices H : ∀ con ∈ cs, con.Holds σ from H con hmem
      cases ha : c.sumAgg with
      | false =>
        rw [C37_exact ha hcs]
        intro i hi
        rw [hiv, side_read hsh hi hl, side_read hsh hi hrr]
        exact (hob c hc).1 ha i hi
      | true =>
        rw [C38_exact ha hn hcs, hiv, side_total_read hsh hl, side_total_read hsh hrr]
        exact (hob c hc).2 ha
  refine ⟨τ, ⟨?_, ?_⟩, ?_⟩
  · intro con hcon
    rw [he, ← hoc] at hcon
    rcases List.mem_append.1 hcon with hcon | hcon
    · exact (hgood con hcon).1
    · simp only [List.nil_append, List.append_nil, List.flatMap_nil, List.flatMap_cons] at hcon
      exact hf.1 con hcon
  · intro v hv
    rcases prob_vars_iff.1 hv with ⟨con, hcon, hv⟩ | hv
    · rw [he, ← hoc] at hcon
      rcases List.mem_append.1 hcon with hcon | hcon
      · exact (hgood con hcon).2 v hv
      · simp only [List.nil_append, List.append_nil, List.flatMap_nil, List.flatMap_cons] at hcon
        exact hf.2 v (prob_vars_iff.2 (.inl ⟨con, hcon, hv⟩))
    · rw [← hobj, Expr.vars_sum, List.mem_flatMap] at hv
      obtain ⟨x, hx, hv⟩ := hv
      simp only [List.nil_append, List.append_nil, List.map_nil, List.map_cons, List.mem_append, List.mem_singleton] at hx
      rcases hx with hx | rfl
      · have := (hsimple x hx).2 v hv
        simpa only [LpVar.InBounds, same ((hsimple x hx).1 v hv)] using this
      · simp only [Expr.mem_vars_mul, Expr.vars_var, List.mem_singleton] at hv
        rw [hv.2, (maxMany_eq hmax).1, InBounds_continuous]
        simp
  · rw [← hobj, Expr.eval_sum]
    simp only [List.nil_append, List.append_nil, List.map_nil, List.map_cons, List.map_append, List.sum_append, List.sum_cons, List.sum_nil, add_zero,
      Expr.eval_mul, Expr.eval_var, hq]
    have es : (simple'.map (Expr.eval τ)).sum = (simple'.map (Expr.eval σ)).sum :=
      congrArg List.sum (List.map_congr_left fun x hx => Expr.eval_congr fun w hw => same ((hsimple x hx).1 w hw))
    rw [es, sum_flatten_eval (σ := σ) (g := fun t => match t with
      | .simple t => s.sumIntervals (fun i => t.value σ s.data (iv.getD i []) i)
      | _ => 0) h1 (by
        intro o ho es hes
        obtain ⟨t, -, rfl⟩ := List.mem_map.1 ho
        exact simple_eval hes)]
    rw [List.map_map, add_left_inj]
    refine list_sum_congr fun t h => ?_
    simp only [Function.comp]
    unfold Site.sumIntervals
    refine list_sum_congr fun i hi => ?_
    rw [List.mem_range] at hi
    rw [hiv]
    exact value_shows hsh hi (ht t h)

end

end EPL
