/-
C22: `limit_charge_variables_to_valid_events` makes the program smaller and changes nothing else.
-/
import Verif.Proofs.LimitProg
import Verif.Props.Evs
import Verif.Props.Returns
import Verif.Spec.DemoLimit

namespace EPL

section
variable {s : Site} {objective : Objective} {flags : Flags} {S S' : Solver} {r r' : SimResult} {V V' : String → Nat → ℚ} {p p' : Prob} {σ : Assign}

theorem Site.PlainEvs.plugs (h : s.PlainEvs) (hf : 0 ≤ s.freqMins) : s.Plugs where
  powers := by
    intro c hc ch hch
    obtain ⟨a, ha, hp, -⟩ := h c hc
    have hm := ev_made ha
    have key : 0 ≤ ch.powerMax := by
      rw [hm.chargers, hm.spill, List.mem_append, List.mem_map, List.mem_singleton] at hch
      rcases hch with ⟨x, hx, rfl⟩ | rfl
      · exact hp _ (by
          have := List.mem_map_of_mem (f := Prod.fst) hx
          rwa [List.zipIdx_map_fst] at this)
      · norm_num
    unfold Freq.mwToMwh
    exact div_nonneg (mul_nonneg key hf) (by norm_num)
  entries := by
    intro c hc i hi e he
    obtain ⟨a, ha, -, hq⟩ := h c hc
    have hm := ev_made ha
    by_cases hl : i < c.chargeEvents.length
    · rw [hm.present i hl e]
      unfold EvArgs.present
      simp only [List.getD_eq_getElem?_getD]
      cases hrow : a.chargeEvents[e]? with
      | none => simp
      | some row =>
        simp only [Option.getD_some]
        cases hx : row[i]? with
        | none => simp
        | some q => exact hq row (List.mem_of_getElem? hrow) q (List.mem_of_getElem? hx)
    · unfold EvsCfg.present
      have : c.chargeEvents.getD i [] = [] := by
        rw [List.getD_eq_getElem?_getD, List.getElem?_eq_none (by omega), Option.getD_none]
      rw [this]
      simp

theorem value_known {vals : Values} {e : Expr} (h : ∀ v ∈ e.vars, vals v.id = some (σ v.id)) : e.value vals = some (e.eval σ) := by
  unfold Expr.value
  rw [mapM_some (g := fun t => t.2 * σ t.1.id)]
  · rfl
  · intro t ht
    rw [h t.1 (List.mem_map_of_mem ht)]
    rfl

theorem names_of_noDuplicates (h : p.noDuplicateVariables = true) {v w : LpVar} (hv : v ∈ p.vars) (hw : w ∈ p.vars)
    (he : v.id.solverName = w.id.solverName) : v.id = w.id := by
  unfold Prob.noDuplicateVariables noDup at h
  rw [decide_eq_true_eq] at h
  exact List.inj_on_of_nodup_map h (List.mem_dedup.2 (List.mem_map_of_mem hv)) (List.mem_dedup.2 (List.mem_map_of_mem hw)) he

open Classical in
/-- The same answer gives the same results with and without the flag. -/
theorem Paired.optimize_eq (h : Paired s objective flags p p') (hp : s.Plugs) (hf : p.Feasible σ) (h1 : (S p).status = "Optimal")
    (h2 : (S' p').status = "Optimal") (v1 : ∀ v ∈ p.vars, (S p).value v.id = some (σ v.id))
    (v2 : ∀ v ∈ p'.vars, (S' p').value v.id = some (σ v.id)) (d1 : p.noDuplicateVariables = true) (d2 : p'.noDuplicateVariables = true) :
    s.optimize objective flags.limited S' = s.optimize objective flags.unlimited S := by
  have k1 : ∀ v ∈ p.vars, p.valuesOf (S p) v.id = some (σ v.id) := fun v hv => valuesOf_known v1 hv
  have k2 : ∀ v ∈ p'.vars, p'.valuesOf (S' p') v.id = some (σ v.id) := fun v hv => valuesOf_known v2 hv
  have hag : ∀ id, ¬ s.Removed id → p'.valuesOf (S' p') id = p.valuesOf (S p) id := by
    intro id hid
    by_cases hm : id ∈ p.vars.map LpVar.id
    · obtain ⟨v, hv, rfl⟩ := List.mem_map.1 hm
      rw [k1 v hv, k2 v (h.vars_iff.2 ⟨hv, hid⟩)]
    · have : id ∉ p'.vars.map LpVar.id := by
        intro hm'
        obtain ⟨v, hv, rfl⟩ := List.mem_map.1 hm'
        exact hm (List.mem_map_of_mem (h.vars_iff.1 hv).1)
      unfold Prob.valuesOf
      rw [if_neg hm, if_neg this]
  have hread := h.readable hag fun v hv hr => by rw [k1 v hv, h.zero hp hf hv hr]
  have o1 : p.obj.value (p.valuesOf (S p)) = some (p.obj.eval σ) := value_known fun v hv => k1 v (prob_vars_iff.2 (.inr hv))
  have o2 : p'.obj.value (p'.valuesOf (S' p')) = some (p.obj.eval σ) := by
    rw [← h.obj_on hp hf]
    exact value_known fun v hv => k2 v (prob_vars_iff.2 (.inr hv))
  have s1 : p.solve S flags.allowInfeasible = .ok (⟨"Optimal", true, some (p.obj.eval σ)⟩, p.valuesOf (S p)) := by
    simp only [Prob.solve, d1, pyAssert_true, ok_bind, h1, o1]
    cases flags.allowInfeasible <;> rfl
  have s2 : p'.solve S' flags.allowInfeasible = .ok (⟨"Optimal", true, some (p.obj.eval σ)⟩, p'.valuesOf (S' p')) := by
    simp only [Prob.solve, d2, pyAssert_true, ok_bind, h2, o2]
    cases flags.allowInfeasible <;> rfl
  unfold Site.optimize
  simp only [h.off, h.on, ok_bind, s1, s2]
  rw [ivars_drop h.progOn.vars h.progOff.vars fun i hi a ha => h.progOff.buildable hi ha]
  exact extractResults_drop hread s _ flags.unlimited flags.limited rfl

theorem Paired.noDuplicates (h : Paired s objective flags p p') (d : p.noDuplicateVariables = true) : p'.noDuplicateVariables = true :=
  noDuplicates_of_names fun _ hv _ hw he => names_of_noDuplicates d (h.vars_iff.1 hv).1 (h.vars_iff.1 hw).1 he

open Classical in
/-- C22: whatever is returned without `limit_charge_variables_to_valid_events` is also returned with it, and optimal results stay optimal. -/
theorem C22_without (hs : s.PlainEvs) (hf : 0 ≤ s.freqMins) (ho : objective.NoMaxMany) (h : Run s objective flags.unlimited S r V) :
    ∃ S', (S.Exact → S'.Exact) ∧ Run s objective flags.limited S' r V := by
  have hp := hs.plugs hf
  obtain ⟨p, σ, hr, prog, hfeas, hv, out⟩ := optimize_feasible h.sound h.constructed.wf h.returned h.feasible
  obtain ⟨p', hpair⟩ := (pair_of (flags := flags) prog.vars.nodup out.pos hp ho (fun i hi => prog.rows hi) fun i hi a ha => prog.buildable hi ha).1 _ _ hr.program
  have hst : (S p).status = "Optimal" := by
    have := hr.feasible
    rw [h.feasible] at this
    simpa using this.symm
  let S' : Solver := fun q => if q = p' then S p else S q
  have hS' : S' p' = S p := if_pos rfl
  have hne : ∀ q, q ≠ p' → S' q = S q := fun q hq => if_neg hq
  refine ⟨S', ?_, ?_, h.constructed, ?_, h.feasible, h.reads⟩
  · intro hex q hq
    by_cases hqp : q = p'
    · subst hqp
      obtain ⟨τ, hτ, hvτ⟩ := hex p hst
      rw [hS']
      exact ⟨τ, hpair.optimal_on hp hτ, fun v hv => hvτ v (hpair.vars_iff.1 hv).1⟩
    · rw [hne q hqp] at hq ⊢
      exact hex q hq
  · intro q hq
    by_cases hqp : q = p'
    · subst hqp
      rw [hS']
      exact ⟨σ, hpair.feasible_on hp hfeas, fun w hw => hv w (hpair.vars_iff.1 hw).1⟩
    · rw [hne q hqp] at hq ⊢
      exact h.sound q hq
  · rw [← h.returned]
    refine hpair.optimize_eq hp hfeas hst ?_ hv ?_ hr.noDuplicates (hpair.noDuplicates hr.noDuplicates)
    · rw [hS']; exact hst
    · intro v hv'
      rw [hS']
      exact hv v (hpair.vars_iff.1 hv').1

open Classical in
theorem with_core (hs : s.PlainEvs) (hf : 0 ≤ s.freqMins) (ho : objective.NoMaxMany)
    (hd : ∀ iv p, s.program objective flags.unlimited = .ok (iv, p) → p.noDuplicateVariables = true)
    (h : Run s objective flags.limited S r V) : ∃ S', (S.Exact → S'.Exact) ∧ Run s objective flags.unlimited S' r V := by
  have hp := hs.plugs hf
  obtain ⟨p', σ, hr, prog, hfeas, hv, out⟩ := optimize_feasible h.sound h.constructed.wf h.returned h.feasible
  obtain ⟨p, hpair⟩ := (pair_of (flags := flags) prog.vars.nodup out.pos hp ho (fun i hi => prog.rows hi) fun i hi a ha => prog.buildable hi ha).2 _ _ hr.program
  have hst : (S p').status = "Optimal" := by
    have := hr.feasible
    rw [h.feasible] at this
    simpa using this.symm
  have hdup := hd _ _ hpair.off
  let S' : Solver := fun q => if q = p then ⟨"Optimal", fun id => if s.Removed id then some 0 else (S p').value id⟩ else S q
  have hS' : S' p = ⟨"Optimal", fun id => if s.Removed id then some 0 else (S p').value id⟩ := if_pos rfl
  have hne : ∀ q, q ≠ p → S' q = S q := fun q hq => if_neg hq
  have hval : ∀ τ : Assign, (∀ v ∈ p'.vars, (S p').value v.id = some (τ v.id)) → ∀ v ∈ p.vars, (S' p).value v.id = some (Paired.zeroed s τ v.id) := by
    intro τ hτ v hv
    rw [hS']
    by_cases hg : s.Removed v.id
    · simp only [if_pos hg, Paired.zeroed_removed hg]
    · simp only [if_neg hg, Paired.zeroed_kept hg]
      exact hτ v (hpair.vars_iff.2 ⟨hv, hg⟩)
  refine ⟨S', ?_, ?_, h.constructed, ?_, h.feasible, h.reads⟩
  · intro hex q hq
    by_cases hqp : q = p
    · subst hqp
      obtain ⟨τ, hτ, hvτ⟩ := hex p' hst
      exact ⟨_, hpair.optimal_off hp hτ, hval τ hvτ⟩
    · rw [hne q hqp] at hq ⊢
      exact hex q hq
  · intro q hq
    by_cases hqp : q = p
    · subst hqp
      exact ⟨_, hpair.feasible_off hp hfeas, hval σ hv⟩
    · rw [hne q hqp] at hq ⊢
      exact h.sound q hq
  · rw [← h.returned]
    refine (hpair.optimize_eq hp (hpair.feasible_off hp hfeas) ?_ hst (hval σ hv) ?_ hdup hr.noDuplicates).symm
    · rw [hS']
    · intro v hv'
      rw [Paired.zeroed_kept (hpair.vars_iff.1 hv').2]
      exact hv v hv'

/-- C22: whatever is returned with `limit_charge_variables_to_valid_events` is also returned without it, and optimal results stay optimal; only the check for
duplicate variable names sees the additional variables. -/
theorem C22_with (hs : s.PlainEvs) (hf : 0 ≤ s.freqMins) (ho : objective.NoMaxMany)
    (hd : ∀ S, s.optimize objective flags.unlimited S ≠ .error (.assertion "duplicate variables detected"))
    (h : Run s objective flags.limited S r V) : ∃ S', (S.Exact → S'.Exact) ∧ Run s objective flags.unlimited S' r V := by
  refine with_core hs hf ho (fun iv p hprog => ?_) h
  by_contra hc
  apply hd S
  rw [Bool.not_eq_true] at hc
  unfold Site.optimize
  rw [hprog]
  simp only [ok_bind, Prob.solve, hc]
  rfl

/-- C22 in terms of the inputs: with clear names and an objective without min and max terms no two variables have the same name. -/
theorem C22_with_names (hs : s.PlainEvs) (hf : 0 ≤ s.freqMins) (ho : objective.NoExtremes) (hc : s.ClearNames) (hw : ∀ a ∈ s.assets, a.WellNamed)
    (h : Run s objective flags.limited S r V) : ∃ S', (S.Exact → S'.Exact) ∧ Run s objective flags.unlimited S' r V := by
  have ho' : objective.NoMaxMany := by
    cases objective with
    | str _ => trivial
    | custom terms =>
      intro v M c k hm
      obtain ⟨x, hx⟩ := ho _ hm
      cases hx
    | dict terms =>
      intro v M c k hm
      obtain ⟨x, hx⟩ := ho _ hm
      cases hx
  exact with_core hs hf ho' (fun iv p hprog => noDuplicates_of_names fun _ hv _ hw' he =>
    names_distinct hc hw (prog_vars_simple ho hprog hv) (prog_vars_simple ho hprog hw') he) h

/-- C22: the optimal value of the objective is the same with and without the flag. -/
theorem C22_objective (hs : s.PlainEvs) (hf : 0 ≤ s.freqMins) (ho : objective.NoMaxMany) (hS : S.Exact) (hS' : S'.Exact)
    (h : Run s objective flags.unlimited S r V) (h' : Run s objective flags.limited S' r' V') : r.status.objective = r'.status.objective := by
  have hp := hs.plugs hf
  obtain ⟨p, σ, hr, prog, -, -, out⟩ := optimize_feasible h.sound h.constructed.wf h.returned h.feasible
  obtain ⟨p', hpair⟩ := (pair_of (flags := flags) prog.vars.nodup out.pos hp ho (fun i hi => prog.rows hi) fun i hi a ha => prog.buildable hi ha).1 _ _ hr.program
  obtain ⟨q, -, hr', -⟩ := optimize_feasible h'.sound h'.constructed.wf h'.returned h'.feasible
  have hq : q = p' := by
    have := hr'.program
    rw [hpair.on] at this
    cases this
    rfl
  subst hq
  have st : (S p).status = "Optimal" := by
    have := hr.feasible
    rw [h.feasible] at this
    simpa using this.symm
  have st' : (S' q).status = "Optimal" := by
    have := hr'.feasible
    rw [h'.feasible] at this
    simpa using this.symm
  obtain ⟨σ, o1, v1⟩ := hS p st
  obtain ⟨τ, o2, v2⟩ := hS' q st'
  rw [hr.objective, hr'.objective, value_known (σ := σ) fun v hv => valuesOf_known v1 (prob_vars_iff.2 (.inr hv)),
    value_known (σ := τ) fun v hv => valuesOf_known v2 (prob_vars_iff.2 (.inr hv))]
  congr 1
  apply le_antisymm
  · rw [← hpair.obj_off (σ := τ)]
    exact o1.2 _ (hpair.feasible_off hp o2.1)
  · rw [← hpair.obj_on hp o1.1]
    exact o2.2 _ (hpair.feasible_on hp o1.1)

/-- C22: with the flag there is a feasible answer exactly if there is one without it. -/
theorem C22_feasible (hs : s.PlainEvs) (hf : 0 ≤ s.freqMins) (hn : 0 < s.data.n) (ho : objective.NoMaxMany) :
    (∃ p σ, Answer s objective flags.unlimited p σ) ↔ ∃ p σ, Answer s objective flags.limited p σ := by
  have hp := hs.plugs hf
  constructor
  · rintro ⟨p, σ, ⟨iv, hprog⟩, hfeas⟩
    have prog := program_spec hprog
    obtain ⟨p', hpair⟩ := (pair_of (flags := flags) prog.vars.nodup hn hp ho (fun i hi => prog.rows hi) fun i hi a ha => prog.buildable hi ha).1 _ _ hprog
    exact ⟨p', σ, ⟨_, hpair.on⟩, hpair.feasible_on hp hfeas⟩
  · rintro ⟨p, σ, ⟨iv, hprog⟩, hfeas⟩
    have prog := program_spec hprog
    obtain ⟨p', hpair⟩ := (pair_of (flags := flags) prog.vars.nodup hn hp ho (fun i hi => prog.rows hi) fun i hi a ha => prog.buildable hi ha).2 _ _ hprog
    exact ⟨p', _, ⟨_, hpair.off⟩, hpair.feasible_off hp hfeas⟩

end

/-- The hypotheses are met by a site with a vehicle that is plugged in and one that is not: an optimal result without the flag is an optimal result with it,
and back. -/
example : ∃ s r V S S' S'', s.PlainEvs ∧ 0 ≤ s.freqMins ∧ s.ClearNames ∧ (∀ a ∈ s.assets, a.WellNamed) ∧ s.data.n = 1 ∧ s.assets = [.evs demoLimitCfg] ∧
    S.Exact ∧ S'.Exact ∧ S''.Exact ∧ r.status.objective = some 40 ∧
    Run s (.str "price") (Flags.unlimited {}) S r V ∧ Run s (.str "price") (Flags.limited {}) S' r V ∧
    Run s (.str "price") (Flags.unlimited {}) S'' r V := by
  obtain ⟨s, r, V, S, hs, hS, h, ht⟩ := Demo.runOptimal demoLimit_test
  simp only [Bool.and_eq_true, decide_eq_true_eq] at ht
  obtain ⟨⟨h1, h2⟩, h3⟩ := ht
  have n := site_new hs
  have hcu : s.data.custom = [] := by simpa [customData, demoLimit, eq_comm] using n.custom
  have hev : s.PlainEvs := by
    intro c hc
    rw [h1, List.mem_singleton] at hc
    cases hc
    refine ⟨demoLimitArgs, demoLimitCfg_new, ?_, ?_⟩ <;> decide +kernel
  have hf : 0 ≤ s.freqMins := by
    rw [n.freq]
    decide +kernel
  have hc : s.ClearNames := by
    refine ⟨?_, ?_, ?_, ?_, ?_, ?_⟩
    · rw [h1]; decide +kernel
    · rw [h1]; decide +kernel
    · rw [h1]; decide +kernel
    · intro c hc
      rw [h1, List.mem_singleton] at hc
      cases hc
      rw [h1]; decide +kernel
    · rw [hcu]; simp
    · rw [hcu]; simp
  have hw : ∀ a ∈ s.assets, a.WellNamed := by
    rw [h1]
    decide +kernel
  obtain ⟨S', hS', h'⟩ := C22_without (flags := {}) (objective := .str "price") hev hf trivial h
  obtain ⟨S'', hS'', h''⟩ := C22_with_names (flags := {}) (objective := .str "price") hev hf trivial hc hw h'
  exact ⟨s, r, V, S, S', S'', hev, hf, hc, hw, h2, h1, hS, hS' hS, hS'' (hS' hS), h3, h, h', h''⟩

end EPL
