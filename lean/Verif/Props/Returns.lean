/-
C25: the checks on the results never reject an exact answer of the program.
-/
import Verif.Proofs.Checks
import Verif.Proofs.ColumnNames
import Verif.Props.History
import Verif.Props.Feasible

namespace EPL

section
variable {s : Site} {objective : Objective} {flags : Flags} {S : Solver} {p : Prob} {σ : Assign} {iv : IVars}

theorem noDuplicates_of_names (h : ∀ v ∈ p.vars, ∀ w ∈ p.vars, v.id.solverName = w.id.solverName → v.id = w.id) :
    p.noDuplicateVariables = true := by
  unfold Prob.noDuplicateVariables noDup
  rw [decide_eq_true_eq]
  apply List.Nodup.map_on _ (List.nodup_dedup _)
  intro x hx y hy he
  obtain ⟨v, hv, rfl⟩ := List.mem_map.1 (List.mem_dedup.1 hx)
  obtain ⟨w, hw, rfl⟩ := List.mem_map.1 (List.mem_dedup.1 hy)
  exact h v hv w hw he

/-- C25: `optimize` returns a feasible result whenever the solver's answer satisfies the program exactly, and the only error left is the one a user asks for
with `fail_on_spill_asset_use`. -/
theorem C25_returns (hs : s.Constructed) (hn : 0 < s.data.n) (hw : ∀ a ∈ s.assets, a.WellNamed) (hp : s.PlainNames) (hx : s.Checkable)
    (hprog : s.program objective flags = .ok (iv, p))
    (hnames : ∀ v ∈ p.vars, ∀ w ∈ p.vars, v.id.solverName = w.id.solverName → v.id = w.id)
    (hst : (S p).status = "Optimal") (hf : p.Feasible σ) (hv : ∀ v ∈ p.vars, (S p).value v.id = some (σ v.id)) :
    (∃ r, s.optimize objective flags S = .ok r ∧ r.feasible = true) ∨
      (flags.failOnSpill = true ∧ s.optimize objective flags S = .error (.value "Spill Occurred!")) := by
  have prog := program_spec hprog
  have hiv := prog.iv_eq
  subst hiv
  obtain ⟨t, ht, hlen⟩ := extract_exists hv hs.wf prog hn hw hx
  obtain ⟨-, hr⟩ := extractTable_rows (agree_of_values hv) prog.vars (fun i hi a ha => prog.buildable hi ha) hs.wf ht hlen
  have hlook : ∀ k ∈ s.keys, ∃ col, t.lookup k = some col := by
    intro k hk
    rw [← Option.isSome_iff_exists, lookup_isSome_iff]
    exact hr.colsPerm.mem_iff.2 hk
  obtain ⟨imp, himp⟩ := hlook "site-import_power_mwh" (by simp [Site.keys])
  obtain ⟨exp, hexp⟩ := hlook "site-export_power_mwh" (by simp [Site.keys])
  obtain ⟨t', ht'⟩ := addTotals_exists (n := s.data.n) himp hexp
  have ho := outcome_of_rows hr (addTotals_spec ht')
  obtain ⟨V, hV⟩ := exists_reads ho.lengths ho.colsNodup
  have hkeys : ∀ i < s.data.n, (s.row flags σ i).map Prod.fst = s.keys := fun i hi => row_keys (fun a ha => prog.buildable hi ha)
  let st : Status := ⟨"Optimal", true, p.obj.value (p.valuesOf (S p))⟩
  let r0 : SimResult := ⟨t', true, false, st⟩
  have core : Core s objective flags S r0 V p σ := by
    refine ⟨prog, hprog, hf, hst, rfl, ho, hv, ?_, hkeys⟩
    intro i hi c hc hk
    have h1 := ho.cell i hi c hc hk
    have hm : c.1 ∈ t'.columns := (ho.columns c.1).2 (.inl (by
      rw [← hkeys i hi]; exact List.mem_map_of_mem hc))
    rw [hV _ hm i hi] at h1
    simpa using h1
  have hobj : (p.obj.value (p.valuesOf (S p))).isSome = true := by
    have : p.obj.value (p.valuesOf (S p)) = _ := objective_value core
    rw [this]; rfl
  have hsol : p.solve S flags.allowInfeasible = .ok (st, p.valuesOf (S p)) := by
    unfold Prob.solve
    rw [noDuplicates_of_names hnames, pyAssert_true, ok_bind]
    have e : ("Optimal" == "Optimal") = true := by decide
    simp only [hst, e, hobj, pyAssert_true, ok_bind, ite_self]
    rfl
  have hsch : validateSchema t' = .ok () := validateSchema_ok core hV hw hp hx
  have hchk : checkResults t' (s.assets.any Asset.isValve) = .ok () := checkResults_ok core hV hw hp hx
  have hopt : s.optimize objective flags S = (warnSpills t' flags >>= fun sp => .ok ⟨t', true, sp, st⟩) := by
    unfold Site.optimize
    rw [hprog, ok_bind]
    simp only [hsol, ok_bind, extractResults, ht, hlen, ht', hsch, hchk, st, if_true]
  rw [hopt]
  unfold warnSpills
  dsimp only
  split
  · rename_i h
    right
    rw [Bool.and_eq_true] at h
    exact ⟨h.2, rfl⟩
  · left
    exact ⟨_, rfl, rfl⟩

/-- C25, in terms of the inputs alone: with names that cannot be mistaken for one another, an objective without min and max terms, and sensible numbers,
every exact answer of the solver is returned as a feasible result. -/
theorem C25_inputs (hs : s.Constructed) (hn : 0 < s.data.n) (hw : ∀ a ∈ s.assets, a.WellNamed) (hp : s.PlainNames) (hc : s.ClearNames)
    (hx : s.Sensible) (ho : objective.NoExtremes) (hprog : s.program objective flags = .ok (iv, p)) (hst : (S p).status = "Optimal")
    (hf : p.Feasible σ) (hv : ∀ v ∈ p.vars, (S p).value v.id = some (σ v.id)) :
    (∃ r, s.optimize objective flags S = .ok r ∧ r.feasible = true) ∨
      (flags.failOnSpill = true ∧ s.optimize objective flags S = .error (.value "Spill Occurred!")) :=
  C25_returns hs hn hw hp { hx with columns := columns_distinct hc } hprog
    (fun _ hv _ hw' he => names_distinct hc hw (prog_vars_simple ho hprog hv) (prog_vars_simple ho hprog hw') he) hst hf hv

/-- C57: a site with a spill asset and a valve whose other assets can rest always comes back with a feasible result, from every solver that answers
feasible programs with a feasible point. -/
theorem C57_returns {name : String} {sp : SpillCfg} {va : ValveCfg} (hs : s.Constructed) (hn : 0 < s.data.n) (hw : ∀ a ∈ s.assets, a.WellNamed)
    (hp : s.PlainNames) (hc : s.ClearNames) (hx : s.Sensible) (hcon : s.constraints = []) (hil : 0 ≤ s.importLimit) (hel : 0 ≤ s.exportLimit)
    (hsp : Asset.spill sp ∈ s.assets) (hva : Asset.valve va ∈ s.assets) (hr : ∀ a ∈ s.assets, a.CanRest s.freq s.data.n)
    (hname : name = "price" ∨ name = "carbon") (hS : S.Sound) (hst : ∀ p, (∃ σ, p.Feasible σ) → (S p).status = "Optimal")
    (hfail : flags.failOnSpill = false) : ∃ r, s.optimize (.str name) flags S = .ok r ∧ r.feasible = true := by
  have hnd : (s.assets.map Asset.name).Nodup := List.pairwise_map.2 (clear_nodup hc)
  have lim : ∀ x, 0 ≤ x → 0 ≤ s.mwh x := fun x h => div_nonneg (mul_nonneg h hx.freq) (by norm_num)
  obtain ⟨p, σ, ⟨⟨iv, hprog⟩, hf⟩, -⟩ := C57_feasible (flags := flags) hs hnd hn hcon (lim _ hil) (lim _ hel) hsp hva hr hname
  obtain ⟨τ, hτ, hv⟩ := hS p (hst p ⟨σ, hf⟩)
  rcases C25_inputs hs hn hw hp hc hx (objective := .str name) trivial hprog (hst p ⟨σ, hf⟩) hτ hv with h | ⟨h, -⟩
  · exact h
  · rw [hfail] at h; simp at h

end

/-- A site with a CHP, a boiler, a heat pump, a solar plant, a spill and a valve, and a solver answer: C25 applies, in both forms. -/
example : ∃ (s : Site) (S : Solver) (p : Prob) (σ : Assign) (iv : IVars), s.Constructed ∧ 0 < s.data.n ∧ (∀ a ∈ s.assets, a.WellNamed) ∧
    s.PlainNames ∧ s.Checkable ∧ s.program (.str "price") {} = .ok (iv, p) ∧
    (∀ v ∈ p.vars, ∀ w ∈ p.vars, v.id.solverName = w.id.solverName → v.id = w.id) ∧ (S p).status = "Optimal" ∧ p.Feasible σ ∧
    (∀ v ∈ p.vars, (S p).value v.id = some (σ v.id)) ∧ s.assets = demoHeat.assets ∧
    s.ClearNames ∧ (Objective.str "price").NoExtremes := by
  obtain ⟨s, r, V, hs, h, ht⟩ := Demo.run demoHeat_test
  simp only [Bool.and_eq_true, decide_eq_true_eq] at ht
  obtain ⟨⟨h1, h2⟩, -⟩ := ht
  obtain ⟨p, σ, core⟩ := h.core
  have n := site_new hs
  have hcu : s.data.custom = [] := by simpa [customData, demoHeat, eq_comm] using n.custom
  have hd : s.data.electricLoad = [7] ∧ s.data.htLoad = [5] ∧ s.data.ltLoad = [4] ∧ s.data.ltGeneration = [0] := by
    have hv := n.data
    rw [h2] at hv
    have e : validateSiteData demoHeat.raw = .ok ⟨1, [some 10], [some 10], [some (1/10)], [some 20], [some 7], [some 5], [some 4], [some 0]⟩ := by
      decide +kernel
    rw [e] at hv
    simp only [Except.ok.injEq, SiteDataF.mk.injEq] at hv
    have inj : ∀ (l : List ℚ) (q : ℚ), [some q] = l.map some → l = [q] := by
      intro l q hl
      cases l with
      | nil => simp at hl
      | cons x l =>
        simp only [List.map_cons, List.cons.injEq, Option.some.injEq] at hl
        cases l with
        | nil => rw [hl.1]
        | cons y l => simp at hl
    exact ⟨inj _ _ hv.2.2.2.2.2.1, inj _ _ hv.2.2.2.2.2.2.1, inj _ _ hv.2.2.2.2.2.2.2.1, inj _ _ hv.2.2.2.2.2.2.2.2⟩
  refine ⟨s, _, p, σ, _, h.constructed, by omega, ?_, ⟨?_, ?_⟩, ⟨⟨?_, ?_, ?_, ?_, ?_⟩, ?_⟩, core.program, C51_distinct h.returned core.program,
    core.status, core.feas, core.values, h1, ⟨?_, ?_, ?_, ?_, ?_, ?_⟩, trivial⟩
  · rw [h1]; decide +kernel
  · rw [h1]; decide +kernel
  · rw [hcu]; simp
  · intro _; rw [h1]; exact ⟨defaultValve, by simp, rfl⟩
  · rintro ⟨c, hc⟩; rw [h1] at hc; simp at hc
  · rw [hd.1, hd.2.1, hd.2.2.1, hd.2.2.2]; decide +kernel
  · rw [n.freq]; decide +kernel
  · rw [h1]; decide +kernel
  · unfold Site.columnNames; rw [h1, hcu]; decide +kernel
  · rw [h1]; decide +kernel
  · rw [h1]; decide +kernel
  · rw [h1]; decide +kernel
  · intro c hc; rw [h1] at hc; simp [demoHeat] at hc
  · rw [hcu]; simp
  · rw [hcu]; simp

/-- A solver as C57 asks for exists. -/
example : ∃ S : Solver, S.Sound ∧ ∀ p, (∃ σ, p.Feasible σ) → (S p).status = "Optimal" := by
  classical
  refine ⟨fun p => if h : ∃ σ, p.Feasible σ then ⟨"Optimal", fun id => some (h.choose id)⟩ else ⟨"Infeasible", fun _ => none⟩, ?_, ?_⟩
  · intro p hp
    by_cases h : ∃ σ, p.Feasible σ
    · exact ⟨h.choose, h.choose_spec, fun v _ => by simp [h]⟩
    · simp [h] at hp
  · intro p h
    simp [h]

/-- The site of `demoSlack` (a boiler that must run, wind, a battery, a heat pump, a spill and a valve, without a grid connection): C57 applies. -/
example : ∃ (s : Site) (sp : SpillCfg) (va : ValveCfg), s.Constructed ∧ 0 < s.data.n ∧ (∀ a ∈ s.assets, a.WellNamed) ∧ s.PlainNames ∧ s.ClearNames ∧
    s.Sensible ∧ s.constraints = [] ∧ 0 ≤ s.importLimit ∧ 0 ≤ s.exportLimit ∧ Asset.spill sp ∈ s.assets ∧ Asset.valve va ∈ s.assets ∧
    (∀ a ∈ s.assets, a.CanRest s.freq s.data.n) := by
  have t : (demoSlack.site.toOption.map (fun s => (s.assets, s.data.n, s.data.custom.length, s.data.electricLoad ++ s.data.htLoad ++ s.data.ltLoad ++
      s.data.ltGeneration))) = some (demoSlack.assets, 2, 0, [1, 50, 0, 7, 9, 0, 0, 0]) := by decide +kernel
  cases hs : demoSlack.site with
  | error e => rw [hs] at t; simp [Except.toOption] at t
  | ok s =>
    rw [hs] at t
    simp only [Except.toOption, Option.map_some, Option.some.injEq, Prod.mk.injEq] at t
    obtain ⟨t1, t2, t3, t4⟩ := t
    rw [List.length_eq_zero_iff] at t3
    have n := site_new hs
    have e : s.freq = ⟨60⟩ := by simp [Site.freq, n.freq, demoSlack]
    refine ⟨s, ⟨"spill"⟩, ⟨"valve"⟩, ⟨_, _, _, _, _, _, _, hs⟩, ?_, ?_, ⟨?_, ?_⟩, ⟨?_, ?_, ?_, ?_, ?_, ?_⟩, ⟨?_, ?_, ?_, ?_, ?_⟩, n.constraints, ?_, ?_, ?_, ?_, ?_⟩
    · rw [t2]; decide
    · rw [t1]; decide +kernel
    · rw [t1]; decide +kernel
    · rw [t3]; simp
    · rw [t1]; decide +kernel
    · rw [t1]; decide +kernel
    · rw [t1]; decide +kernel
    · intro c hc; rw [t1] at hc; simp [demoSlack] at hc
    · rw [t3]; simp
    · rw [t3]; simp
    · intro _; rw [t1]; exact ⟨⟨"valve"⟩, by simp [demoSlack], rfl⟩
    · rintro ⟨c, hc⟩; rw [t1] at hc; simp [demoSlack] at hc
    · rw [t4]; decide +kernel
    · rw [n.freq]; decide +kernel
    · rw [t1]; decide +kernel
    · rw [n.importLimit]; simp [demoSlack]
    · rw [n.exportLimit]; simp [demoSlack]
    · rw [t1]; simp [demoSlack]
    · rw [t1]; simp [demoSlack]
    · rw [t1, t2, e]
      intro a ha
      simp only [demoSlack, List.mem_cons, List.not_mem_nil, or_false] at ha
      rcases ha with rfl | rfl | rfl | rfl | rfl | rfl <;> simp only [Asset.CanRest, Asset.CanIdle] <;> decide +kernel

end EPL
