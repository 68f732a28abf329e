/-
C80: letting the vehicles discharge (`allow_evs_discharge`) never makes the optimum worse.
-/
import Verif.Proofs.V2g
import Verif.Props.Limit
import Verif.Props.Growth
import Verif.Spec.DemoV2g

namespace EPL

section
variable {s : Site} {objective : Objective} {flags : Flags} {S S' : Solver} {r r' : SimResult} {V V' : String → Nat → ℚ} {p p' : Prob} {σ : Assign}

/-- C80: an answer without discharging is an answer if discharging is allowed, at the same objective value: the vehicles do not discharge and everything
else is as it was. -/
theorem C80_feasible (hs : s.PlainEvs) (hf : 0 ≤ s.freqMins) (hn : 0 < s.data.n) (ho : objective.NoMaxMany)
    (h : Answer s objective flags.grounded p σ) :
    ∃ p' σ', Answer s objective flags.toGrid p' σ' ∧ p'.obj.eval σ' = p.obj.eval σ ∧
      (∀ i n e c b, σ' (.evFlow "electric_discharge_mwh" i n e c b) = 0) ∧ ∀ v ∈ p.vars, σ' v.id = σ v.id := by
  obtain ⟨iv, hprog⟩ := h.program
  have prog := program_spec hprog
  have hp := hs.plugs hf
  obtain ⟨p', hpair⟩ := (V2g.pair_of (flags := flags) prog.vars.nodup hn hp ho (fun i hi => prog.rows hi) fun i hi a ha => prog.buildable hi ha).2 _ _ hprog
  refine ⟨p', _, ⟨⟨_, hpair.off⟩, hpair.feasible_off hp h.feasible⟩, hpair.obj_off, fun i n e c b => ?_, fun v hv => ?_⟩
  · exact V2g.Paired.zeroed_removed (.inl rfl)
  · exact V2g.Paired.zeroed_kept (hpair.vars_iff.1 hv).2

/-- C80: with discharging allowed the optimum is at most what is achieved without. -/
theorem C80_optimum (hs : s.PlainEvs) (hf : 0 ≤ s.freqMins) (ho : objective.NoMaxMany) (h : Run s objective flags.grounded S r V)
    (h' : Run s objective flags.toGrid S' r' V') (hS' : S'.Exact) :
    ∃ q q', r.status.objective = some q ∧ r'.status.objective = some q' ∧ q' ≤ q := by
  obtain ⟨p, σ, hco⟩ := h.core
  obtain ⟨p', σ', hco'⟩ := h'.core
  have hn : 0 < s.data.n := by
    obtain ⟨_, _, _, _, _, _, out⟩ := optimize_feasible h.sound h.constructed.wf h.returned h.feasible
    exact out.pos
  obtain ⟨p2, τ, ⟨⟨iv, hp2⟩, hf2⟩, he, -⟩ := C80_feasible hs hf hn ho ⟨⟨_, hco.program⟩, hco.feas⟩
  rw [hco'.program] at hp2
  cases hp2
  have hopt := core_optimal hco' hS' h'.feasible
  exact ⟨_, _, objective_value hco, objective_value hco', le_trans (hopt.2 τ hf2) (le_of_eq he)⟩

/-- C80: the cost read from the results, with the penalties, does not increase when the vehicles may discharge. -/
theorem C80_price (hs : s.PlainEvs) (hf : 0 ≤ s.freqMins) (h : Run s (.str "price") flags.grounded S r V)
    (h' : Run s (.str "price") flags.toGrid S' r' V') (hS' : S'.Exact) (hw : ∀ a ∈ s.assets, a.WellNamed) :
    s.readCost V' + spillPenalty * s.readSpill V' ≤ s.readCost V + spillPenalty * s.readSpill V := by
  obtain ⟨q, q', e, e', hle⟩ := C80_optimum (objective := .str _) hs hf trivial h h' hS'
  rw [C40_results h hw, Option.some.injEq] at e
  rw [C40_results h' hw, Option.some.injEq] at e'
  rw [e, e']
  exact hle

/-- C80: likewise the emissions. -/
theorem C80_carbon (hs : s.PlainEvs) (hf : 0 ≤ s.freqMins) (h : Run s (.str "carbon") flags.grounded S r V)
    (h' : Run s (.str "carbon") flags.toGrid S' r' V') (hS' : S'.Exact) (hw : ∀ a ∈ s.assets, a.WellNamed) :
    s.readEmissions V' + spillPenalty * s.readSpill V' ≤ s.readEmissions V + spillPenalty * s.readSpill V := by
  obtain ⟨q, q', e, e', hle⟩ := C80_optimum (objective := .str _) hs hf trivial h h' hS'
  rw [C41_results h hw, Option.some.injEq] at e
  rw [C41_results h' hw, Option.some.injEq] at e'
  rw [e, e']
  exact hle

end

/-- The hypotheses are met: a vehicle that stays for three intervals costs 20 without discharging and earns 160 with it. -/
example : ∃ s S S' r r' V V', s.PlainEvs ∧ 0 ≤ s.freqMins ∧ (∀ a ∈ s.assets, a.WellNamed) ∧ Run s (.str "price") (Flags.grounded {}) S r V ∧
    Run s (.str "price") (Flags.toGrid {}) S' r' V' ∧ S'.Exact ∧ r.status.objective = some 20 ∧ r'.status.objective = some (-160) := by
  obtain ⟨s, r, V, hs, h, ht⟩ := Demo.run demoGrounded_test
  obtain ⟨s', r', V', S', hs', hS', h', ht'⟩ := Demo.runOptimal demoToGrid_test
  simp only [Bool.and_eq_true, decide_eq_true_eq] at ht ht'
  obtain rfl : s = s' := Except.ok.inj (hs.symm.trans hs')
  obtain ⟨⟨h1, -⟩, h3⟩ := ht
  have n := site_new hs
  refine ⟨s, _, S', r, r', V, V', ?_, ?_, ?_, h, h', hS', h3, ht'.2⟩
  · intro c hc
    rw [h1, List.mem_singleton] at hc
    cases hc
    refine ⟨demoV2gArgs, demoV2gCfg_new, ?_, ?_⟩ <;> decide +kernel
  · rw [n.freq]
    decide +kernel
  · rw [h1]
    decide +kernel

end EPL
