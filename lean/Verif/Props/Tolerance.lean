/-
C97: a relative tolerance of the solver carries over to the dispatch.
-/
import Verif.Spec.Tolerance
import Verif.Props.DispatchCustom

namespace EPL

/-- C97: a solver with tolerance zero is an exact solver. -/
theorem C97_exact {S : Solver} : S.Within 0 ↔ S.Exact := by
  constructor
  · intro h p hp
    obtain ⟨σ, hf, hle, hv⟩ := h p hp
    exact ⟨σ, ⟨hf, fun τ hτ => by simpa using hle τ hτ⟩, hv⟩
  · intro h p hp
    obtain ⟨σ, ho, hv⟩ := h p hp
    exact ⟨σ, ho.1, fun τ hτ => by simpa using ho.2 τ hτ, hv⟩

section
variable {s : Site} {objective : Objective} {flags : Flags} {S S' : Solver} {r r' : SimResult} {V V' W : String → Nat → ℚ} {p : Prob} {σ : Assign} {ts : List Term}
  {g : ℚ}

/-- The reported values are within the tolerance of every feasible assignment. -/
theorem core_near (h : Core s objective flags S r V p σ) (hS : S.Within g) {τ : Assign} (hτ : p.Feasible τ) :
    p.obj.eval σ ≤ p.obj.eval τ + g * max |p.obj.eval σ| |p.obj.eval τ| := by
  obtain ⟨ρ, -, hle, hv⟩ := hS p h.status
  have e : p.obj.eval ρ = p.obj.eval σ := Expr.eval_congr fun v hvm => by
    have := (hv v (prob_vars_iff.2 (.inr hvm))).symm.trans (h.values v (prob_vars_iff.2 (.inr hvm)))
    simpa using this
  rw [← e]
  exact hle τ hτ

/-- C97: no valid dispatch that respects the custom constraints is cheaper than the result by more than the tolerance. -/
theorem C97_price (h : Run s (.str "price") flags S r V) (hS : S.Within g) (hw : ∀ a ∈ s.assets, a.WellNamed) (hr : ∀ c ∈ s.constraints, c.Readable)
    (he : s.PlainEvs) (hf : 0 ≤ s.freqMins) (hW : s.Dispatch flags W) (hob : s.Obeys W) :
    s.readCost V + spillPenalty * s.readSpill V ≤ s.readCost W + spillPenalty * s.readSpill W +
      g * max |s.readCost V + spillPenalty * s.readSpill V| |s.readCost W + spillPenalty * s.readSpill W| := by
  rcases Nat.eq_zero_or_pos s.data.n with hn | hn
  · simp [Site.readCost, Site.readSpill, sumIntervals_zero hn]
  obtain ⟨p, σ, hco⟩ := h.core
  have hv := C40_results h hw
  rw [objective_value hco, Option.some.injEq] at hv
  obtain ⟨τ, hτ, h1, -, h3⟩ := dispatch_answer hco.program hn (he.plugs hf) hr hW hob
  rw [← hv, ← h1, ← h3, ← C40_price hco.program]
  exact core_near hco hS hτ

/-- C97: the same for emissions. -/
theorem C97_carbon (h : Run s (.str "carbon") flags S r V) (hS : S.Within g) (hw : ∀ a ∈ s.assets, a.WellNamed) (hr : ∀ c ∈ s.constraints, c.Readable)
    (he : s.PlainEvs) (hf : 0 ≤ s.freqMins) (hW : s.Dispatch flags W) (hob : s.Obeys W) :
    s.readEmissions V + spillPenalty * s.readSpill V ≤ s.readEmissions W + spillPenalty * s.readSpill W +
      g * max |s.readEmissions V + spillPenalty * s.readSpill V| |s.readEmissions W + spillPenalty * s.readSpill W| := by
  rcases Nat.eq_zero_or_pos s.data.n with hn | hn
  · simp [Site.readEmissions, Site.readSpill, sumIntervals_zero hn]
  obtain ⟨p, σ, hco⟩ := h.core
  have hv := C41_results h hw
  rw [objective_value hco, Option.some.injEq] at hv
  obtain ⟨τ, hτ, -, h1, h3⟩ := dispatch_answer hco.program hn (he.plugs hf) hr hW hob
  rw [← hv, ← h1, ← h3, ← C41_carbon hco.program]
  exact core_near hco hS hτ

/-- C97: the same for a custom objective of simple terms. -/
theorem C97_custom (h : Run s (.custom (ts.map .simple)) flags S r V) (hS : S.Within g) (hw : ∀ a ∈ s.assets, a.WellNamed)
    (hr : ∀ c ∈ s.constraints, c.Readable) (ht : ∀ t ∈ ts, t.attr ∈ readable) (he : s.PlainEvs) (hf : 0 ≤ s.freqMins) (hW : s.Dispatch flags W)
    (hob : s.Obeys W) : s.readTerms V ts ≤ s.readTerms W ts + g * max |s.readTerms V ts| |s.readTerms W ts| := by
  rcases Nat.eq_zero_or_pos s.data.n with hn | hn
  · simp [Site.readTerms, sumIntervals_zero hn]
  obtain ⟨p, σ, hco⟩ := h.core
  have hv := C42_results h hw ht
  rw [objective_value hco, Option.some.injEq] at hv
  obtain ⟨τ, hτ, h1, -⟩ := dispatch_custom hco.program hn (he.plugs hf) hr ht hW hob
  unfold Site.readTerms
  rw [← hv, ← h1]
  exact core_near hco hS hτ

/-- C97: for every objective, the value found with a tolerance is at least the optimum and within the tolerance of it. -/
theorem C97_gap (h : Run s objective flags S r V) (hS : S.Within g) (h' : Run s objective flags S' r' V') (hS' : S'.Exact) :
    ∃ q best, r.status.objective = some q ∧ r'.status.objective = some best ∧ best ≤ q ∧ q ≤ best + g * max |q| |best| := by
  obtain ⟨p, σ, hco⟩ := h.core
  obtain ⟨p', σ', hco'⟩ := h'.core
  have e : p = p' := (Prod.mk.inj (Except.ok.inj (hco.program.symm.trans hco'.program))).2
  subst e
  exact ⟨_, _, objective_value hco, objective_value hco', (core_optimal hco' hS' h'.feasible).2 σ hco.feas, core_near hco hS hco'.feas⟩

end

/-! ### A concrete case -/

set_option maxRecDepth 10000 in
theorem demoLazy_test : demoLazy.testNear (growLam 4) (growMu 4) 190 (2/3)
    (marginTest [.battery (growBattery 4)] (twoData [10, 100] [1/10, 1]) 10000 10000 550 idleCells) = true := by
  decide +kernel

/-- C97: a solver with a tolerance of 2/3 leaves the battery alone for 550; the optimum is 190. -/
example : ∃ (s : Site) (S S' : Solver) (r r' : SimResult) (V V' : String → Nat → ℚ), Run s (.str "price") {} S r V ∧ S.Within (2/3) ∧
    Run s (.str "price") {} S' r' V' ∧ S'.Exact ∧ (∀ a ∈ s.assets, a.WellNamed) ∧ (∀ c ∈ s.constraints, c.Readable) ∧ s.PlainEvs ∧ 0 ≤ s.freqMins ∧
    s.Dispatch {} V' ∧ s.Obeys V' ∧ r.status.objective = some 550 ∧ r'.status.objective = some 190 := by
  obtain ⟨s, r, V, S, hs, hS, h, ht⟩ := Demo.runNear (by norm_num) demoLazy_test
  obtain ⟨t, r', V', S', hs', hS', h', ht'⟩ := Demo.runOptimal demoMoved_price
  have d := marginDemo h ht
  have d' := marginDemo h' ht'
  have e : s = t := Except.ok.inj (hs.symm.trans hs')
  subst e
  have hw : ∀ a ∈ s.assets, a.WellNamed := by rw [d.assets]; decide +kernel
  have hf : 0 ≤ s.freqMins := by rw [d.freq]; norm_num
  have hg : s.ChpsConvert := by intro c hc; rw [d.assets] at hc; simp at hc
  exact ⟨s, S, S', r, r', V, V', h, hS, h', hS', hw, readable_nil d.constraints, by intro c hc; rw [d.assets] at hc; simp at hc, hf,
    C81_valid h' hw (by intro c hc; rw [d.assets] at hc; simp at hc) hf hg, obeys_nil d.constraints, d.objective, d'.objective⟩

end EPL
