/-
C54: spill is the last resort.
-/
import Verif.Props.Growth

namespace EPL

section
variable {s : Site} {flags : Flags} {S : Solver} {r : SimResult} {V : String → Nat → ℚ} {p : Prob} {σ τ : Assign}

/-- C54: at a price optimum the penalised energy, times 1e11, is at most what any spill-free answer costs more. -/
theorem C54_price (h : Answer s (.str "price") flags p σ) (hopt : p.Optimal σ) (hτ : Answer s (.str "price") flags p τ)
    (h0 : s.spillOf flags τ = 0) : spillPenalty * s.spillOf flags σ ≤ s.costOf τ - s.costOf σ := by
  obtain ⟨iv, hp⟩ := h.program
  have hle := hopt.2 τ hτ.feasible
  rw [C40_price hp, C40_price hp, h0] at hle
  linarith

/-- C54: likewise for emissions. -/
theorem C54_carbon (h : Answer s (.str "carbon") flags p σ) (hopt : p.Optimal σ) (hτ : Answer s (.str "carbon") flags p τ)
    (h0 : s.spillOf flags τ = 0) : spillPenalty * s.spillOf flags σ ≤ s.emissionsOf τ - s.emissionsOf σ := by
  obtain ⟨iv, hp⟩ := h.program
  have hle := hopt.2 τ hτ.feasible
  rw [C41_carbon hp, C41_carbon hp, h0] at hle
  linarith

/-- C54 from the results: with an exact solver, if a spill-free answer costs less than `d` more than the returned one (without its penalties), the
penalised energy in the results is less than `d / 1e11`. -/
theorem C54_results (h : Run s (.str "price") flags S r V) (hS : S.Exact) (hw : ∀ a ∈ s.assets, a.WellNamed) (hτ : Answer s (.str "price") flags p τ)
    (h0 : s.spillOf flags τ = 0) {d : ℚ} (hd : s.costOf τ - s.readCost V < d) : s.readSpill V < d / spillPenalty := by
  obtain ⟨q, σ, hco⟩ := h.core
  obtain ⟨iv, hp⟩ := hτ.program
  have hpq := hco.program
  rw [hp] at hpq
  cases hpq
  have hopt := core_optimal hco hS h.feasible
  have hle := hopt.2 τ hτ.feasible
  have e : some (p.obj.eval σ) = some (s.readCost V + spillPenalty * s.readSpill V) := by rw [← objective_value hco, C40_results h hw]
  rw [Option.some.inj e, C40_price hp, h0] at hle
  have hpos : (0 : ℚ) < spillPenalty := by unfold spillPenalty; norm_num
  rw [lt_div_iff₀ hpos]
  linarith

/-- C54: a spill-free optimum is the cheapest among the spill-free answers. -/
theorem C54_cheapest (h : Run s (.str "price") flags S r V) (hS : S.Exact) (hw : ∀ a ∈ s.assets, a.WellNamed) (hτ : Answer s (.str "price") flags p τ)
    (h0 : s.spillOf flags τ = 0) (hv : s.readSpill V = 0) : s.readCost V ≤ s.costOf τ := by
  by_contra hlt
  push Not at hlt
  have := C54_results h hS hw hτ h0 (d := 0) (by linarith)
  rw [hv] at this
  simp at this

end

/-! ### The hypotheses are met -/

/-- C54: a site with a spill asset that imports its load at the optimum; the answer itself is spill-free. -/
example : ∃ s S r V p τ, Run s (.str "price") {} S r V ∧ S.Exact ∧ (∀ a ∈ s.assets, a.WellNamed) ∧ Answer s (.str "price") {} p τ ∧
    s.assets = [.spill ⟨"spill"⟩] ∧ s.spillOf {} τ = 0 ∧ s.costOf τ - s.readCost V < 1 := by
  obtain ⟨s, r, V, S, hs, hS, h, ht⟩ := Demo.runOptimal demoIdleSpill_test
  simp only [Bool.and_eq_true, decide_eq_true_eq] at ht
  have hw : ∀ a ∈ s.assets, a.WellNamed := by rw [ht.1.1.1]; simp [Asset.WellNamed]; decide +kernel
  have ha := demoIdleSpill_answer
  rw [hs] at ha
  obtain ⟨p, σ, hco⟩ := h.core
  simp only [Except.bind] at ha
  have hp := hco.program
  have ho : demoIdleSpill.objective = .str "price" := rfl
  have hf : demoIdleSpill.flags = {} := rfl
  rw [ho, hf] at hp h
  rw [hp] at ha
  simp only [Except.map, Except.ok.injEq, Bool.and_eq_true, decide_eq_true_eq] at ha
  have hr := C40_results h hw
  rw [ht.1.2, Option.some.injEq] at hr
  have hsp : s.readSpill V = 0 := by
    have hc := List.all_eq_true.1 ht.2
    have hk : ∀ k ∈ ["spill-electric_generation_mwh", "spill-electric_load_mwh", "spill-high_temperature_generation_mwh"], V k 0 = 0 := by
      intro k hk
      have := hc k hk
      simp only [Bool.and_eq_true, decide_eq_true_eq] at this
      have hv := h.reads k this.1 0 (by rw [ht.1.1.2]; omega)
      rw [this.2] at hv
      exact (Option.some.inj hv).symm
    unfold Site.readSpill Site.sumIntervals
    rw [ht.1.1.2, ht.1.1.1]
    have k1 := hk "spill-electric_generation_mwh" (by simp)
    have k2 := hk "spill-electric_load_mwh" (by simp)
    have k3 := hk "spill-high_temperature_generation_mwh" (by simp)
    simp [Asset.penalised, rowSum, k1, k2, k3]
  refine ⟨s, S, r, V, p, tab demoIdleSpill.answer, h, hS, hw, ⟨⟨_, hp⟩, ha.1.1⟩, ht.1.1.1, ha.1.2, ?_⟩
  rw [ha.2]
  rw [hsp] at hr
  linarith

end EPL
