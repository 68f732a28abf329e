/-
C81 for custom objectives, and what it says of the custom price objective (C43).
-/
import Verif.Proofs.DispatchCustom
import Verif.Props.Dispatch
import Verif.Props.Weights
import Verif.Spec.DemoMargin

namespace EPL

section
variable {s : Site} {flags : Flags} {S S' : Solver} {r r' : SimResult} {V V' W : String → Nat → ℚ} {ts : List Term}

/-- C81: no valid dispatch that respects the custom constraints has a lower custom objective of simple terms than the result of an exact solver. -/
theorem C81_custom (h : Run s (.custom (ts.map .simple)) flags S r V) (hS : S.Exact) (hw : ∀ a ∈ s.assets, a.WellNamed)
    (hr : ∀ c ∈ s.constraints, c.Readable) (ht : ∀ t ∈ ts, t.attr ∈ readable) (he : s.PlainEvs) (hf : 0 ≤ s.freqMins) (hW : s.Dispatch flags W)
    (hob : s.Obeys W) : s.readTerms V ts ≤ s.readTerms W ts := by
  rcases Nat.eq_zero_or_pos s.data.n with hn | hn
  · simp only [Site.readTerms, sumIntervals_zero hn, le_refl]
  obtain ⟨p, σ, hco⟩ := h.core
  have hv := C42_results h hw ht
  rw [objective_value hco, Option.some.injEq] at hv
  obtain ⟨τ, hτ, h1, -⟩ := dispatch_custom hco.program hn (he.plugs hf) hr ht hW hob
  unfold Site.readTerms
  rw [← hv, ← h1]
  exact (core_optimal hco hS h.feasible).2 τ hτ

/-- C81: the objective value of an exact solver for a custom objective of simple terms is the least value of these terms over all valid dispatches that respect
the custom constraints. -/
theorem C81_custom_optimum (h : Run s (.custom (ts.map .simple)) flags S r V) (hS : S.Exact) (hw : ∀ a ∈ s.assets, a.WellNamed)
    (hr : ∀ c ∈ s.constraints, c.Readable) (ht : ∀ t ∈ ts, t.attr ∈ readable) (hn : 0 < s.data.n) (he : s.PlainEvs) (hf : 0 ≤ s.freqMins)
    (hg : s.ChpsConvert) : ∃ q, r.status.objective = some q ∧ IsLeast {x | ∃ W, s.Dispatch flags W ∧ s.Obeys W ∧ s.readTerms W ts = x} q := by
  refine ⟨_, C42_results h hw ht, ⟨V, C81_valid h hw (fun c hc => ?_) hf hg, C81_obeys h hw hr hn, rfl⟩, ?_⟩
  · obtain ⟨a, ha, -⟩ := he c hc
    exact ⟨a, ha⟩
  · rintro x ⟨W, hW, hob, rfl⟩
    exact C81_custom h hS hw hr ht he hf hW hob

/-- C43: an exact solver finds the same optimum for the custom price objective and for "price", and each result is as good for the other objective. -/
theorem C43_optimum (h : Run s (.custom (priceObjectiveTerms.map .simple)) flags S r V) (hS : S.Exact) (h' : Run s (.str "price") flags S' r' V')
    (hS' : S'.Exact) (hw : ∀ a ∈ s.assets, a.WellNamed) (hr : ∀ c ∈ s.constraints, c.Readable) (hn : 0 < s.data.n) (he : s.PlainEvs)
    (hf : 0 ≤ s.freqMins) (hg : s.ChpsConvert) :
    ∃ q, r.status.objective = some q ∧ r'.status.objective = some q ∧ s.readCost V + spillPenalty * s.readSpill V = q ∧ s.readTerms V' priceObjectiveTerms = q := by
  have ht : ∀ t ∈ priceObjectiveTerms, t.attr ∈ readable := by decide +kernel
  have hm : ∀ c, Asset.evs c ∈ s.assets → ∃ a : EvArgs, a.make = .ok c := fun c hc => by
    obtain ⟨a, ha, -⟩ := he c hc
    exact ⟨a, ha⟩
  obtain ⟨p, σ, hco⟩ := h.core
  obtain ⟨p', σ', hco'⟩ := h'.core
  have d := C81_valid h hw hm hf hg
  have d' := C81_valid h' hw hm hf hg
  have o := C81_obeys h hw hr hn
  have o' := C81_obeys h' hw hr hn
  have same : ∀ {W}, s.Dispatch flags W → s.Obeys W → s.readTerms W priceObjectiveTerms = s.readCost W + spillPenalty * s.readSpill W := by
    intro W hW hob
    obtain ⟨τ, -, h1, h2, -, h3⟩ := dispatch_custom hco.program hn (he.plugs hf) hr ht hW hob
    unfold Site.readTerms
    rw [← h1, C43_same hco.program hco'.program, C40_price hco'.program, h2, h3]
  have le1 := C81_custom h hS hw hr ht he hf d' o'
  have le2 := C81_cheapest h' hS' hw hr he hf d o
  have e1 : r.status.objective = some (s.readTerms V priceObjectiveTerms) := C42_results h hw ht
  have e2 := C40_results h' hw
  rw [same d o, same d' o'] at le1
  have eq := le_antisymm le1 le2
  exact ⟨_, e1, by rw [e2, same d o, eq], (same d o).symm, by rw [same d' o', same d o, eq]⟩

end

/-! ### Concrete cases -/

/-- The site with the battery of 4 MWh and the custom price objective. -/
def demoPriceTerms : Demo :=
  { demoPrices [10, 100] [10, 100] [1/10, 1] [20, 20] "price" (demoGrow 4).answer with objective := .custom (priceObjectiveTerms.map .simple) }

set_option maxRecDepth 10000 in
theorem demoPriceTerms_test : demoPriceTerms.testOptimal (growLam 4) (growMu 4)
    (marginTest [.battery (growBattery 4)] (twoData [10, 100] [1/10, 1]) 10000 10000 190 movedCells) = true := by
  decide +kernel

/-- C43 and C81: a battery of 4 MWh, once with the custom price objective and once with "price". -/
example : ∃ (s : Site) (S S' : Solver) (r r' : SimResult) (V V' : String → Nat → ℚ), Run s (.custom (priceObjectiveTerms.map .simple)) {} S r V ∧ S.Exact ∧
    Run s (.str "price") {} S' r' V' ∧ S'.Exact ∧ (∀ a ∈ s.assets, a.WellNamed) ∧ (∀ c ∈ s.constraints, c.Readable) ∧
    (∀ t ∈ priceObjectiveTerms, t.attr ∈ readable) ∧ 0 < s.data.n ∧ s.PlainEvs ∧ 0 ≤ s.freqMins ∧ s.ChpsConvert ∧ s.Dispatch {} V' ∧ s.Obeys V' ∧
    r.status.objective = some 190 := by
  obtain ⟨s, r, V, S, hs, hS, h, ht⟩ := Demo.runOptimal demoPriceTerms_test
  obtain ⟨t, r', V', S', hs', hS', h', ht'⟩ := Demo.runOptimal demoMoved_price
  have d := marginDemo h ht
  have e : s = t := Except.ok.inj (hs.symm.trans hs')
  subst e
  have hw : ∀ a ∈ s.assets, a.WellNamed := by rw [d.assets]; decide +kernel
  have hf : 0 ≤ s.freqMins := by rw [d.freq]; norm_num
  have hg : s.ChpsConvert := by intro c hc; rw [d.assets] at hc; simp at hc
  exact ⟨s, S, S', r, r', V, V', h, hS, h', hS', hw, readable_nil d.constraints, by decide +kernel, by rw [d.data]; decide,
    by intro c hc; rw [d.assets] at hc; simp at hc, hf, hg, C81_valid h' hw (by intro c hc; rw [d.assets] at hc; simp at hc) hf hg,
    obeys_nil d.constraints, d.objective⟩

end EPL
