/-
C82: shorter intervals never make the optimum worse.
-/
import Verif.Proofs.FinerPlays
import Verif.Props.Dispatch
import Verif.Spec.DemoFiner

namespace EPL

section
variable {s : Site} {objective : Objective} {flags : Flags} {S S' : Solver} {r r' : SimResult} {V V' W : String → Nat → ℚ} {k : Nat}

/-- C82: whatever can be done with long intervals can be done with short ones, at the same cost, emissions and spill. -/
theorem C82_dispatch (hk : 0 < k) (hn : 0 < s.data.n) (h : s.Dispatch flags W) : ∃ W', (s.finer k).Dispatch flags W' ∧
    (s.finer k).readCost W' = s.readCost W ∧ (s.finer k).readEmissions W' = s.readEmissions W ∧ (s.finer k).readSpill W' = s.readSpill W :=
  ⟨fineTable k W, dispatch_finer hk hn h, values_finer hk⟩

theorem finer_wellNamed (hw : ∀ a ∈ s.assets, a.WellNamed) : ∀ a ∈ (s.finer k).assets, a.WellNamed := by
  intro a ha
  obtain ⟨b, hb, rfl⟩ := List.mem_map.1 ha
  have := hw b hb
  cases b <;> exact this

theorem finer_plainEvs (hk : 0 < k) (he : s.PlainEvs) : (s.finer k).PlainEvs := by
  intro c hc
  obtain ⟨b, hb, e⟩ := List.mem_map.1 hc
  cases b <;> simp only [Asset.finer, reduceCtorEq, Asset.evs.injEq] at e
  rename_i c0
  subst e
  obtain ⟨a, ha, h1, h2⟩ := he c0 hb
  refine ⟨a.finer k, evs_make_finer hk ha, h1, fun row hr q hq => ?_⟩
  obtain ⟨row', hr', rfl⟩ := List.mem_map.1 hr
  obtain ⟨i, hi⟩ := List.mem_iff_getElem?.1 hq
  rw [repeatEach_get hk] at hi
  exact h2 row' hr' q (List.mem_of_getElem? hi)

theorem freq_finer (hf : 0 ≤ s.freqMins) : 0 ≤ (s.finer k).freqMins := by
  rw [finer_freq, div_eq_mul_inv]
  exact mul_nonneg hf (inv_nonneg.2 (by exact_mod_cast Nat.zero_le k))

theorem made_of_plain (he : s.PlainEvs) : ∀ c, Asset.evs c ∈ s.assets → ∃ a : EvArgs, a.make = .ok c := fun c hc => by
  obtain ⟨a, ha, -⟩ := he c hc
  exact ⟨a, ha⟩

/-- C82: split every interval of a site into `k`.  The cost of an exact solver for the finer site is at most the cost of any feasible result of the
original site, whatever solver it came from (a MWh of spill counts with its penalty). -/
theorem C82_price (hk : 0 < k) (h : Run s objective flags S r V) (h' : Run (s.finer k) (.str "price") flags S' r' V') (hS' : S'.Exact)
    (hw : ∀ a ∈ s.assets, a.WellNamed) (hc : s.constraints = []) (he : s.PlainEvs) (hf : 0 ≤ s.freqMins) (hg : s.ChpsConvert) :
    (s.finer k).readCost V' + spillPenalty * (s.finer k).readSpill V' ≤ s.readCost V + spillPenalty * s.readSpill V := by
  rcases Nat.eq_zero_or_pos s.data.n with hn | hn
  · have e : (s.finer k).data.n = 0 := by rw [finer_n, hn, Nat.zero_mul]
    simp only [Site.readCost, Site.readSpill, sumIntervals_zero hn, sumIntervals_zero e, le_refl]
  · obtain ⟨W', hW', e1, -, e3⟩ := C82_dispatch hk hn (C81_valid h hw (made_of_plain he) hf hg)
    rw [← e1, ← e3]
    exact C81_cheapest h' hS' (finer_wellNamed hw) (readable_nil hc) (finer_plainEvs hk he) (freq_finer hf) hW' (obeys_nil hc)

/-- C82: the same for the carbon objective. -/
theorem C82_carbon (hk : 0 < k) (h : Run s objective flags S r V) (h' : Run (s.finer k) (.str "carbon") flags S' r' V') (hS' : S'.Exact)
    (hw : ∀ a ∈ s.assets, a.WellNamed) (hc : s.constraints = []) (he : s.PlainEvs) (hf : 0 ≤ s.freqMins) (hg : s.ChpsConvert) :
    (s.finer k).readEmissions V' + spillPenalty * (s.finer k).readSpill V' ≤ s.readEmissions V + spillPenalty * s.readSpill V := by
  rcases Nat.eq_zero_or_pos s.data.n with hn | hn
  · have e : (s.finer k).data.n = 0 := by rw [finer_n, hn, Nat.zero_mul]
    simp only [Site.readEmissions, Site.readSpill, sumIntervals_zero hn, sumIntervals_zero e, le_refl]
  · obtain ⟨W', hW', -, e2, e3⟩ := C82_dispatch hk hn (C81_valid h hw (made_of_plain he) hf hg)
    rw [← e2, ← e3]
    exact C81_greenest h' hS' (finer_wellNamed hw) (readable_nil hc) (finer_plainEvs hk he) (freq_finer hf) hW' (obeys_nil hc)

/-- C82: in terms of the objective values that are returned. -/
theorem C82_objective {name : String} (hname : name = "price" ∨ name = "carbon") (hk : 0 < k) (h : Run s (.str name) flags S r V)
    (h' : Run (s.finer k) (.str name) flags S' r' V') (hS' : S'.Exact)
    (hw : ∀ a ∈ s.assets, a.WellNamed) (hc : s.constraints = []) (he : s.PlainEvs) (hf : 0 ≤ s.freqMins) (hg : s.ChpsConvert) :
    ∃ q q', r.status.objective = some q ∧ r'.status.objective = some q' ∧ q' ≤ q := by
  rcases hname with rfl | rfl
  · exact ⟨_, _, C40_results h hw, C40_results h' (finer_wellNamed hw), C82_price hk h h' hS' hw hc he hf hg⟩
  · exact ⟨_, _, C41_results h hw, C41_results h' (finer_wellNamed hw), C82_carbon hk h h' hS' hw hc he hf hg⟩

end

/-! ### A concrete case -/

/-- C82: a CHP that is off or above 10 MW, a battery, a load of 5 MW at a price of 100, nothing can be exported.  Hourly, the CHP cannot serve the load and
a result costs 500; in half hours the CHP and the battery take turns and an exact solver returns 200. -/
example : ∃ (s : Site) (S S' : Solver) (r r' : SimResult) (V V' : String → Nat → ℚ), Run s (.str "price") {} S r V ∧
    Run (s.finer 2) (.str "price") {} S' r' V' ∧ S'.Exact ∧ (∀ a ∈ s.assets, a.WellNamed) ∧ s.constraints = [] ∧ s.PlainEvs ∧ 0 ≤ s.freqMins ∧
    s.ChpsConvert ∧ r.status.objective = some 500 ∧ r'.status.objective = some 200 := by
  obtain ⟨s, r, V, hs, h, ht⟩ := Demo.run demoHour_test
  obtain ⟨s', r', V', S', hs', hS', h', ht'⟩ := Demo.runOptimal demoHalves_test
  simp only [Bool.and_eq_true, decide_eq_true_eq] at ht ht'
  obtain ⟨⟨h1, h2⟩, h3⟩ := ht
  obtain ⟨⟨h1', h2'⟩, h3'⟩ := ht'
  have n := site_new hs
  have n' := site_new hs'
  have hd : s.data = ⟨1, [100], [100], [1/10], [20], [5], [0], [0], [0], []⟩ := by
    have a : demoHour.site.toOption.map Site.data = some ⟨1, [100], [100], [1/10], [20], [5], [0], [0], [0], []⟩ := by decide +kernel
    rw [hs] at a
    exact Option.some.inj a
  have hd' : s'.data = ⟨2, [100, 100], [100, 100], [1/10, 1/10], [20, 20], [5/2, 5/2], [0, 0], [0, 0], [0, 0], []⟩ := by
    have a : demoHalves.site.toOption.map Site.data =
        some ⟨2, [100, 100], [100, 100], [1/10, 1/10], [20, 20], [5/2, 5/2], [0, 0], [0, 0], [0, 0], []⟩ := by decide +kernel
    rw [hs'] at a
    exact Option.some.inj a
  have e : s.finer 2 = s' := by
    obtain ⟨a, d, f, il, el, cs⟩ := s
    obtain ⟨a', d', f', il', el', cs'⟩ := s'
    have q1 := n.freq; have q2 := n.importLimit; have q3 := n.exportLimit; have q4 := n.constraints
    have q1' := n'.freq; have q2' := n'.importLimit; have q3' := n'.exportLimit; have q4' := n'.constraints
    simp only at h1 h1' hd hd' q1 q2 q3 q4 q1' q2' q3' q4'
    subst h1 h1' hd hd' q1 q2 q3 q4 q1' q2' q3' q4'
    have hdat : SiteData.finer 2 ⟨1, [100], [100], [1/10], [20], [5], [0], [0], [0], []⟩ =
        ⟨2, [100, 100], [100, 100], [1/10, 1/10], [20, 20], [5/2, 5/2], [0, 0], [0, 0], [0, 0], []⟩ := by decide +kernel
    have hfr : (60 : ℚ) / ((2 : Nat) : ℚ) = 30 := by norm_num
    show Site.mk _ (SiteData.finer 2 _) ((60 : ℚ) / ((2 : Nat) : ℚ)) _ _ _ = Site.mk _ _ 30 _ _ _
    rw [hdat, hfr]
    rfl
  have hw : ∀ a ∈ s.assets, a.WellNamed := by rw [h1]; decide +kernel
  subst e
  refine ⟨s, _, S', r, r', V, V', h, h', hS', hw, n.constraints, ?_, by rw [n.freq]; decide +kernel, ?_, h3, h3'⟩
  · intro c hc; rw [h1] at hc; simp at hc
  · intro c hc
    rw [h1] at hc
    simp only [List.mem_cons, Asset.chp.injEq, List.not_mem_nil, or_false, reduceCtorEq] at hc
    subst hc
    left
    decide +kernel

end EPL
