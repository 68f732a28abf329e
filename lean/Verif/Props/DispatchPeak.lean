/-
C96: the optimum with a charge on the peak.
-/
import Verif.Proofs.DispatchPeak
import Verif.Props.DispatchCustom
import Verif.Spec.DemoPeak

namespace EPL

/-- The peak of a column of the site over the horizon, at least the constant of the charge. -/
def Site.PeakOf (s : Site) (attr : String) (constant : ℚ) (W : String → Nat → ℚ) (peak : ℚ) : Prop :=
  Greatest ((List.range s.data.n).map (fun i => W ("site-" ++ attr) i) ++ [constant]) peak

/-- The charge is on the peak import or the peak export, and its M is at least what the grid connection allows in an interval. -/
def Site.PeakFits (s : Site) (attr : String) (M : ℚ) : Prop :=
  (attr = "import_power_mwh" ∧ s.importLimit * s.freqMins / 60 ≤ M) ∨ (attr = "export_power_mwh" ∧ s.exportLimit * s.freqMins / 60 ≤ M)

section
variable {s : Site} {flags : Flags} {S S' : Solver} {r r' : SimResult} {V V' W : String → Nat → ℚ} {ts : List Term} {attr : String} {M M' constant k k' : ℚ}

/-- C96: no valid dispatch that respects the custom constraints, with a peak within M of all its cells, has a lower sum of simple terms and peak charge than the
result of an exact solver. -/
theorem C96_peak (hk : 0 < k) (hM : 0 ≤ M) (ha : attr = "import_power_mwh" ∨ attr = "export_power_mwh")
    (h : Run s (.custom (ts.map .simple ++ [.many "max_many_variables" (siteTerm attr) M constant k])) flags S r V) (hS : S.Exact)
    (hw : ∀ a ∈ s.assets, a.WellNamed) (hr : ∀ c ∈ s.constraints, c.Readable) (ht : ∀ t ∈ ts, t.attr ∈ readable) (he : s.PlainEvs) (hf : 0 ≤ s.freqMins) :
    ∃ peak, s.PeakOf attr constant V peak ∧ r.status.objective = some (s.readTerms V ts + peak * k) ∧
      ∀ W, s.Dispatch flags W → s.Obeys W → ∀ peak', s.PeakOf attr constant W peak' → (∀ i < s.data.n, peak' ≤ W ("site-" ++ attr) i + M) →
        s.readTerms V ts + peak * k ≤ s.readTerms W ts + peak' * k := by
  obtain ⟨peak, hp, ho⟩ := C45_peak_results hk ha h hS hw ht
  refine ⟨peak, hp, ho, fun W hW hob peak' hp' hnear => ?_⟩
  rcases Nat.eq_zero_or_pos s.data.n with hn | hn
  · have e1 : peak = constant := by
      have := hp.1
      rw [hn] at this
      simpa using this
    have e2 : peak' = constant := by
      have := hp'.1
      rw [hn] at this
      simpa using this
    rw [e1, e2]
    simp only [Site.readTerms, sumIntervals_zero hn, le_refl]
  obtain ⟨p, σ, hco⟩ := h.core
  rw [objective_value hco, Option.some.injEq] at ho
  obtain ⟨τ, hτ, h1⟩ := dispatch_peak ha hco.program hn (he.plugs hf) hr ht hM hW hob hp'.2 hnear
  unfold Site.readTerms
  rw [← ho, ← h1]
  exact (core_optimal hco hS h.feasible).2 τ hτ

/-- Every valid dispatch has its peak within a large enough M of all its cells. -/
theorem peak_near (hM : s.PeakFits attr M) (hc : constant ≤ M) (hW : s.Dispatch flags W) {peak : ℚ} (hp : s.PeakOf attr constant W peak) :
    ∀ i < s.data.n, peak ≤ W ("site-" ++ attr) i + M := by
  intro i hi
  have key : ∀ j < s.data.n, 0 ≤ W ("site-" ++ attr) j ∧ W ("site-" ++ attr) j ≤ M := by
    intro j hj
    rcases hM with ⟨rfl, hM⟩ | ⟨rfl, hM⟩
    · exact ⟨(hW.imports j hj).1, (hW.imports j hj).2.trans hM⟩
    · exact ⟨(hW.exports j hj).1, (hW.exports j hj).2.trans hM⟩
  have h0 := (key i hi).1
  rcases List.mem_append.1 hp.1 with h | h
  · obtain ⟨j, hj, rfl⟩ := List.mem_map.1 h
    have := (key j (List.mem_range.1 hj)).2
    linarith
  · rw [List.mem_singleton] at h
    linarith

/-- C96: with M at least the limit of the connection and the constant, the objective value of an exact solver is the least sum of simple terms and peak charge
over all valid dispatches that respect the custom constraints. -/
theorem C96_optimum (hk : 0 < k) (hM : s.PeakFits attr M) (hc : constant ≤ M)
    (h : Run s (.custom (ts.map .simple ++ [.many "max_many_variables" (siteTerm attr) M constant k])) flags S r V) (hS : S.Exact)
    (hw : ∀ a ∈ s.assets, a.WellNamed) (hr : ∀ c ∈ s.constraints, c.Readable) (ht : ∀ t ∈ ts, t.attr ∈ readable) (hn : 0 < s.data.n) (he : s.PlainEvs)
    (hf : 0 ≤ s.freqMins) (hg : s.ChpsConvert) :
    ∃ q, r.status.objective = some q ∧
      IsLeast {x | ∃ W peak, s.Dispatch flags W ∧ s.Obeys W ∧ s.PeakOf attr constant W peak ∧ s.readTerms W ts + peak * k = x} q := by
  have hV : s.Dispatch flags V := C81_valid h hw (fun c hc => by obtain ⟨a, ha, -⟩ := he c hc; exact ⟨a, ha⟩) hf hg
  have hM0 : 0 ≤ M := by
    rcases hM with ⟨-, hM⟩ | ⟨-, hM⟩
    · have := hV.imports 0 hn; linarith [this.1, this.2]
    · have := hV.exports 0 hn; linarith [this.1, this.2]
  obtain ⟨peak, hp, ho, hle⟩ := C96_peak hk hM0 (hM.imp (·.1) (·.1)) h hS hw hr ht he hf
  refine ⟨_, ho, ⟨V, peak, hV, C81_obeys h hw hr hn, hp, rfl⟩, ?_⟩
  rintro x ⟨W, peak', hW, hob, hp', rfl⟩
  exact hle W hW hob peak' hp' (peak_near hM hc hW hp')

/-- C96: a higher charge on the peak never gives a higher peak, and never a lower sum of the other terms. -/
theorem C96_flatter (hk : 0 < k) (hlt : k < k') (hM : s.PeakFits attr M) (hc : constant ≤ M) (hM' : s.PeakFits attr M') (hc' : constant ≤ M')
    (h : Run s (.custom (ts.map .simple ++ [.many "max_many_variables" (siteTerm attr) M constant k])) flags S r V) (hS : S.Exact)
    (h' : Run s (.custom (ts.map .simple ++ [.many "max_many_variables" (siteTerm attr) M' constant k'])) flags S' r' V') (hS' : S'.Exact)
    (hw : ∀ a ∈ s.assets, a.WellNamed) (hr : ∀ c ∈ s.constraints, c.Readable) (ht : ∀ t ∈ ts, t.attr ∈ readable) (hn : 0 < s.data.n) (he : s.PlainEvs)
    (hf : 0 ≤ s.freqMins) (hg : s.ChpsConvert) {peak peak' : ℚ} (hp : s.PeakOf attr constant V peak) (hp' : s.PeakOf attr constant V' peak') :
    peak' ≤ peak ∧ s.readTerms V ts ≤ s.readTerms V' ts := by
  have hm : ∀ c, Asset.evs c ∈ s.assets → ∃ a : EvArgs, a.make = .ok c := fun c hc => by obtain ⟨a, ha, -⟩ := he c hc; exact ⟨a, ha⟩
  have d := C81_valid h hw hm hf hg
  have d' := C81_valid h' hw hm hf hg
  have pos : ∀ {M : ℚ}, s.PeakFits attr M → 0 ≤ M := by
    intro M hM
    rcases hM with ⟨-, hM⟩ | ⟨-, hM⟩
    · have := d.imports 0 hn; linarith [this.1, this.2]
    · have := d.exports 0 hn; linarith [this.1, this.2]
  have uniq : ∀ {W : String → Nat → ℚ} {a b : ℚ}, s.PeakOf attr constant W a → s.PeakOf attr constant W b → a = b := fun ha hb =>
    le_antisymm (hb.2 _ ha.1) (ha.2 _ hb.1)
  obtain ⟨q, hq, -, hle⟩ := C96_peak hk (pos hM) (hM.imp (·.1) (·.1)) h hS hw hr ht he hf
  obtain ⟨q', hq', -, hle'⟩ := C96_peak (hk.trans hlt) (pos hM') (hM'.imp (·.1) (·.1)) h' hS' hw hr ht he hf
  rw [uniq hq hp] at hle
  rw [uniq hq' hp'] at hle'
  have a := hle V' d' (C81_obeys h' hw hr hn) peak' hp' (peak_near hM hc d' hp')
  have b := hle' V d (C81_obeys h hw hr hn) peak hp (peak_near hM' hc' d hp)
  have hpk : peak' ≤ peak := by
    by_contra hc
    push Not at hc
    nlinarith
  refine ⟨hpk, ?_⟩
  nlinarith

end

/-! ### A concrete case -/

/-- C96: a battery that moves 4 MWh to the cheap interval while a MWh of peak costs 7, and stays idle when it costs 100: the peak falls from 9 to 5. -/
example : ∃ (s : Site) (S S' : Solver) (r r' : SimResult) (V V' : String → Nat → ℚ),
    Run s (.custom ([importCost].map .simple ++ [.many "max_many_variables" (siteTerm "import_power_mwh") 10000 0 7])) {} S r V ∧ S.Exact ∧
    Run s (.custom ([importCost].map .simple ++ [.many "max_many_variables" (siteTerm "import_power_mwh") 10000 0 100])) {} S' r' V' ∧ S'.Exact ∧
    s.PeakFits "import_power_mwh" 10000 ∧ (∀ a ∈ s.assets, a.WellNamed) ∧ (∀ c ∈ s.constraints, c.Readable) ∧
    (∀ t ∈ [importCost], t.attr ∈ readable) ∧ 0 < s.data.n ∧ s.PlainEvs ∧ 0 ≤ s.freqMins ∧ s.ChpsConvert ∧ s.Dispatch {} V' ∧ s.Obeys V' ∧
    s.PeakOf "import_power_mwh" 0 V 9 ∧ s.PeakOf "import_power_mwh" 0 V' 5 ∧ r.status.objective = some 253 ∧ r'.status.objective = some 1050 := by
  obtain ⟨s, r, V, S, hs, hS, h, ht⟩ := Demo.runOptimal demoPeak_low
  obtain ⟨t, r', V', S', hs', hS', h', ht'⟩ := Demo.runOptimal demoPeak_high
  have d := marginDemo h ht
  have d' := marginDemo h' ht'
  have e : s = t := Except.ok.inj (hs.symm.trans hs')
  subst e
  have hn : s.data.n = 2 := by rw [d.data]; rfl
  have hw : ∀ a ∈ s.assets, a.WellNamed := by rw [d.assets]; decide +kernel
  have hf : 0 ≤ s.freqMins := by rw [d.freq]; norm_num
  have hg : s.ChpsConvert := by intro c hc; rw [d.assets] at hc; simp at hc
  have c0 : V "site-import_power_mwh" 0 = 9 := d.cells ("site-import_power_mwh", 0, 9) (by simp [movedCells]) (by simp [hn])
  have c1 : V "site-import_power_mwh" 1 = 1 := d.cells ("site-import_power_mwh", 1, 1) (by simp [movedCells]) (by simp [hn])
  have c0' : V' "site-import_power_mwh" 0 = 5 := d'.cells ("site-import_power_mwh", 0, 5) (by simp [idleCells]) (by simp [hn])
  have c1' : V' "site-import_power_mwh" 1 = 5 := d'.cells ("site-import_power_mwh", 1, 5) (by simp [idleCells]) (by simp [hn])
  have en : "site-" ++ "import_power_mwh" = "site-import_power_mwh" := rfl
  refine ⟨s, S, S', r, r', V, V', h, hS, h', hS', .inl ⟨rfl, by rw [d.importLimit, d.freq]; norm_num⟩, hw, readable_nil d.constraints, by decide +kernel,
    by rw [hn]; decide, by intro c hc; rw [d.assets] at hc; simp at hc, hf, hg, C81_valid h' hw (by intro c hc; rw [d.assets] at hc; simp at hc) hf hg,
    obeys_nil d.constraints, ?_, ?_, d.objective, d'.objective⟩
  · unfold Site.PeakOf Greatest
    rw [hn, en]
    simp [List.range_succ, c0, c1]
  · unfold Site.PeakOf Greatest
    rw [hn, en]
    simp [List.range_succ, c0', c1']

end EPL
