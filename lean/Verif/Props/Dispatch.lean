/-
C81: `optimize` returns a cheapest valid dispatch.
-/
import Verif.Proofs.DispatchSound
import Verif.Proofs.DispatchPoint
import Verif.Props.Limit
import Verif.Props.Returns
import Verif.Props.Peak
import Verif.Spec.DemoGrowth
import Verif.Spec.DemoV2g

namespace EPL

section
variable {s : Site} {objective : Objective} {flags : Flags} {S : Solver} {r : SimResult} {V W : String → Nat → ℚ}

/-- C81: the table of every feasible result is a valid dispatch, whatever the objective and the custom constraints. -/
theorem C81_valid (h : Run s objective flags S r V) (hw : ∀ a ∈ s.assets, a.WellNamed)
    (hm : ∀ c, Asset.evs c ∈ s.assets → ∃ a : EvArgs, a.make = .ok c) (hf : 0 ≤ s.freqMins) (hg : s.ChpsConvert) : s.Dispatch flags V := by
  obtain ⟨p, σ, hco⟩ := h.core
  exact ⟨⟨fun i hi => price_cells hco hi, fun i hi => data_cells hco hi⟩, fun i hi => ⟨(C04_site_limits h hi).1, (C04_site_limits h hi).2.1⟩,
    fun i hi => ⟨(C04_site_limits h hi).2.2.1, (C04_site_limits h hi).2.2.2.1⟩, fun i hi => (C04_site_limits h hi).2.2.2.2,
    fun i hi => C01_electricity_balance h hw hi, fun i hi => C02_high_temperature_balance h hw hi, fun i hi => C03_low_temperature_balance h hw hi,
    fun a ha => asset_plays h hco hm hf hg ha (hw a ha)⟩

/-- C81: and it respects the custom constraints on reported flows. -/
theorem C81_obeys (h : Run s objective flags S r V) (hw : ∀ a ∈ s.assets, a.WellNamed) (hr : ∀ c ∈ s.constraints, c.Readable) (hn : 0 < s.data.n) :
    s.Obeys V := fun c hc => ⟨fun ha _ hi => C37_results h hw hc ha (hr c hc) hi, fun ha => C38_results h hw hc ha (hr c hc) hn⟩

theorem readable_nil (hc : s.constraints = []) : ∀ c ∈ s.constraints, c.Readable := by rw [hc]; simp

theorem obeys_nil (hc : s.constraints = []) : s.Obeys W := by
  intro c h
  rw [hc] at h
  simp at h

theorem sumIntervals_zero (hn : s.data.n = 0) (g : Nat → ℚ) : s.sumIntervals g = 0 := by
  simp [Site.sumIntervals, hn]

/-- C81: no valid dispatch that respects the custom constraints is cheaper than the result of an exact solver (a MWh of spill counts with its penalty). -/
theorem C81_cheapest (h : Run s (.str "price") flags S r V) (hS : S.Exact) (hw : ∀ a ∈ s.assets, a.WellNamed) (hr : ∀ c ∈ s.constraints, c.Readable)
    (he : s.PlainEvs) (hf : 0 ≤ s.freqMins) (hW : s.Dispatch flags W) (hob : s.Obeys W) :
    s.readCost V + spillPenalty * s.readSpill V ≤ s.readCost W + spillPenalty * s.readSpill W := by
  rcases Nat.eq_zero_or_pos s.data.n with hn | hn
  · simp only [Site.readCost, Site.readSpill, sumIntervals_zero hn, le_refl]
  obtain ⟨p, σ, hco⟩ := h.core
  have hv := C40_results h hw
  rw [objective_value hco, Option.some.injEq] at hv
  obtain ⟨τ, hτ, h1, -, h3⟩ := dispatch_answer hco.program hn (he.plugs hf) hr hW hob
  rw [← hv, ← h1, ← h3, ← C40_price hco.program]
  exact (core_optimal hco hS h.feasible).2 τ hτ

/-- C81: no valid dispatch that respects the custom constraints emits less than the result of an exact solver for the carbon objective. -/
theorem C81_greenest (h : Run s (.str "carbon") flags S r V) (hS : S.Exact) (hw : ∀ a ∈ s.assets, a.WellNamed) (hr : ∀ c ∈ s.constraints, c.Readable)
    (he : s.PlainEvs) (hf : 0 ≤ s.freqMins) (hW : s.Dispatch flags W) (hob : s.Obeys W) :
    s.readEmissions V + spillPenalty * s.readSpill V ≤ s.readEmissions W + spillPenalty * s.readSpill W := by
  rcases Nat.eq_zero_or_pos s.data.n with hn | hn
  · simp only [Site.readEmissions, Site.readSpill, sumIntervals_zero hn, le_refl]
  obtain ⟨p, σ, hco⟩ := h.core
  have hv := C41_results h hw
  rw [objective_value hco, Option.some.injEq] at hv
  obtain ⟨τ, hτ, -, h1, h3⟩ := dispatch_answer hco.program hn (he.plugs hf) hr hW hob
  rw [← hv, ← h1, ← h3, ← C41_carbon hco.program]
  exact (core_optimal hco hS h.feasible).2 τ hτ

/-- C81: the objective value of an exact solver is the least cost of a valid dispatch that respects the custom constraints, and the table shows a dispatch with that cost. -/
theorem C81_optimum (h : Run s (.str "price") flags S r V) (hS : S.Exact) (hw : ∀ a ∈ s.assets, a.WellNamed) (hr : ∀ c ∈ s.constraints, c.Readable)
    (hn : 0 < s.data.n) (he : s.PlainEvs) (hf : 0 ≤ s.freqMins) (hg : s.ChpsConvert) :
    ∃ q, r.status.objective = some q ∧ IsLeast {x | ∃ W, s.Dispatch flags W ∧ s.Obeys W ∧ s.readCost W + spillPenalty * s.readSpill W = x} q := by
  refine ⟨_, C40_results h hw, ⟨V, C81_valid h hw (fun c hc => ?_) hf hg, C81_obeys h hw hr hn, rfl⟩, ?_⟩
  · obtain ⟨a, ha, -⟩ := he c hc
    exact ⟨a, ha⟩
  · rintro x ⟨W, hW, hob, rfl⟩
    exact C81_cheapest h hS hw hr he hf hW hob

/-- C81: the same for the carbon objective. -/
theorem C81_carbon_optimum (h : Run s (.str "carbon") flags S r V) (hS : S.Exact) (hw : ∀ a ∈ s.assets, a.WellNamed) (hr : ∀ c ∈ s.constraints, c.Readable)
    (hn : 0 < s.data.n) (he : s.PlainEvs) (hf : 0 ≤ s.freqMins) (hg : s.ChpsConvert) :
    ∃ q, r.status.objective = some q ∧ IsLeast {x | ∃ W, s.Dispatch flags W ∧ s.Obeys W ∧ s.readEmissions W + spillPenalty * s.readSpill W = x} q := by
  refine ⟨_, C41_results h hw, ⟨V, C81_valid h hw (fun c hc => ?_) hf hg, C81_obeys h hw hr hn, rfl⟩, ?_⟩
  · obtain ⟨a, ha, -⟩ := he c hc
    exact ⟨a, ha⟩
  · rintro x ⟨W, hW, hob, rfl⟩
    exact C81_greenest h hS hw hr he hf hW hob

/-- C81: `optimize` comes back with a feasible result exactly when there is a valid dispatch that respects the custom
constraints, with every sound solver that answers every program with a
feasible point. -/
theorem C81_feasible {name : String} {iv : IVars} {p : Prob} (hs : s.Constructed) (hn : 0 < s.data.n) (hw : ∀ a ∈ s.assets, a.WellNamed)
    (hpn : s.PlainNames) (hcn : s.ClearNames) (hx : s.Sensible) (hr : ∀ c ∈ s.constraints, c.Readable) (he : s.PlainEvs)
    (hprog : s.program (.str name) flags = .ok (iv, p)) (hname : name = "price" ∨ name = "carbon") (hS : S.Sound)
    (hst : ∀ p, (∃ σ, p.Feasible σ) → (S p).status = "Optimal") (hfail : flags.failOnSpill = false) :
    (∃ r, s.optimize (.str name) flags S = .ok r ∧ r.feasible = true) ↔ ∃ W, s.Dispatch flags W ∧ s.Obeys W := by
  constructor
  · rintro ⟨r, hret, hrf⟩
    obtain ⟨p, σ, _, _, _, _, ho⟩ := optimize_feasible hS hs.wf hret hrf
    obtain ⟨V, hV⟩ := exists_reads ho.lengths ho.colsNodup
    have R : Run s (.str name) flags S r V := ⟨hS, hs, hret, hrf, hV⟩
    refine ⟨V, C81_valid R hw (fun c hc => ?_) hx.freq (fun c hc => hx.assets _ hc), C81_obeys R hw hr hn⟩
    obtain ⟨a, ha, -⟩ := he c hc
    exact ⟨a, ha⟩
  · rintro ⟨W, hW, hob⟩
    obtain ⟨σ, hf, -⟩ := dispatch_answer hprog hn (he.plugs hx.freq) hr hW hob
    obtain ⟨τ, hτ, hv⟩ := hS p (hst p ⟨σ, hf⟩)
    rcases C25_inputs hs hn hw hpn hcn hx (objective := .str name) trivial hprog (hst p ⟨σ, hf⟩) hτ hv with h | ⟨h, -⟩
    · exact h
    · rw [hfail] at h; simp at h

end

/-! ### A concrete case -/

/-- Import the load and leave the battery alone. -/
def idleTable : String → Nat → ℚ := fun k i =>
  if k = "site-import_power_mwh" then 5
  else if k = "site-electric_load_mwh" then 5
  else if k = "site-electricity_prices" ∨ k = "site-export_electricity_prices" then [10, 100].getD i 0
  else if k = "site-electricity_carbon_intensities" then 1 / 10
  else if k = "site-gas_prices" then 20
  else 0

/-- C81: prices 10 and 100, load 5 and 5, a battery of 4 MWh.  Leaving the battery alone is a valid dispatch of 550; an exact solver returns 190. -/
example : ∃ (s : Site) (S : Solver) (r : SimResult) (V W : String → Nat → ℚ), Run s (.str "price") {} S r V ∧ S.Exact ∧
    (∀ a ∈ s.assets, a.WellNamed) ∧ s.constraints = [] ∧ s.PlainEvs ∧ 0 ≤ s.freqMins ∧ s.ChpsConvert ∧ s.Dispatch {} W ∧ s.Dispatch {} V ∧
    s.readCost V + spillPenalty * s.readSpill V = 190 ∧ s.readCost W + spillPenalty * s.readSpill W = 550 := by
  obtain ⟨s, r, V, S, hs, hS, h, ht⟩ := Demo.runOptimal demoGrow_large
  simp only [Bool.and_eq_true, decide_eq_true_eq] at ht
  obtain ⟨⟨h1, h2⟩, h3⟩ := ht
  have n := site_new hs
  have hd : s.data = ⟨2, [10, 100], [10, 100], [1/10, 1/10], [20, 20], [5, 5], [0, 0], [0, 0], [0, 0], []⟩ := by
    have a : (demoGrow 4).site.toOption.map Site.data =
        some ⟨2, [10, 100], [10, 100], [1/10, 1/10], [20, 20], [5, 5], [0, 0], [0, 0], [0, 0], []⟩ := by decide +kernel
    rw [hs] at a
    exact Option.some.inj a
  have hf : s.freqMins = 60 := n.freq
  have hil : s.importLimit = 10000 := n.importLimit
  have hel : s.exportLimit = 10000 := n.exportLimit
  have hw : ∀ a ∈ s.assets, a.WellNamed := by rw [h1]; decide +kernel
  have hg : s.ChpsConvert := by intro c hc; rw [h1] at hc; simp at hc
  have he : s.PlainEvs := by intro c hc; rw [h1] at hc; simp at hc
  have hcases : ∀ P : Nat → Prop, P 0 → P 1 → ∀ i < s.data.n, P i := by
    intro P p0 p1 i hi
    rw [h2] at hi
    rcases i with _ | _ | i
    · exact p0
    · exact p1
    · omega
  have hsum : ∀ q ∈ ["electric_charge_mwh", "electric_discharge_mwh", "electric_generation_mwh", "electric_load_mwh",
      "high_temperature_generation_mwh", "high_temperature_load_mwh", "low_temperature_generation_mwh", "low_temperature_load_mwh",
      "gas_consumption_mwh"], ∀ i < s.data.n, s.assetSum idleTable q i = 0 := by
    intro q hq
    refine hcases _ ?_ ?_ <;>
    · unfold Site.assetSum
      rw [h1]
      revert q
      decide +kernel
  have hW : s.Dispatch {} idleTable := by
    refine ⟨⟨?_, ?_⟩, ?_, ?_, ?_, ?_, ?_, ?_, ?_⟩
    · refine hcases _ ?_ ?_ <;> rw [hd] <;> decide +kernel
    · refine hcases _ ?_ ?_ <;> rw [hd] <;> decide +kernel
    · intro i _
      rw [hf, hil]
      show (0 : ℚ) ≤ 5 ∧ (5 : ℚ) ≤ _
      norm_num
    · intro i _
      rw [hf, hel]
      show (0 : ℚ) ≤ 0 ∧ (0 : ℚ) ≤ _
      norm_num
    · intro i _
      exact .inr rfl
    · intro i hi
      rw [hsum _ (by simp) i hi, hsum _ (by simp) i hi, hsum _ (by simp) i hi, hsum _ (by simp) i hi]
      show (5 : ℚ) + 0 + 0 = 0 + 5 + 0 + 0
      norm_num
    · intro i hi
      rw [hsum _ (by simp) i hi, hsum _ (by simp) i hi]
      simp [idleTable]
    · intro i hi
      rw [hsum _ (by simp) i hi, hsum _ (by simp) i hi]
      simp [idleTable]
    · intro a ha
      rw [h1, List.mem_singleton] at ha
      subst ha
      have hp : (0 : ℚ) ≤ 4 * 60 / 60 := by norm_num
      have hp' : (0 : ℚ) ≤ 4 := by norm_num
      refine ⟨fun i _ => ?_, fun i _ => ?_, fun i _ => .inl rfl, fun i _ => ⟨show (0 : ℚ) = (1 - 1) * 0 by norm_num, le_refl _⟩,
        fun i _ => show (0 : ℚ) = 0 + 0 - 0 - 0 by norm_num, fun i _ =>
        ⟨le_refl _, hp', le_refl _, hp'⟩, fun i _ => rfl, rfl, rfl⟩
      · rw [hf]
        exact ⟨le_refl _, le_min hp hp'⟩
      · rw [hf]
        exact ⟨le_refl _, le_min hp hp'⟩
  have hV := C40_results h hw
  rw [h3, Option.some.injEq] at hV
  refine ⟨s, S, r, V, idleTable, h, hS, hw, n.constraints, he, by rw [hf]; norm_num, hg, hW,
    C81_valid h hw (by intro c hc; rw [h1] at hc; simp at hc) (by rw [hf]; norm_num) hg, hV.symm, ?_⟩
  unfold Site.readCost Site.readSpill Site.sumIntervals Site.assetSum
  rw [h1, h2]
  decide +kernel

/-- C81: with a limit of 7 on every import the exact solver returns 370, and the table respects the limit. -/
example : ∃ (s : Site) (S : Solver) (r : SimResult) (V : String → Nat → ℚ), Run s (.str "price") {} S r V ∧ S.Exact ∧
    (∀ a ∈ s.assets, a.WellNamed) ∧ s.constraints = [growConstraint] ∧ (∀ c ∈ s.constraints, c.Readable) ∧ 0 < s.data.n ∧ s.PlainEvs ∧
    0 ≤ s.freqMins ∧ s.ChpsConvert ∧ s.Dispatch {} V ∧ s.Obeys V ∧ s.readCost V + spillPenalty * s.readSpill V = 370 := by
  obtain ⟨s, r, V, S, hs, hS, h, ht⟩ := Demo.runOptimal demoLimited_optimal
  simp only [Bool.and_eq_true, decide_eq_true_eq] at ht
  obtain ⟨⟨⟨h1, h2⟩, hc⟩, h3⟩ := ht
  have n := site_new hs
  have hw : ∀ a ∈ s.assets, a.WellNamed := by rw [h1]; decide +kernel
  have hf : 0 ≤ s.freqMins := by rw [n.freq]; decide +kernel
  have hg : s.ChpsConvert := by intro c hc; rw [h1] at hc; simp at hc
  have he : s.PlainEvs := by intro c hc; rw [h1] at hc; simp at hc
  have hr : ∀ c ∈ s.constraints, c.Readable := by rw [hc]; decide +kernel
  have hn : 0 < s.data.n := by rw [h2]; decide
  have hV := C40_results h hw
  rw [h3, Option.some.injEq] at hV
  exact ⟨s, S, r, V, h, hS, hw, hc, hr, hn, he, hf, hg, C81_valid h hw (by intro c hc; rw [h1] at hc; simp at hc) hf hg, C81_obeys h hw hr hn, hV.symm⟩

/-- C81: a vehicle that stays for three intervals and may discharge; an exact solver earns 160, and the table is a valid dispatch. -/
example : ∃ (s : Site) (S : Solver) (r : SimResult) (V : String → Nat → ℚ), Run s (.str "price") (Flags.toGrid {}) S r V ∧ S.Exact ∧
    (∀ a ∈ s.assets, a.WellNamed) ∧ s.constraints = [] ∧ s.PlainEvs ∧ 0 ≤ s.freqMins ∧ s.ChpsConvert ∧ s.assets = [.evs demoV2gCfg] ∧
    s.Dispatch (Flags.toGrid {}) V ∧ s.readCost V + spillPenalty * s.readSpill V = -160 := by
  obtain ⟨s, r, V, S, hs, hS, h, ht⟩ := Demo.runOptimal demoToGrid_test
  simp only [Bool.and_eq_true, decide_eq_true_eq] at ht
  obtain ⟨⟨h1, -⟩, h3⟩ := ht
  have n := site_new hs
  have hw : ∀ a ∈ s.assets, a.WellNamed := by rw [h1]; decide +kernel
  have hf : 0 ≤ s.freqMins := by rw [n.freq]; decide +kernel
  have hg : s.ChpsConvert := by intro c hc; rw [h1] at hc; simp at hc
  have he : s.PlainEvs := by
    intro c hc
    rw [h1, List.mem_singleton] at hc
    cases hc
    refine ⟨demoV2gArgs, demoV2gCfg_new, ?_, ?_⟩ <;> decide +kernel
  have hV := C40_results h hw
  rw [h3, Option.some.injEq] at hV
  refine ⟨s, S, r, V, h, hS, hw, n.constraints, he, hf, hg, h1, C81_valid h hw (fun c hc => ?_) hf hg, hV.symm⟩
  obtain ⟨a, ha, -⟩ := he c hc
  exact ⟨a, ha⟩

/-- C81: the site with the battery of 4 MWh meets what `C81_feasible` asks for (that such a solver exists is shown beside C57). -/
example : ∃ (s : Site) (iv : IVars) (p : Prob), s.Constructed ∧ 0 < s.data.n ∧ (∀ a ∈ s.assets, a.WellNamed) ∧ s.PlainNames ∧ s.ClearNames ∧
    s.Sensible ∧ s.constraints = [] ∧ s.PlainEvs ∧ s.program (.str "price") {} = .ok (iv, p) := by
  obtain ⟨s, r, V, S, hs, hS, h, ht⟩ := Demo.runOptimal demoGrow_large
  simp only [Bool.and_eq_true, decide_eq_true_eq] at ht
  obtain ⟨⟨h1, h2⟩, -⟩ := ht
  obtain ⟨p, σ, hco⟩ := h.core
  have n := site_new hs
  have t : (demoGrow 4).site.toOption.map (fun s => (s.data.custom.length, s.data.electricLoad ++ s.data.htLoad ++ s.data.ltLoad ++ s.data.ltGeneration)) =
      some (0, [5, 5, 0, 0, 0, 0, 0, 0]) := by decide +kernel
  rw [hs] at t
  simp only [Except.toOption, Option.map_some, Option.some.injEq, Prod.mk.injEq] at t
  obtain ⟨t3, t4⟩ := t
  rw [List.length_eq_zero_iff] at t3
  refine ⟨s, _, p, h.constructed, by rw [h2]; decide, ?_, ⟨?_, ?_⟩, ⟨?_, ?_, ?_, ?_, ?_, ?_⟩, ⟨?_, ?_, ?_, ?_, ?_⟩, n.constraints, ?_, hco.program⟩
  · rw [h1]; decide +kernel
  · rw [h1]; decide +kernel
  · rw [t3]; simp
  · rw [h1]; decide +kernel
  · rw [h1]; decide +kernel
  · rw [h1]; decide +kernel
  · intro c hc; rw [h1] at hc; simp at hc
  · rw [t3]; simp
  · rw [t3]; simp
  · rintro ⟨c, hc⟩; rw [h1] at hc; simp at hc
  · rintro ⟨c, hc⟩; rw [h1] at hc; simp at hc
  · rw [t4]; decide +kernel
  · rw [n.freq]; decide +kernel
  · rw [h1]; decide +kernel
  · intro c hc; rw [h1] at hc; simp at hc

end EPL
