/-
C84: two sites behind one meter cost no more than the two on their own.
-/
import Verif.Props.Dispatch
import Verif.Proofs.Pool
import Verif.Spec.DemoPool

namespace EPL

section
variable {s t : Site} {flags : Flags} {o o' : Objective} {S S' T : Solver} {r r' u : SimResult} {V V' W : String → Nat → ℚ}

/-- C84: any two valid dispatches make a valid dispatch of the two sites behind one meter: the assets and the spill stay, imports of one meet exports of the
other, the emissions (at the same carbon intensities) add up, and where selling brings no more than buying costs the bill is no higher. -/
theorem C84_dispatch (hs : s.Constructed) (ht : t.Constructed) (hal : s.Alike t) (hc : (s.pooled t).ClearNames) (hw : ∀ a ∈ s.assets, a.WellNamed)
    (hw' : ∀ a ∈ t.assets, a.WellNamed) (h : s.Dispatch flags V) (h' : t.Dispatch flags V') :
    ∃ W, (s.pooled t).Dispatch flags W ∧ (∀ a ∈ s.assets, ∀ k ∈ a.documentedColumns, W k = V k) ∧
      (∀ a ∈ t.assets, ∀ k ∈ a.documentedColumns, W k = V' k) ∧
      (∀ i < s.data.n, W "site-import_power_mwh" i - W "site-export_power_mwh" i = (V "site-import_power_mwh" i - V "site-export_power_mwh" i) +
        (V' "site-import_power_mwh" i - V' "site-export_power_mwh" i)) ∧
      (s.NoArbitrage → (s.pooled t).readCost W ≤ s.readCost V + t.readCost V') ∧
      (s.pooled t).readEmissions W = s.readEmissions V + t.readEmissions V' ∧ (s.pooled t).readSpill W = s.readSpill V + t.readSpill V' := by
  have hd := pool_dispatch hal (constructed_rows hs).1 (constructed_rows ht).1 hc hw hw' h h'
  refine ⟨poolTable t V V', hd, fun a ha k hk => (pool_left hc ha k hk).symm, fun a ha k hk => (pool_right ha k hk).symm, fun i hi => ?_,
    pool_values hal hc hw hw' h h'⟩
  have e := hd.electricity i hi
  have a := h.electricity i hi
  have b := h'.electricity i (hal.intervals ▸ hi)
  rw [pool_sum hc hw hw', pool_sum hc hw hw', pool_sum hc hw hw', pool_sum hc hw hw', (hd.inputs.loads i hi).1] at e
  rw [(h.inputs.loads i hi).1] at a
  rw [(h'.inputs.loads i (hal.intervals ▸ hi)).1] at b
  have l : (s.pooled t).data.electricLoad.getD i 0 = s.data.electricLoad.getD i 0 + t.data.electricLoad.getD i 0 :=
    addEach_getD ((constructed_rows hs).1 i hi).1 ((constructed_rows ht).1 i (hal.intervals ▸ hi)).1
  rw [l] at e
  linarith

/-- C84: behind one meter an exact solver finds a bill no higher than the two bills together, whatever the objectives, the solvers and the custom
constraints of the two. -/
theorem C84_price (h : Run s o flags S r V) (h' : Run t o' flags S' r' V') (hu : Run (s.pooled t) (.str "price") flags T u W) (hT : T.Exact)
    (hal : s.Alike t) (hc : (s.pooled t).ClearNames) (hw : ∀ a ∈ s.assets, a.WellNamed) (hw' : ∀ a ∈ t.assets, a.WellNamed) (he : s.PlainEvs)
    (he' : t.PlainEvs) (hg : s.ChpsConvert) (hg' : t.ChpsConvert) (hf : 0 ≤ s.freqMins) (hp : s.NoArbitrage) :
    (s.pooled t).readCost W + spillPenalty * (s.pooled t).readSpill W ≤
      (s.readCost V + spillPenalty * s.readSpill V) + (t.readCost V' + spillPenalty * t.readSpill V') := by
  have d := C81_valid h hw (fun c hc => by obtain ⟨a, ha, -⟩ := he c hc; exact ⟨a, ha⟩) hf hg
  have d' := C81_valid h' hw' (fun c hc => by obtain ⟨a, ha, -⟩ := he' c hc; exact ⟨a, ha⟩) (hal.freq ▸ hf) hg'
  obtain ⟨X, hX, -, -, -, k1, -, k3⟩ := C84_dispatch h.constructed h'.constructed hal hc hw hw' d d'
  refine le_trans (C81_cheapest hu hT ?_ (readable_nil rfl) ?_ hf hX (obeys_nil rfl)) ?_
  · intro a ha
    exact (List.mem_append.1 ha).elim (hw a) (hw' a)
  · intro c hc
    exact (List.mem_append.1 hc).elim (he c) (he' c)
  · rw [k3, mul_add]
    linarith [k1 hp]

/-- C84: and emissions no higher than those of the two together, whatever the prices. -/
theorem C84_carbon (h : Run s o flags S r V) (h' : Run t o' flags S' r' V') (hu : Run (s.pooled t) (.str "carbon") flags T u W) (hT : T.Exact)
    (hal : s.Alike t) (hc : (s.pooled t).ClearNames) (hw : ∀ a ∈ s.assets, a.WellNamed) (hw' : ∀ a ∈ t.assets, a.WellNamed) (he : s.PlainEvs)
    (he' : t.PlainEvs) (hg : s.ChpsConvert) (hg' : t.ChpsConvert) (hf : 0 ≤ s.freqMins) :
    (s.pooled t).readEmissions W + spillPenalty * (s.pooled t).readSpill W ≤
      (s.readEmissions V + spillPenalty * s.readSpill V) + (t.readEmissions V' + spillPenalty * t.readSpill V') := by
  have d := C81_valid h hw (fun c hc => by obtain ⟨a, ha, -⟩ := he c hc; exact ⟨a, ha⟩) hf hg
  have d' := C81_valid h' hw' (fun c hc => by obtain ⟨a, ha, -⟩ := he' c hc; exact ⟨a, ha⟩) (hal.freq ▸ hf) hg'
  obtain ⟨X, hX, -, -, -, -, k2, k3⟩ := C84_dispatch h.constructed h'.constructed hal hc hw hw' d d'
  refine le_trans (C81_greenest hu hT ?_ (readable_nil rfl) ?_ hf hX (obeys_nil rfl)) ?_
  · intro a ha
    exact (List.mem_append.1 ha).elim (hw a) (hw' a)
  · intro c hc
    exact (List.mem_append.1 hc).elim (he c) (he' c)
  · rw [k3, k2, mul_add]
    linarith

/-- C84: in the objective values that are reported: pooling never costs. -/
theorem C84_objective (h : Run s (.str "price") flags S r V) (h' : Run t (.str "price") flags S' r' V')
    (hu : Run (s.pooled t) (.str "price") flags T u W) (hT : T.Exact)
    (hal : s.Alike t) (hc : (s.pooled t).ClearNames) (hw : ∀ a ∈ s.assets, a.WellNamed) (hw' : ∀ a ∈ t.assets, a.WellNamed) (he : s.PlainEvs)
    (he' : t.PlainEvs) (hg : s.ChpsConvert) (hg' : t.ChpsConvert) (hf : 0 ≤ s.freqMins) (hp : s.NoArbitrage) :
    ∃ x y z, r.status.objective = some x ∧ r'.status.objective = some y ∧ u.status.objective = some z ∧ z ≤ x + y :=
  ⟨_, _, _, C40_results h hw, C40_results h' hw', C40_results hu (fun a ha => (List.mem_append.1 ha).elim (hw a) (hw' a)),
    C84_price h h' hu hT hal hc hw hw' he he' hg hg' hf hp⟩

end

/-! ### A concrete case -/

/-- C84: a wind farm that sells 5 MWh at 2 and a factory that buys 4 MWh at 10: -10 and 40 on their own, -2 behind one meter. -/
example : ∃ (s t : Site) (S S' T : Solver) (r r' u : SimResult) (V V' W : String → Nat → ℚ), Run s (.str "price") {} S r V ∧
    Run t (.str "price") {} S' r' V' ∧ Run (s.pooled t) (.str "price") {} T u W ∧ T.Exact ∧ s.Alike t ∧ (s.pooled t).ClearNames ∧
    (∀ a ∈ s.assets, a.WellNamed) ∧ (∀ a ∈ t.assets, a.WellNamed) ∧ s.PlainEvs ∧ t.PlainEvs ∧ s.ChpsConvert ∧ t.ChpsConvert ∧ 0 ≤ s.freqMins ∧
    s.NoArbitrage ∧ r.status.objective = some (-10) ∧ r'.status.objective = some 40 ∧ u.status.objective = some (-2) := by
  obtain ⟨s, r, V, S, hs, hS, h, ht⟩ := Demo.runOptimal demoFarm_test
  obtain ⟨t, r', V', S', hs', hS', h', ht'⟩ := Demo.runOptimal demoFactory_test
  obtain ⟨b, u, W, T, hb, hT, hu, htb⟩ := Demo.runOptimal demoBoth_test
  simp only [Bool.and_eq_true, decide_eq_true_eq] at ht ht' htb
  obtain ⟨h1, h3⟩ := ht
  obtain ⟨h1', h3'⟩ := ht'
  obtain ⟨hb1, hb3⟩ := htb
  have n := site_new hs
  have n' := site_new hs'
  have nb := site_new hb
  have hd : s.data = ⟨1, [10], [2], [1/10], [20], [0], [0], [0], [0], []⟩ := by
    have a : demoFarm.site.toOption.map Site.data = some ⟨1, [10], [2], [1/10], [20], [0], [0], [0], [0], []⟩ := by decide +kernel
    rw [hs] at a
    exact Option.some.inj a
  have hd' : t.data = ⟨1, [10], [2], [1/10], [20], [4], [0], [0], [0], []⟩ := by
    have a : demoFactory.site.toOption.map Site.data = some ⟨1, [10], [2], [1/10], [20], [4], [0], [0], [0], []⟩ := by decide +kernel
    rw [hs'] at a
    exact Option.some.inj a
  have hdb : b.data = ⟨1, [10], [2], [1/10], [20], [4], [0], [0], [0], []⟩ := by
    have a : demoBoth.site.toOption.map Site.data = some ⟨1, [10], [2], [1/10], [20], [4], [0], [0], [0], []⟩ := by decide +kernel
    rw [hb] at a
    exact Option.some.inj a
  have e : s.pooled t = b := by
    obtain ⟨a, d, f, il, el, cs⟩ := s
    obtain ⟨a', d', f', il', el', cs'⟩ := t
    obtain ⟨ab, db, fb, ilb, elb, csb⟩ := b
    have q1 := n.freq; have q2 := n.importLimit; have q3 := n.exportLimit; have q4 := n.constraints
    have q1' := n'.freq; have q2' := n'.importLimit; have q3' := n'.exportLimit; have q4' := n'.constraints
    have qb1 := nb.freq; have qb2 := nb.importLimit; have qb3 := nb.exportLimit; have qb4 := nb.constraints
    simp only at h1 h1' hb1 hd hd' hdb q1 q2 q3 q4 q1' q2' q3' q4' qb1 qb2 qb3 qb4
    subst h1 h1' hb1 hd hd' hdb q1 q2 q3 q4 q1' q2' q3' q4' qb1 qb2 qb3 qb4
    have z : addEach [0] [0] = [0] := by decide +kernel
    have z' : addEach [0] [4] = [4] := by decide +kernel
    have hlim : (10000 : ℚ) + 10000 = 20000 := by norm_num
    show Site.mk _ ⟨1, [10], [2], [1/10], [20], addEach [0] [4], addEach [0] [0], addEach [0] [0], addEach [0] [0], []⟩ 60 ((10000 : ℚ) + 10000)
      ((10000 : ℚ) + 10000) _ = Site.mk _ _ 60 20000 20000 _
    rw [z, z', hlim]
    rfl
  have hw : ∀ a ∈ s.assets, a.WellNamed := by rw [h1]; decide +kernel
  have hw' : ∀ a ∈ t.assets, a.WellNamed := by rw [h1']; decide +kernel
  refine ⟨s, t, S, S', T, r, r', u, V, V', W, h, h', by rw [e]; exact hu, hT, ⟨?_, ?_, ?_, ?_, ?_, ?_⟩, ⟨?_, ?_, ?_, ?_, ?_, ?_⟩, hw, hw', ?_, ?_, ?_, ?_,
    by rw [n.freq]; decide +kernel, ?_, h3, h3', hb3⟩
  · rw [hd, hd']
  · rw [n.freq, n'.freq]; rfl
  · rw [hd, hd']
  · rw [hd, hd']
  · rw [hd, hd']
  · rw [hd, hd']
  · rw [e, hb1]; decide +kernel
  · rw [e, hb1]; decide +kernel
  · rw [e, hb1]; decide +kernel
  · intro c hc; rw [e, hb1] at hc; simp at hc
  · rw [e, hdb]; simp
  · rw [e, hdb]; simp
  · intro c hc; rw [h1] at hc; simp at hc
  · intro c hc; rw [h1'] at hc; simp at hc
  · intro c hc; rw [h1] at hc; simp at hc
  · intro c hc; rw [h1'] at hc; simp at hc
  · intro i hi
    rw [hd] at hi ⊢
    rw [Nat.lt_one_iff] at hi
    subst hi
    decide +kernel

end EPL
