/-
C83: a plant `q` times as large costs and emits `q` times as much.
-/
import Verif.Proofs.Scale
import Verif.Props.Dispatch
import Verif.Spec.DemoScale

namespace EPL

section
variable {s : Site} {flags : Flags} {S S' : Solver} {r r' : SimResult} {V V' W : String → Nat → ℚ} {q : ℚ}

/-- C83: the valid dispatches of the larger plant are the valid dispatches of the plant, multiplied. -/
theorem C83_dispatch (hq : 0 < q) (he : ∀ c, Asset.evs c ∉ s.assets) (x y z : ℚ) :
    (∃ W, s.Dispatch flags W ∧ s.readCost W = x ∧ s.readEmissions W = y ∧ s.readSpill W = z) ↔
    ∃ W', (s.scaled q).Dispatch flags W' ∧ (s.scaled q).readCost W' = q * x ∧ (s.scaled q).readEmissions W' = q * y ∧
      (s.scaled q).readSpill W' = q * z := by
  constructor
  · rintro ⟨W, hW, rfl, rfl, rfl⟩
    exact ⟨scaleTable q W, dispatch_scaled hq he hW, values_scaled⟩
  · rintro ⟨W', hW', h1, h2, h3⟩
    have he' : ∀ c, Asset.evs c ∉ (s.scaled q).assets := by
      intro c hc
      obtain ⟨b, hb, e⟩ := List.mem_map.1 hc
      cases b <;> simp only [Asset.scaled, reduceCtorEq, Asset.evs.injEq] at e
      exact he _ hb
    have d := dispatch_scaled (inv_pos.2 hq) he' hW'
    obtain ⟨v1, v2, v3⟩ := values_scaled (s := s.scaled q) (q := q⁻¹) (W := W')
    rw [scaled_back hq] at d v1 v2 v3
    have e : ∀ x : ℚ, q⁻¹ * (q * x) = x := fun x => by rw [← mul_assoc, inv_mul_cancel₀ hq.ne', one_mul]
    exact ⟨_, d, by rw [v1, h1, e], by rw [v2, h2, e], by rw [v3, h3, e]⟩

theorem scaled_wellNamed (hw : ∀ a ∈ s.assets, a.WellNamed) : ∀ a ∈ (s.scaled q).assets, a.WellNamed := by
  intro a ha
  obtain ⟨b, hb, rfl⟩ := List.mem_map.1 ha
  have := hw b hb
  cases b <;> exact this

theorem scaled_noEvs (he : ∀ c, Asset.evs c ∉ s.assets) : ∀ c, Asset.evs c ∉ (s.scaled q).assets := by
  intro c hc
  obtain ⟨b, hb, e⟩ := List.mem_map.1 hc
  cases b <;> simp only [Asset.scaled, reduceCtorEq, Asset.evs.injEq] at e
  exact he _ hb

theorem scaled_chps (hg : s.ChpsConvert) : (s.scaled q).ChpsConvert := by
  intro c hc
  obtain ⟨b, hb, e⟩ := List.mem_map.1 hc
  cases b <;> simp only [Asset.scaled, reduceCtorEq, Asset.chp.injEq] at e
  rename_i c0
  subst e
  exact hg c0 hb

/-- C83: every power, capacity, load, generation and limit multiplied by `q`: exact solvers return `q` times the objective (a MWh of spill counts with
its penalty). -/
theorem C83_scaled {name : String} (hname : name = "price" ∨ name = "carbon") (hq : 0 < q) (h : Run s (.str name) flags S r V) (hS : S.Exact)
    (h' : Run (s.scaled q) (.str name) flags S' r' V') (hS' : S'.Exact) (hw : ∀ a ∈ s.assets, a.WellNamed) (hc : s.constraints = [])
    (he : ∀ c, Asset.evs c ∉ s.assets) (hf : 0 ≤ s.freqMins) (hg : s.ChpsConvert) :
    ∃ x, r.status.objective = some x ∧ r'.status.objective = some (q * x) := by
  have hw' := scaled_wellNamed (q := q) hw
  have he' := scaled_noEvs (q := q) he
  have d := C81_valid h hw (fun c hc => absurd hc (he c)) hf hg
  have d' := C81_valid h' hw' (fun c hc => absurd hc (he' c)) hf (scaled_chps hg)
  obtain ⟨W', hW', a1, a2, a3⟩ := (C83_dispatch hq he _ _ _).1 ⟨V, d, rfl, rfl, rfl⟩
  have e : ∀ x : ℚ, q * (q⁻¹ * x) = x := fun x => by rw [← mul_assoc, mul_inv_cancel₀ hq.ne', one_mul]
  obtain ⟨W, hW, b1, b2, b3⟩ := (C83_dispatch (s := s) hq he (q⁻¹ * (s.scaled q).readCost V') (q⁻¹ * (s.scaled q).readEmissions V')
    (q⁻¹ * (s.scaled q).readSpill V')).2 ⟨V', d', (e _).symm, (e _).symm, (e _).symm⟩
  have up : ∀ x y : ℚ, x ≤ q⁻¹ * y → q * x ≤ y := fun x y hxy => by
    have := mul_le_mul_of_nonneg_left hxy hq.le
    rwa [e] at this
  rcases hname with rfl | rfl
  · refine ⟨_, C40_results h hw, ?_⟩
    rw [C40_results h' hw', Option.some.injEq]
    have l := C81_cheapest h' hS' hw' (readable_nil hc) (fun c hc => absurd hc (he' c)) hf hW' (obeys_nil hc)
    have u := C81_cheapest h hS hw (readable_nil hc) (fun c hc => absurd hc (he c)) hf hW (obeys_nil hc)
    rw [a1, a3] at l
    rw [b1, b3] at u
    have u' := up _ ((s.scaled q).readCost V' + spillPenalty * (s.scaled q).readSpill V') (u.trans (le_of_eq (by ring)))
    linarith
  · refine ⟨_, C41_results h hw, ?_⟩
    rw [C41_results h' hw', Option.some.injEq]
    have l := C81_greenest h' hS' hw' (readable_nil hc) (fun c hc => absurd hc (he' c)) hf hW' (obeys_nil hc)
    have u := C81_greenest h hS hw (readable_nil hc) (fun c hc => absurd hc (he c)) hf hW (obeys_nil hc)
    rw [a2, a3] at l
    rw [b2, b3] at u
    have u' := up _ ((s.scaled q).readEmissions V' + spillPenalty * (s.scaled q).readSpill V') (u.trans (le_of_eq (by ring)))
    linarith

end

/-! ### A concrete case -/

/-- C83: a battery of 2 MWh, loads 5 and 5, prices 10 and 100: 370.  Twice as large: 740. -/
example : ∃ (s : Site) (S S' : Solver) (r r' : SimResult) (V V' : String → Nat → ℚ), Run s (.str "price") {} S r V ∧ S.Exact ∧
    Run (s.scaled 2) (.str "price") {} S' r' V' ∧ S'.Exact ∧ (∀ a ∈ s.assets, a.WellNamed) ∧ s.constraints = [] ∧ (∀ c, Asset.evs c ∉ s.assets) ∧
    0 ≤ s.freqMins ∧ s.ChpsConvert ∧ r.status.objective = some 370 ∧ r'.status.objective = some 740 := by
  obtain ⟨s, r, V, S, hs, hS, h, ht⟩ := Demo.runOptimal demoGrow_small
  obtain ⟨s', r', V', S', hs', hS', h', ht'⟩ := Demo.runOptimal demoDouble_test
  simp only [Bool.and_eq_true, decide_eq_true_eq] at ht ht'
  obtain ⟨⟨h1, h2⟩, h3⟩ := ht
  obtain ⟨⟨h1', h2'⟩, h3'⟩ := ht'
  have n := site_new hs
  have n' := site_new hs'
  have hd : s.data = ⟨2, [10, 100], [10, 100], [1/10, 1/10], [20, 20], [5, 5], [0, 0], [0, 0], [0, 0], []⟩ := by
    have a : (demoGrow 2).site.toOption.map Site.data =
        some ⟨2, [10, 100], [10, 100], [1/10, 1/10], [20, 20], [5, 5], [0, 0], [0, 0], [0, 0], []⟩ := by decide +kernel
    rw [hs] at a
    exact Option.some.inj a
  have hd' : s'.data = ⟨2, [10, 100], [10, 100], [1/10, 1/10], [20, 20], [10, 10], [0, 0], [0, 0], [0, 0], []⟩ := by
    have a : demoDouble.site.toOption.map Site.data =
        some ⟨2, [10, 100], [10, 100], [1/10, 1/10], [20, 20], [10, 10], [0, 0], [0, 0], [0, 0], []⟩ := by decide +kernel
    rw [hs'] at a
    exact Option.some.inj a
  have e : s.scaled 2 = s' := by
    obtain ⟨a, d, f, il, el, cs⟩ := s
    obtain ⟨a', d', f', il', el', cs'⟩ := s'
    have q1 := n.freq; have q2 := n.importLimit; have q3 := n.exportLimit; have q4 := n.constraints
    have q1' := n'.freq; have q2' := n'.importLimit; have q3' := n'.exportLimit; have q4' := n'.constraints
    simp only at h1 h1' hd hd' q1 q2 q3 q4 q1' q2' q3' q4'
    subst h1 h1' hd hd' q1 q2 q3 q4 q1' q2' q3' q4'
    have hdat : SiteData.scaled 2 ⟨2, [10, 100], [10, 100], [1/10, 1/10], [20, 20], [5, 5], [0, 0], [0, 0], [0, 0], []⟩ =
        ⟨2, [10, 100], [10, 100], [1/10, 1/10], [20, 20], [10, 10], [0, 0], [0, 0], [0, 0], []⟩ := by decide +kernel
    have has : [Asset.battery (growBattery 2)].map (Asset.scaled 2) = [.battery doubleBattery] := by decide +kernel
    have hlim : (2 : ℚ) * 10000 = 20000 := by norm_num
    show Site.mk ([Asset.battery (growBattery 2)].map (Asset.scaled 2)) (SiteData.scaled 2 _) 60 ((2 : ℚ) * 10000) ((2 : ℚ) * 10000) _ =
      Site.mk _ _ 60 20000 20000 _
    rw [hdat, has, hlim]
    rfl
  have hw : ∀ a ∈ s.assets, a.WellNamed := by rw [h1]; decide +kernel
  subst e
  refine ⟨s, S, S', r, r', V, V', h, hS, h', hS', hw, n.constraints, ?_, by rw [n.freq]; decide +kernel, ?_, h3, h3'⟩
  · intro c hc; rw [h1] at hc; simp at hc
  · intro c hc; rw [h1] at hc; simp at hc

end EPL
