/-
C79: planning over a longer horizon is never worse, and the parts of an optimal plan are optimal plans of the parts.
-/
import Verif.Props.Prices
import Verif.Spec.DemoHorizon
import Verif.Proofs.HorizonJoin

namespace EPL

section
variable {s : Site} {name : String} {flags : Flags} {S S' S1 S2 : Solver} {r r' r1 r2 : SimResult} {V V' V1 V2 : String → Nat → ℚ}
  {k m l : Nat} {start mid stop : String → ℚ}

/-- C79: a plan of the first `m` intervals and a plan of the rest that starts with the charges the first one ends with make a plan of the whole,
whose value is the sum of the two. -/
theorem C79_join {p p1 p2 : Prob} {σ τ1 τ2 : Assign} (hp : Answer s (.str name) flags p σ) (hs : s.Steady) (hname : name = "price" ∨ name = "carbon")
    (hm : 0 < m) (hl : 0 < l) (hn : m + l = s.data.n) (hc : s.Charged start stop)
    (h1 : Answer (s.part 0 m start mid) (.str name) flags p1 τ1) (h2 : Answer (s.part m l mid stop) (.str name) flags p2 τ2) :
    ∃ τ, Answer s (.str name) flags p τ ∧ p.obj.eval τ = p1.obj.eval τ1 + p2.obj.eval τ2 := by
  obtain ⟨iv, e⟩ := hp.program
  obtain ⟨iv1, e1⟩ := h1.program
  obtain ⟨iv2, e2⟩ := h2.program
  refine ⟨joined m τ1 τ2, ⟨⟨iv, e⟩, join_feasible e hs hm hl hn hc e1 e2 h1.feasible h2.feasible⟩, ?_⟩
  exact join_value e hs hn hname e1 e2 (fun i hi => joined_first hi) (fun i _ => joined_second i)

/-- C79: looking ahead over the whole horizon is never worse than planning the first intervals and then the rest, whatever charge the batteries are
left with in between. -/
theorem C79_ahead (h : Run s (.str name) flags S r V) (hS : S.Exact) (hs : s.Steady) (hname : name = "price" ∨ name = "carbon")
    (hm : 0 < m) (hl : 0 < l) (hn : m + l = s.data.n) (hc : s.Charged start stop)
    (h1 : Run (s.part 0 m start mid) (.str name) flags S1 r1 V1) (h2 : Run (s.part m l mid stop) (.str name) flags S2 r2 V2) :
    ∃ q q1 q2, r.status.objective = some q ∧ r1.status.objective = some q1 ∧ r2.status.objective = some q2 ∧ q ≤ q1 + q2 := by
  obtain ⟨p, σ, hco⟩ := h.core
  obtain ⟨p1, σ1, hco1⟩ := h1.core
  obtain ⟨p2, σ2, hco2⟩ := h2.core
  obtain ⟨τ, ⟨⟨iv, hp⟩, hτ⟩, e⟩ := C79_join ⟨⟨_, hco.program⟩, hco.feas⟩ hs hname hm hl hn hc ⟨⟨_, hco1.program⟩, hco1.feas⟩
    ⟨⟨_, hco2.program⟩, hco2.feas⟩
  exact ⟨_, _, _, objective_value hco, objective_value hco1, objective_value hco2, e ▸ (core_optimal hco hS h.feasible).2 τ hτ⟩

/-- C79: without batteries the intervals have nothing to do with each other: planning them together or one after the other gives the same optimum. -/
theorem C79_independent (h : Run s (.str name) flags S r V) (hS : S.Exact) (hs : s.Steady) (hname : name = "price" ∨ name = "carbon")
    (hb : ∀ c, Asset.battery c ∉ s.assets) (hm : 0 < m) (hl : 0 < l) (hn : m + l = s.data.n)
    (h1 : Run (s.part 0 m start mid) (.str name) flags S1 r1 V1) (hS1 : S1.Exact) (h2 : Run (s.part m l mid stop) (.str name) flags S2 r2 V2)
    (hS2 : S2.Exact) :
    ∃ q q1 q2, r.status.objective = some q ∧ r1.status.objective = some q1 ∧ r2.status.objective = some q2 ∧ q = q1 + q2 := by
  obtain ⟨q, q1, q2, e, e1, e2, hle⟩ := C79_ahead h hS hs hname hm hl hn (fun c hc => absurd hc (hb c)) h1 h2
  refine ⟨q, q1, q2, e, e1, e2, le_antisymm hle ?_⟩
  obtain ⟨p, σ, hco⟩ := h.core
  obtain ⟨p1, σ1, hco1⟩ := h1.core
  obtain ⟨p2, σ2, hco2⟩ := h2.core
  rw [objective_value hco, Option.some.injEq] at e
  rw [objective_value hco1, Option.some.injEq] at e1
  rw [objective_value hco2, Option.some.injEq] at e2
  have l1 := (core_optimal hco1 hS1 h1.feasible).2 _ (window_feasible (m := m) hco.program hs hm (by omega) hco1.program hco.feas
    (fun c hc => absurd hc (hb c)) (fun c hc => absurd hc (hb c)))
  have l2 := (core_optimal hco2 hS2 h2.feasible).2 _ (window_feasible (m := l) hco.program hs hl (by omega) hco2.program hco.feas
    (fun c hc => absurd hc (hb c)) (fun c hc => absurd hc (hb c)))
  have := join_value (σ := σ) hco.program hs hn hname hco1.program hco2.program (fun i _ v _ _ => rfl) (fun i _ v _ _ => rfl)
  rw [← e, ← e1, ← e2, this]
  exact add_le_add l1 l2

/-- C79: a rolling horizon: planning any number of consecutive windows, one after the other, each starting with the charges the window before ended
with, is never better than planning the whole horizon at once. -/
theorem C79_rolling (h : Run s (.str name) flags S r V) (hS : S.Exact) (hs : s.Steady) (hname : name = "price" ∨ name = "carbon")
    (h0 : 0 < s.data.n) (windows : List Nat) (charge : Nat → String → ℚ) (hpos : ∀ m ∈ windows, 0 < m) (hsum : windows.sum = s.data.n)
    (hc : s.Charged (charge 0) (charge windows.length)) {Sw : Nat → Solver} {rw : Nat → SimResult} {Vw : Nat → String → Nat → ℚ} {qw : Nat → ℚ}
    (hrun : ∀ j (hj : j < windows.length),
      Run (s.part (windows.take j).sum windows[j] (charge j) (charge (j + 1))) (.str name) flags (Sw j) (rw j) (Vw j))
    (hqw : ∀ j < windows.length, (rw j).status.objective = some (qw j)) :
    ∃ q, r.status.objective = some q ∧ q ≤ ((List.range windows.length).map qw).sum := by
  obtain ⟨p, σ, hco⟩ := h.core
  have P := program_spec hco.program
  have htake : ∀ j, (windows.take j).sum ≤ windows.sum := by
    intro j
    conv_rhs => rw [← List.take_append_drop j windows, List.sum_append]
    omega
  have key : ∀ j ≤ windows.length, ∃ τ, s.Begun flags name (windows.take j).sum (charge j) τ ∧
      ((List.range (windows.take j).sum).map (s.valueAt name flags τ)).sum = ((List.range j).map qw).sum := by
    intro j
    induction j with
    | zero =>
      intro _
      refine ⟨σ, ?_, by simp⟩
      constructor <;> intros <;> simp_all
    | succ j ih =>
      intro hj
      obtain ⟨τ, hτ, e⟩ := ih (by omega)
      have hj' : j < windows.length := by omega
      have hsucc : (windows.take (j + 1)).sum = (windows.take j).sum + windows[j] := by
        rw [List.take_succ_eq_append_getElem hj', List.sum_append]; simp
      have hw0 : 0 < windows[j] := hpos _ (List.getElem_mem hj')
      have hle := htake (j + 1)
      have hrj := hrun j hj'
      obtain ⟨pj, σj, hcj⟩ := hrj.core
      refine ⟨spliced (windows.take j).sum windows[j] τ σj, ?_, ?_⟩
      · rw [hsucc]
        refine begun_next P hs hw0 (by omega) ?_ hcj.program hτ hcj.feas
        intro hz c hcm
        have : j = 0 := by
          rcases Nat.eq_zero_or_pos j with hz' | hpj
          · exact hz'
          · exfalso
            have h1 : 0 < (windows.take j).sum := by
              rw [show j = j - 1 + 1 by omega, List.take_succ_eq_append_getElem (by omega), List.sum_append]
              have := hpos _ (List.getElem_mem (l := windows) (n := j - 1) (by omega))
              simp only [List.sum_cons, List.sum_nil]
              omega
            omega
        subst this
        exact (hc c hcm).1
      · rw [hsucc, sum_range_add, List.range_succ, List.map_append, List.sum_append, ← e]
        simp only [List.map_cons, List.map_nil, List.sum_cons, List.sum_nil, add_zero]
        congr 1
        · apply list_sum_congr
          intro i hi
          rw [List.mem_range] at hi
          exact (value_later (partOf_self hs) (by omega) (spliced_outside (.inl hi))).symm
        · have ev := hqw j hj'
          rw [objective_value hcj, Option.some.injEq] at ev
          rw [← ev, value_sum hcj.program hname]
          apply list_sum_congr
          intro i hi
          rw [List.mem_range] at hi
          exact (value_later (part_partOf hs (by omega)) hi (spliced_inside hi)).symm
  obtain ⟨τ, hτ, e⟩ := key windows.length (Nat.le_refl _)
  rw [List.take_length, hsum] at hτ e
  refine ⟨_, objective_value hco, ?_⟩
  rw [← e, ← value_sum hco.program hname]
  exact (core_optimal hco hS h.feasible).2 τ (begun_feasible P hs h0 hτ fun c hcm => (hc c hcm).2)

theorem battery_charges {objective : Objective} {p : Prob} {σ : Assign} (hco : Core s objective flags S r V p σ) (hw : ∀ a ∈ s.assets, a.WellNamed)
    {c : BatteryCfg} (hc : Asset.battery c ∈ s.assets) {i : Nat} (hi : i < s.data.n) :
    V (c.name ++ "-electric_initial_charge_mwh") i = σ (.asset c.name "electric_initial_charge_mwh" i) ∧
    V (c.name ++ "-electric_final_charge_mwh") i = σ (.asset c.name "electric_final_charge_mwh" i) := by
  obtain ⟨_, _, _, e1, e2, _⟩ := battery_cells hco hc (hw _ hc).ne_total hi
  exact ⟨e1, e2⟩

/-- What the results say of some of the intervals. -/
theorem window_read {p : Prob} {σ : Assign} (hco : Core s (.str name) flags S r V p σ) (hw : ∀ a ∈ s.assets, a.WellNamed) (hn : m + k ≤ s.data.n) :
    (name = "price" → ((List.range m).map (fun i => s.valueAt name flags σ (i + k))).sum = s.readCostOf V k m + spillPenalty * s.readSpillOf V k m) ∧
    (name = "carbon" → ((List.range m).map (fun i => s.valueAt name flags σ (i + k))).sum =
      s.readEmissionsOf V k m + spillPenalty * s.readSpillOf V k m) := by
  have hne : ("carbon" : String) ≠ "price" := by decide
  constructor
  · rintro rfl
    unfold Site.readCostOf Site.readSpillOf
    rw [mul_comm, ← list_sum_mul_right, ← list_sum_add]
    apply list_sum_congr
    intro i hi
    rw [List.mem_range] at hi
    have hik : k + i < s.data.n := by omega
    obtain ⟨e1, e2, _, e4⟩ := price_cells hco hik
    have e5 : V "site-import_power_mwh" (k + i) = importOf σ (k + i) := hco.import_cell hik
    have e6 : V "site-export_power_mwh" (k + i) = exportOf σ (k + i) := hco.export_cell hik
    rw [Nat.add_comm i k, e1, e2, e4, gas_read hco hw hik, spill_read hco hw hik, e5, e6]
    simp only [Site.valueAt, if_true]
    ring
  · rintro rfl
    unfold Site.readEmissionsOf Site.readSpillOf
    rw [mul_comm, ← list_sum_mul_right, ← list_sum_add]
    apply list_sum_congr
    intro i hi
    rw [List.mem_range] at hi
    have hik : k + i < s.data.n := by omega
    obtain ⟨_, _, e3, _⟩ := price_cells hco hik
    have e5 : V "site-import_power_mwh" (k + i) = importOf σ (k + i) := hco.import_cell hik
    have e6 : V "site-export_power_mwh" (k + i) = exportOf σ (k + i) := hco.export_cell hik
    rw [Nat.add_comm i k, e3, gas_read hco hw hik, spill_read hco hw hik, e5, e6]
    simp only [Site.valueAt, hne, if_false]
    ring

/-- The part of a run. -/
theorem window_run (h : Run s (.str name) flags S r V) (hS : S.Exact) (hs : s.Steady) (hname : name = "price" ∨ name = "carbon")
    (hw : ∀ a ∈ s.assets, a.WellNamed) (hm : 0 < m) (hn : m + k ≤ s.data.n)
    (h' : Run (s.part k m (fun b => V (b ++ "-electric_initial_charge_mwh") k) (fun b => V (b ++ "-electric_final_charge_mwh") (k + m - 1)))
      (.str name) flags S' r' V') (hS' : S'.Exact) :
    ∃ (p : Prob) (σ : Assign), Core s (.str name) flags S r V p σ ∧
      r'.status.objective = some ((List.range m).map (fun i => s.valueAt name flags σ (i + k))).sum := by
  obtain ⟨p, σ, hco⟩ := h.core
  obtain ⟨p', σ', hco'⟩ := h'.core
  refine ⟨p, σ, hco, ?_⟩
  have hopt := window_optimal hco.program hs hm hn hname hco'.program (core_optimal hco hS h.feasible)
    (fun c hc => (battery_charges hco hw hc (by omega)).1) (fun c hc => (battery_charges hco hw hc (by omega)).2)
  have hopt' := core_optimal hco' hS' h'.feasible
  rw [objective_value hco', ← window_value hs hn hname hco'.program]
  exact congrArg some (le_antisymm (hopt'.2 _ hopt.1) (hopt.2 _ hopt'.1))

/-- C79: the principle of optimality.  Plan again some consecutive intervals of an optimal plan, with the batteries starting and ending as in that
plan: the new optimum is what the intervals cost in the plan, so nothing is gained. -/
theorem C79_principle (h : Run s (.str "price") flags S r V) (hS : S.Exact) (hs : s.Steady) (hw : ∀ a ∈ s.assets, a.WellNamed)
    (hm : 0 < m) (hn : k + m ≤ s.data.n)
    (h' : Run (s.part k m (fun b => V (b ++ "-electric_initial_charge_mwh") k) (fun b => V (b ++ "-electric_final_charge_mwh") (k + m - 1)))
      (.str "price") flags S' r' V') (hS' : S'.Exact) :
    r'.status.objective = some (s.readCostOf V k m + spillPenalty * s.readSpillOf V k m) := by
  obtain ⟨p, σ, hco, e⟩ := window_run h hS hs (.inl rfl) hw hm (by omega) h' hS'
  rw [e, (window_read hco hw (by omega)).1 rfl]

/-- C79: likewise for carbon. -/
theorem C79_principle_carbon (h : Run s (.str "carbon") flags S r V) (hS : S.Exact) (hs : s.Steady) (hw : ∀ a ∈ s.assets, a.WellNamed)
    (hm : 0 < m) (hn : k + m ≤ s.data.n)
    (h' : Run (s.part k m (fun b => V (b ++ "-electric_initial_charge_mwh") k) (fun b => V (b ++ "-electric_final_charge_mwh") (k + m - 1)))
      (.str "carbon") flags S' r' V') (hS' : S'.Exact) :
    r'.status.objective = some (s.readEmissionsOf V k m + spillPenalty * s.readSpillOf V k m) := by
  obtain ⟨p, σ, hco, e⟩ := window_run h hS hs (.inr rfl) hw hm (by omega) h' hS'
  rw [e, (window_read hco hw (by omega)).2 rfl]

end

/-! ### The hypotheses are met -/

/-- The site of the demonstrations is the part of the larger one. -/
theorem demoPart_site {s t : Site} {price start stop : ℚ} {k : Nat} (hs : (demoGrow 4).site = .ok s) (ht : (demoPart price start stop).site = .ok t)
    (hsa : s.assets = [.battery (growBattery 4)]) (hta : t.assets = [.battery { growBattery 4 with initialCharge := start, finalCharge := stop }])
    (hd : t.data = s.data.part k 1) {f g : String → ℚ} (hf : f "battery" = start) (hg : g "battery" = stop) : t = s.part k 1 f g := by
  have n := site_new hs
  have n' := site_new ht
  have e1 : t.assets = (s.part k 1 f g).assets := by
    rw [hta]
    simp only [Site.part, hsa, List.map_cons, List.map_nil, Asset.part, growBattery, hf, hg]
  have e2 : t.freqMins = s.freqMins := by rw [n.freq, n'.freq]; rfl
  have e3 : t.importLimit = s.importLimit := by rw [n.importLimit, n'.importLimit]; rfl
  have e4 : t.exportLimit = s.exportLimit := by rw [n.exportLimit, n'.exportLimit]; rfl
  have e5 : t.constraints = s.constraints := by rw [n.constraints, n'.constraints]; rfl
  cases t
  cases s
  simp only [Site.part] at e1 e2 e3 e4 e5 hd ⊢
  simp only [e1, e2, e3, e4, e5, hd]

theorem demoPart_steady {s : Site} (hs : (demoGrow 4).site = .ok s) (hsa : s.assets = [.battery (growBattery 4)]) : s.Steady where
  noEvs := by simp [hsa]
  constraints := by
    rw [(site_new hs).constraints]
    simp [demoGrow]

/-- C79: planning both intervals costs 190; planning them one after the other, with 2 MWh in the battery in between, costs 70 and 300. -/
example : ∃ (s : Site) (S S1 S2 : Solver) (r r1 r2 : SimResult) (V V1 V2 : String → Nat → ℚ) (start mid stop : String → ℚ),
    Run s (.str "price") {} S r V ∧ S.Exact ∧ s.Steady ∧ 1 + 1 = s.data.n ∧ s.Charged start stop ∧
    Run (s.part 0 1 start mid) (.str "price") {} S1 r1 V1 ∧ Run (s.part 1 1 mid stop) (.str "price") {} S2 r2 V2 ∧
    r.status.objective = some 190 ∧ r1.status.objective = some 70 ∧ r2.status.objective = some 300 := by
  obtain ⟨s, r, V, S, hs, hS, h, ht⟩ := Demo.runOptimal demoGrow_large
  obtain ⟨s1, r1, V1, hs1, h1, ht1⟩ := Demo.run demoPart_half
  obtain ⟨s2, r2, V2, hs2, h2, ht2⟩ := Demo.run demoPart_rest
  simp only [partTest, Bool.and_eq_true, decide_eq_true_eq] at ht ht1 ht2
  have d1 : s1.data = s.data.part 0 1 := by
    have a : (demoPart 10 0 2).site.toOption.map Site.data = (demoGrow 4).site.toOption.map (fun s => s.data.part 0 1) := by decide +kernel
    rw [hs, hs1] at a
    exact Option.some.inj a
  have d2 : s2.data = s.data.part 1 1 := by
    have a : (demoPart 100 2 0).site.toOption.map Site.data = (demoGrow 4).site.toOption.map (fun s => s.data.part 1 1) := by decide +kernel
    rw [hs, hs2] at a
    exact Option.some.inj a
  have e1 := demoPart_site hs hs1 ht.1.1 ht1.1 d1 (f := fun _ => 0) (g := fun _ => 2) rfl rfl
  have e2 := demoPart_site hs hs2 ht.1.1 ht2.1 d2 (f := fun _ => 2) (g := fun _ => 0) rfl rfl
  subst e1
  subst e2
  refine ⟨s, S, _, _, r, r1, r2, V, V1, V2, fun _ => 0, fun _ => 2, fun _ => 0, h, hS, demoPart_steady hs ht.1.1, ht.1.2.symm, ?_, h1, h2,
    ht.2, ht1.2, ht2.2⟩
  intro c hc
  rw [ht.1.1, List.mem_singleton, Asset.battery.injEq] at hc
  rw [hc]
  exact ⟨rfl, rfl⟩

/-- C79: in the optimal plan the second interval starts with 4 MWh in the battery and costs 100; planned again, it costs 100. -/
example : ∃ (s : Site) (S S' : Solver) (r r' : SimResult) (V V' : String → Nat → ℚ),
    Run s (.str "price") {} S r V ∧ S.Exact ∧ s.Steady ∧ (∀ a ∈ s.assets, a.WellNamed) ∧ 1 + 1 ≤ s.data.n ∧
    Run (s.part 1 1 (fun b => V (b ++ "-electric_initial_charge_mwh") 1) (fun b => V (b ++ "-electric_final_charge_mwh") (1 + 1 - 1)))
      (.str "price") {} S' r' V' ∧ S'.Exact ∧ V "battery-electric_initial_charge_mwh" 1 = 4 ∧ r'.status.objective = some 100 := by
  obtain ⟨s, r, V, S, hs, hS, h, ht⟩ := Demo.runOptimal demoGrow_charges
  obtain ⟨s', r', V', S', hs', hS', h', ht'⟩ := Demo.runOptimal demoPart_again
  simp only [partTest, Bool.and_eq_true, decide_eq_true_eq] at ht ht'
  obtain ⟨⟨⟨⟨⟨ha, hn⟩, c1⟩, c2⟩, c3⟩, c4⟩ := ht
  have d : s'.data = s.data.part 1 1 := by
    have a : (demoPart 100 4 0).site.toOption.map Site.data = (demoGrow 4).site.toOption.map (fun s => s.data.part 1 1) := by decide +kernel
    rw [hs, hs'] at a
    exact Option.some.inj a
  have v1 : V "battery-electric_initial_charge_mwh" 1 = 4 := Option.some.inj ((h.reads _ c1 1 (by omega)).symm.trans c3)
  have v2 : V "battery-electric_final_charge_mwh" 1 = 0 := Option.some.inj ((h.reads _ c2 1 (by omega)).symm.trans c4)
  have e := demoPart_site hs hs' ha ht'.1 d (f := fun b => V (b ++ "-electric_initial_charge_mwh") 1)
    (g := fun b => V (b ++ "-electric_final_charge_mwh") (1 + 1 - 1)) v1 v2
  subst e
  refine ⟨s, S, S', r, r', V, V', h, hS, demoPart_steady hs ha, ?_, by omega, h', hS', v1, ht'.2⟩
  intro a haa
  rw [ha, List.mem_singleton] at haa
  rw [haa]
  decide

/-- The site of one interval is the part of the site of two. -/
theorem demoBurns_part {s t : Site} {gas : ℚ} {k : Nat} (hs : demoBurns.site = .ok s) (ht : (demoBurn gas).site = .ok t)
    (hsa : s.assets = [.boiler defaultBoiler]) (hta : t.assets = [.boiler defaultBoiler]) (hd : t.data = s.data.part k 1) {f g : String → ℚ} :
    t = s.part k 1 f g := by
  have n := site_new hs
  have n' := site_new ht
  have e1 : t.assets = (s.part k 1 f g).assets := by
    rw [hta]
    simp only [Site.part, hsa, List.map_cons, List.map_nil, Asset.part]
  have e2 : t.freqMins = s.freqMins := by rw [n.freq, n'.freq]; rfl
  have e3 : t.importLimit = s.importLimit := by rw [n.importLimit, n'.importLimit]; rfl
  have e4 : t.exportLimit = s.exportLimit := by rw [n.exportLimit, n'.exportLimit]; rfl
  have e5 : t.constraints = s.constraints := by rw [n.constraints, n'.constraints]; rfl
  cases t
  cases s
  simp only [Site.part] at e1 e2 e3 e4 e5 hd ⊢
  simp only [e1, e2, e3, e4, e5, hd]

/-- C79: a boiler over two intervals costs 250, over one after the other 100 and 150. -/
example : ∃ (s : Site) (S S1 S2 : Solver) (r r1 r2 : SimResult) (V V1 V2 : String → Nat → ℚ) (f : String → ℚ),
    Run s (.str "price") {} S r V ∧ S.Exact ∧ s.Steady ∧ (∀ c, Asset.battery c ∉ s.assets) ∧ 1 + 1 = s.data.n ∧
    Run (s.part 0 1 f f) (.str "price") {} S1 r1 V1 ∧ S1.Exact ∧ Run (s.part 1 1 f f) (.str "price") {} S2 r2 V2 ∧ S2.Exact ∧
    r.status.objective = some 250 ∧ r1.status.objective = some 100 ∧ r2.status.objective = some 150 := by
  obtain ⟨s, r, V, S, hs, hS, h, ht⟩ := Demo.runOptimal demoBurns_test
  obtain ⟨s1, r1, V1, S1, hs1, hS1, h1, ht1⟩ := Demo.runOptimal demoBurn_cheap
  obtain ⟨s2, r2, V2, S2, hs2, hS2, h2, ht2⟩ := Demo.runOptimal demoBurn_dear
  simp only [burnTest, Bool.and_eq_true, decide_eq_true_eq] at ht ht1 ht2
  have d1 : s1.data = s.data.part 0 1 := by
    have a : (demoBurn 20).site.toOption.map Site.data = demoBurns.site.toOption.map (fun s => s.data.part 0 1) := by decide +kernel
    rw [hs, hs1] at a
    exact Option.some.inj a
  have d2 : s2.data = s.data.part 1 1 := by
    have a : (demoBurn 30).site.toOption.map Site.data = demoBurns.site.toOption.map (fun s => s.data.part 1 1) := by decide +kernel
    rw [hs, hs2] at a
    exact Option.some.inj a
  have e1 := demoBurns_part hs hs1 ht.2.1 ht1.1 d1 (f := fun _ => 0) (g := fun _ => 0)
  have e2 := demoBurns_part hs hs2 ht.2.1 ht2.1 d2 (f := fun _ => 0) (g := fun _ => 0)
  subst e1
  subst e2
  refine ⟨s, S, S1, S2, r, r1, r2, V, V1, V2, fun _ => 0, h, hS, ⟨?_, ?_⟩, ?_, ht.1.symm, h1, hS1, h2, hS2, ht.2.2, ht1.2, ht2.2⟩
  · simp [ht.2.1]
  · rw [(site_new hs).constraints]
    simp [demoBurns]
  · simp [ht.2.1]

end EPL
