/-
C59: flat prices leave nothing to arbitrage.
-/
import Verif.Props.Spill
import Verif.Spec.DemoFlat

namespace EPL

/-- The site has batteries and nothing else. -/
def Site.OnlyBatteries (s : Site) : Prop := ∀ a ∈ s.assets, ∃ c, a = .battery c

/-- The same price for import and export in all intervals. -/
def Site.FlatPrice (s : Site) (price : ℚ) : Prop :=
  ∀ i < s.data.n, s.data.electricityPrices.getD i 0 = price ∧ s.data.exportElectricityPrices.getD i 0 = price

/-- The electricity demand of the site over the horizon. -/
def Site.totalLoad (s : Site) : ℚ := s.sumIntervals (fun i => s.data.electricLoad.getD i 0)

/-- What a battery takes out of the electricity of the site over the horizon: the losses of charging and the change of its charge. -/
def Asset.takes (s : Site) (σ : Assign) : Asset → ℚ
  | .battery c => (1 - c.efficiency) * s.sumIntervals (fun i => σ (.asset c.name "electric_charge_mwh" i)) + c.finalCharge - c.initialCharge
  | _ => 0

section
variable {s : Site} {flags : Flags} {S : Solver} {r : SimResult} {V : String → Nat → ℚ} {p : Prob} {σ : Assign} {objective : Objective}

theorem battery_sums (hp : Prog s objective flags (s.ivarsTo flags s.data.n) p) (hf : p.Feasible σ) {c : BatteryCfg}
    (hc : Asset.battery c ∈ s.assets) (hn : 0 < s.data.n) :
    s.sumIntervals (fun i => σ (.asset c.name "electric_charge_mwh" i) - σ (.asset c.name "electric_discharge_mwh" i)) = (Asset.battery c).takes s σ := by
  have key : ∀ k < s.data.n, σ (c.oneInterval k s.freq).final.id - c.initialCharge +
      (1 - c.efficiency) * ((List.range (k + 1)).map (fun i => σ (.asset c.name "electric_charge_mwh" i))).sum =
      ((List.range (k + 1)).map (fun i => σ (.asset c.name "electric_charge_mwh" i) - σ (.asset c.name "electric_discharge_mwh" i))).sum := by
    intro k
    induction k with
    | zero =>
      intro hk
      have f := battery_facts hp hf hc hk
      have e := (battery_ends hp hf hc).1
      simp only [List.range_succ, List.range_zero, List.nil_append, List.map_cons, List.map_nil, List.sum_cons, List.sum_nil]
      have h1 := f.balance
      have h2 := f.loss_eq
      change σ (c.oneInterval 0 s.freq).initial.id + σ (.asset c.name "electric_charge_mwh" 0) - σ (.asset c.name "electric_discharge_mwh" 0) - _ = _ at h1
      change _ = σ (.asset c.name "electric_charge_mwh" 0) * _ at h2
      rw [h2, e] at h1
      linarith
    | succ k ih =>
      intro hk
      have f := battery_facts hp hf hc hk
      have e := battery_connect hp hf hc hk
      have := ih (by omega)
      rw [List.range_succ, List.map_append, List.sum_append, List.map_append, List.sum_append]
      simp only [List.map_cons, List.map_nil, List.sum_cons, List.sum_nil]
      have h1 := f.balance
      have h2 := f.loss_eq
      change σ (c.oneInterval (k + 1) s.freq).initial.id + σ (.asset c.name "electric_charge_mwh" (k + 1)) -
        σ (.asset c.name "electric_discharge_mwh" (k + 1)) - _ = _ at h1
      change _ = σ (.asset c.name "electric_charge_mwh" (k + 1)) * _ at h2
      rw [h2, ← e] at h1
      linarith
  have h := key (s.data.n - 1) (by omega)
  rw [Nat.sub_add_cancel hn, (battery_ends hp hf hc).2] at h
  unfold Site.sumIntervals Asset.takes
  simp only [Site.sumIntervals]
  rw [← h]
  ring

theorem balance_batteries (hp : Prog s objective flags (s.ivarsTo flags s.data.n) p) (hf : p.Feasible σ) (hb : s.OnlyBatteries) {i : Nat}
    (hi : i < s.data.n) :
    importOf σ i - exportOf σ i = s.data.electricLoad.getD i 0 +
      (s.assets.map (fun a => σ (.asset a.name "electric_charge_mwh" i) - σ (.asset a.name "electric_discharge_mwh" i))).sum := by
  have hc := site_cons hp hf hi
  simp only [Site.siteList, Site.withinList, List.mem_cons, List.not_mem_nil, or_false, forall_eq_or_imp, forall_eq] at hc
  have h1 := hc.1
  have hs : ∀ q : Base → Val, (sumOver q (s.ones flags i)).eval σ = (q (OneInterval.site (s.oneInterval i)).base).eval σ +
      (s.assets.map (fun a => ((a.ois i s.freq flags).map (fun o => (q o.base).eval σ)).sum)).sum := by
    intro q
    rw [sumOver_eval, ones_eq hp.vars hi, List.map_cons, List.sum_cons, list_sum_flatMap]
  simp only [eqC_holds, Expr.eval_add, Expr.eval_sub, Expr.eval_var, Expr.eval_num, hs] at h1
  have z : ∀ q : Base → Val, ∀ g : Asset → ℚ, (∀ c, Asset.battery c ∈ s.assets → (q (OneInterval.battery (c.oneInterval i s.freq)).base).eval σ = g (.battery c)) →
      (s.assets.map (fun a => ((a.ois i s.freq flags).map (fun o => (q o.base).eval σ)).sum)).sum = (s.assets.map g).sum := by
    intro q g hg
    refine list_sum_congr fun a ha => ?_
    obtain ⟨c, rfl⟩ := hb a ha
    rw [ois_battery]
    simpa using hg c ha
  rw [z Base.electricGeneration (fun _ => 0) (fun c _ => by simp [OneInterval.base, Val.eval]),
    z Base.electricLoad (fun _ => 0) (fun c _ => by simp [OneInterval.base, Val.eval]),
    z Base.electricCharge (fun a => σ (.asset a.name "electric_charge_mwh" i)) (fun c _ => rfl),
    z Base.electricDischarge (fun a => σ (.asset a.name "electric_discharge_mwh" i)) (fun c _ => rfl)] at h1
  rw [list_sum_sub]
  simp only [OneInterval.base, Val.eval, list_sum_zero (g := fun _ : Asset => (0 : ℚ)) (fun _ _ => rfl)] at h1
  change importOf σ i - exportOf σ i - _ + _ - _ - _ + _ = _ at h1
  push_cast at h1
  linarith

/-- C59: with one price for everything, the price objective of any feasible answer of a site with batteries only is that price times the demand and what
the batteries take. -/
theorem C59_exact (h : Answer s (.str "price") flags p σ) (hn : 0 < s.data.n) (hb : s.OnlyBatteries) {price : ℚ} (hp : s.FlatPrice price) :
    p.obj.eval σ = price * (s.totalLoad + (s.assets.map (fun a => a.takes s σ)).sum) := by
  obtain ⟨iv, hpr⟩ := h.program
  have hprog := program_spec hpr
  have hiv := hprog.iv_eq
  subst hiv
  rw [C40_price hpr]
  have hsp : s.spillOf flags σ = 0 := by
    refine list_sum_zero fun i _ => list_sum_zero fun a ha => ?_
    obtain ⟨c, rfl⟩ := hb a ha
    rfl
  have hgas : ∀ i, s.gasOf σ i = 0 := fun i => list_sum_zero fun a ha => by
    obtain ⟨c, rfl⟩ := hb a ha
    rfl
  have e : s.costOf σ = s.sumIntervals (fun i => price * (s.data.electricLoad.getD i 0 +
      (s.assets.map (fun a => σ (.asset a.name "electric_charge_mwh" i) - σ (.asset a.name "electric_discharge_mwh" i))).sum)) := by
    refine list_sum_congr fun i hi => ?_
    rw [List.mem_range] at hi
    rw [hgas, (hp i hi).1, (hp i hi).2, ← balance_batteries hprog h.feasible hb hi]
    ring
  rw [e, hsp]
  unfold Site.sumIntervals
  rw [list_sum_mul_left, list_sum_add, list_sum_swap]
  have : (s.assets.map (fun a => ((List.range s.data.n).map (fun i => σ (.asset a.name "electric_charge_mwh" i) - σ (.asset a.name "electric_discharge_mwh" i))).sum)).sum =
      (s.assets.map (fun a => a.takes s σ)).sum := by
    refine list_sum_congr fun a ha => ?_
    obtain ⟨c, rfl⟩ := hb a ha
    exact battery_sums hprog h.feasible ha hn
  rw [this]
  unfold Site.totalLoad Site.sumIntervals
  ring

theorem takes_nonneg (hp : Prog s objective flags (s.ivarsTo flags s.data.n) p) (hf : p.Feasible σ) {c : BatteryCfg}
    (hc : Asset.battery c ∈ s.assets) (he : c.efficiency ≤ 1) (hif : c.initialCharge ≤ c.finalCharge) : 0 ≤ (Asset.battery c).takes s σ := by
  have h0 : 0 ≤ s.sumIntervals (fun i => σ (.asset c.name "electric_charge_mwh" i)) := by
    refine List.sum_nonneg fun x hx => ?_
    obtain ⟨i, hi, rfl⟩ := List.mem_map.1 hx
    exact (battery_facts hp hf hc (List.mem_range.1 hi)).ch_nonneg
  have := mul_nonneg (sub_nonneg.2 he) h0
  unfold Asset.takes
  linarith

/-- C59: with one non-negative price, batteries that end at least as full as they start save nothing: no feasible answer is cheaper than buying the demand,
and none has a negative objective if the demand is not negative. -/
theorem C59_flat_prices (h : Answer s (.str "price") flags p σ) (hn : 0 < s.data.n) (hb : s.OnlyBatteries) {price : ℚ} (hp : s.FlatPrice price)
    (h0 : 0 ≤ price) (he : ∀ c, Asset.battery c ∈ s.assets → c.efficiency ≤ 1 ∧ c.initialCharge ≤ c.finalCharge) :
    price * s.totalLoad ≤ p.obj.eval σ ∧ (0 ≤ s.totalLoad → 0 ≤ p.obj.eval σ) := by
  obtain ⟨iv, hpr⟩ := h.program
  have hprog := program_spec hpr
  have hiv := hprog.iv_eq
  subst hiv
  have hle : price * s.totalLoad ≤ p.obj.eval σ := by
    rw [C59_exact h hn hb hp]
    refine mul_le_mul_of_nonneg_left ?_ h0
    have : 0 ≤ (s.assets.map (fun a => a.takes s σ)).sum := by
      refine List.sum_nonneg fun x hx => ?_
      obtain ⟨a, ha, rfl⟩ := List.mem_map.1 hx
      obtain ⟨c, rfl⟩ := hb a ha
      exact takes_nonneg hprog h.feasible ha (he c ha).1 (he c ha).2
    linarith
  exact ⟨hle, fun hl => le_trans (mul_nonneg h0 hl) hle⟩

/-- C59 for a run: the objective in the result is at least the cost of buying the demand. -/
theorem C59_results (h : Run s (.str "price") flags S r V) (hb : s.OnlyBatteries) {price : ℚ} (hp : s.FlatPrice price) (h0 : 0 ≤ price)
    (he : ∀ c, Asset.battery c ∈ s.assets → c.efficiency ≤ 1 ∧ c.initialCharge ≤ c.finalCharge) :
    ∃ q, r.status.objective = some q ∧ price * s.totalLoad ≤ q := by
  obtain ⟨p, σ, hco⟩ := h.core
  exact ⟨_, objective_value hco, (C59_flat_prices ⟨⟨_, hco.program⟩, hco.feas⟩ hco.outcome.pos hb hp h0 he).1⟩

end

/-! ### The hypotheses are met -/

/-- C59: the demand of 10 costs 500, moving 2 MWh through a battery that loses half of it costs 550. -/
example : ∃ s S r V, Run s (.str "price") {} S r V ∧ s.OnlyBatteries ∧ s.assets ≠ [] ∧ s.FlatPrice 50 ∧
    (∀ c, Asset.battery c ∈ s.assets → c.efficiency ≤ 1 ∧ c.initialCharge ≤ c.finalCharge) ∧ r.status.objective = some 550 ∧ s.totalLoad = 10 := by
  obtain ⟨s, r, V, hs, h, ht⟩ := Demo.run demoFlat_test
  simp only [Bool.and_eq_true, decide_eq_true_eq] at ht
  obtain ⟨⟨⟨⟨⟨ha, hn⟩, hp⟩, hx⟩, hl⟩, hr⟩ := ht
  refine ⟨s, _, r, V, h, ?_, by rw [ha]; simp, ?_, ?_, hr, ?_⟩
  · intro a h
    rw [ha, List.mem_singleton] at h
    exact ⟨_, h⟩
  · intro i hi
    rw [hn] at hi
    rw [hp, hx]
    match i, hi with
    | 0, _ => simp
    | 1, _ => simp
  · intro c h
    rw [ha, List.mem_singleton, Asset.battery.injEq] at h
    subst h
    decide +kernel
  · unfold Site.totalLoad Site.sumIntervals
    rw [hn, hl]
    decide +kernel

end EPL
