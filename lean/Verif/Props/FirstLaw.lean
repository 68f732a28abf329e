/-
Energy is neither created nor destroyed.
-/
import Verif.Props.Losses
import Verif.Props.Balance
import Verif.Spec.FirstLaw

namespace EPL

section
variable {s : Site} {objective : Objective} {flags : Flags} {S : Solver} {r : SimResult} {V : String → Nat → ℚ}

theorem chp_gas {p : Prob} {σ : Assign} (hp : Prog s objective flags (s.ivarsTo flags s.data.n) p) (hf : p.Feasible σ) {c : ChpCfg}
    (hc : Asset.chp c ∈ s.assets) {i : Nat} (hi : i < s.data.n) (h : 0 < c.electricEfficiency ∨ c.htEfficiency ≠ 0 ∨ c.ltEfficiency ≠ 0) :
    0 ≤ σ (c.oneInterval i s.freq).gas.id := by
  have hcon : ∀ k ∈ c.withinList i s.freq, k ∈ p.cons := fun k hk => hp.asset hi hc hk
  rcases h with h | h | h
  · exact (chp_facts hp hf hc hi).2.2.2.2.2.2.2.2 h
  · have m2 : (Expr.var (c.oneInterval i s.freq).ht).eqC (Expr.var (c.oneInterval i s.freq).gas * c.htEfficiency) ∈
        c.withinList i s.freq := by simp [ChpCfg.withinList]
    have b := bounds_continuous (hf.bounds (hcon _ m2) (v := (c.oneInterval i s.freq).gas) (by simp [Expr.vars_mul, h]))
    simp only [Option.mem_def, Option.some.injEq, forall_eq'] at b
    exact b.1
  · have m3 : (Expr.var (c.oneInterval i s.freq).lt).eqC (Expr.var (c.oneInterval i s.freq).gas * c.ltEfficiency) ∈
        c.withinList i s.freq := by simp [ChpCfg.withinList]
    have b := bounds_continuous (hf.bounds (hcon _ m3) (v := (c.oneInterval i s.freq).gas) (by simp [Expr.vars_mul, h]))
    simp only [Option.mem_def, Option.some.injEq, forall_eq'] at b
    exact b.1

/-- What an asset gives to the three balances of the site, less what it takes from them. -/
def Asset.net (V : String → Nat → ℚ) (i : Nat) (a : Asset) : ℚ :=
  rowSum V (a.reports "electric_generation_mwh") i + rowSum V (a.reports "high_temperature_generation_mwh") i +
    rowSum V (a.reports "low_temperature_generation_mwh") i + rowSum V (a.reports "electric_discharge_mwh") i -
  rowSum V (a.reports "electric_load_mwh") i - rowSum V (a.reports "high_temperature_load_mwh") i -
    rowSum V (a.reports "low_temperature_load_mwh") i - rowSum V (a.reports "electric_charge_mwh") i

theorem ev_wasted (h : Run s objective flags S r V) {a : EvArgs} {c : EvsCfg} (hmake : a.make = .ok c) (ha : Asset.evs c ∈ s.assets)
    {i : Nat} (hi : i < s.data.n) :
    (Asset.evs c).wasted V i = sumTo a.capacities.length (fun e => V (a.eventCol e "electric_loss_mwh") i) := by
  have hmd := ev_made hmake
  obtain ⟨-, -, hl⟩ := C72_ev_losses h hmake ha hi
  simp only [Asset.wasted, hmd.events]
  rw [sumTo_congr hl]
  unfold sumTo
  congr 1
  apply List.ext_getElem?
  intro k
  by_cases hk : k < a.capacities.length
  · have : c.name ++ "-charge-event-" ++ toString k ++ ("-" ++ "electric_charge_mwh") = a.eventCol k "electric_charge_mwh" := by
      rw [hmd.name, dashed]; rfl
    simp only [List.getElem?_map, List.getElem?_zipIdx, List.getElem?_eq_getElem hk, Option.map_some,
      List.getElem?_range hk, Nat.zero_add, ← this]
    rfl
  · simp [Nat.le_of_not_lt hk]

/-- One asset. -/
theorem asset_net (h : Run s objective flags S r V) {a : Asset} (ha : a ∈ s.assets) (hm : a.Made) (hw : a.WellNamed)
    (ht : ∀ c, a = .chp c → c.Tied) {i : Nat} (hi : i < s.data.n) :
    a.net V i = a.supplied V i - a.wasted V i - a.stored V i := by
  have none : ∀ q, q ∉ a.flows → rowSum V (a.reports q) i = 0 := by
    intro q hq
    unfold Asset.reports
    rw [if_neg hq]; rfl
  have one : ∀ q, q ∈ a.flows → a.units = [a.name] → rowSum V (a.reports q) i = V (a.name ++ ("-" ++ q)) i := by
    intro q hq hu
    unfold Asset.reports
    rw [if_pos hq, hu]
    simp [rowSum, dashed]
  unfold Asset.net
  cases a with
  | battery c =>
    obtain ⟨hb, hl⟩ := C06_battery_balance h ha hw hi
    rw [none "electric_generation_mwh" (by simp only [Asset.flows]; decide), none "high_temperature_generation_mwh" (by simp only [Asset.flows]; decide),
      none "low_temperature_generation_mwh" (by simp only [Asset.flows]; decide), one "electric_discharge_mwh" (by simp only [Asset.flows]; decide) rfl,
      none "electric_load_mwh" (by simp only [Asset.flows]; decide), none "high_temperature_load_mwh" (by simp only [Asset.flows]; decide),
      none "low_temperature_load_mwh" (by simp only [Asset.flows]; decide), one "electric_charge_mwh" (by simp only [Asset.flows]; decide) rfl]
    change 0 + 0 + 0 + V (c.name ++ "-electric_discharge_mwh") i - 0 - 0 - 0 - V (c.name ++ "-electric_charge_mwh") i = _
    simp only [Asset.supplied, Asset.wasted, Asset.stored]
    linarith
  | boiler c =>
    have hb := (C11_boiler h ha hw hi).1
    rw [none "electric_generation_mwh" (by simp only [Asset.flows]; decide), one "high_temperature_generation_mwh" (by simp only [Asset.flows]; decide) rfl,
      none "low_temperature_generation_mwh" (by simp only [Asset.flows]; decide), none "electric_discharge_mwh" (by simp only [Asset.flows]; decide),
      none "electric_load_mwh" (by simp only [Asset.flows]; decide), none "high_temperature_load_mwh" (by simp only [Asset.flows]; decide),
      none "low_temperature_load_mwh" (by simp only [Asset.flows]; decide), none "electric_charge_mwh" (by simp only [Asset.flows]; decide)]
    change 0 + V (c.name ++ "-high_temperature_generation_mwh") i + 0 + 0 - 0 - 0 - 0 - 0 = _
    simp only [Asset.supplied, Asset.wasted, Asset.stored]
    linarith
  | chp c =>
    obtain ⟨h1, h2, h3, h4, h5⟩ := C10_chp h ha hw hi
    have he : V (c.name ++ "-electric_generation_mwh") i = c.electricEfficiency * V (c.name ++ "-gas_consumption_mwh") i := by
      rcases ht c rfl with hc | ⟨hc, hz⟩
      · rw [h1 hc]; field_simp
      · rw [hc, zero_mul]
        rcases h5 with h5 | ⟨-, h5⟩
        · exact h5
        · rw [hz] at h5; linarith
    rw [one "electric_generation_mwh" (by simp only [Asset.flows]; decide) rfl, one "high_temperature_generation_mwh" (by simp only [Asset.flows]; decide) rfl,
      one "low_temperature_generation_mwh" (by simp only [Asset.flows]; decide) rfl, none "electric_discharge_mwh" (by simp only [Asset.flows]; decide),
      none "electric_load_mwh" (by simp only [Asset.flows]; decide), none "high_temperature_load_mwh" (by simp only [Asset.flows]; decide),
      none "low_temperature_load_mwh" (by simp only [Asset.flows]; decide), none "electric_charge_mwh" (by simp only [Asset.flows]; decide)]
    change V (c.name ++ "-electric_generation_mwh") i + V (c.name ++ "-high_temperature_generation_mwh") i +
      V (c.name ++ "-low_temperature_generation_mwh") i + 0 - 0 - 0 - 0 - 0 = _
    rw [he, h2, h3]
    simp only [Asset.supplied, Asset.wasted, Asset.stored]
    ring
  | heatPump c =>
    obtain ⟨h1, h2, -, -⟩ := C12_heat_pump h ha hw hi
    rw [none "electric_generation_mwh" (by simp only [Asset.flows]; decide), one "high_temperature_generation_mwh" (by simp only [Asset.flows]; decide) rfl,
      none "low_temperature_generation_mwh" (by simp only [Asset.flows]; decide), none "electric_discharge_mwh" (by simp only [Asset.flows]; decide),
      one "electric_load_mwh" (by simp only [Asset.flows]; decide) rfl, none "high_temperature_load_mwh" (by simp only [Asset.flows]; decide),
      one "low_temperature_load_mwh" (by simp only [Asset.flows]; decide) rfl, none "electric_charge_mwh" (by simp only [Asset.flows]; decide)]
    change 0 + V (c.name ++ "-high_temperature_generation_mwh") i + 0 + 0 - V (c.name ++ "-electric_load_mwh") i - 0 -
      V (c.name ++ "-low_temperature_load_mwh") i - 0 = _
    rw [h1, h2]
    simp only [Asset.supplied, Asset.wasted, Asset.stored]
    ring
  | renewable c =>
    rw [one "electric_generation_mwh" (by simp only [Asset.flows]; decide) rfl, none "high_temperature_generation_mwh" (by simp only [Asset.flows]; decide),
      none "low_temperature_generation_mwh" (by simp only [Asset.flows]; decide), none "electric_discharge_mwh" (by simp only [Asset.flows]; decide),
      none "electric_load_mwh" (by simp only [Asset.flows]; decide), none "high_temperature_load_mwh" (by simp only [Asset.flows]; decide),
      none "low_temperature_load_mwh" (by simp only [Asset.flows]; decide), none "electric_charge_mwh" (by simp only [Asset.flows]; decide)]
    change V (c.name ++ "-electric_generation_mwh") i + 0 + 0 + 0 - 0 - 0 - 0 - 0 = _
    simp only [Asset.supplied, Asset.wasted, Asset.stored]
    ring
  | spill c =>
    obtain ⟨-, -, -, -, h5, h6, -⟩ := C57_spill_columns h ha hw hi
    rw [one "electric_generation_mwh" (by simp only [Asset.flows]; decide) rfl, one "high_temperature_generation_mwh" (by simp only [Asset.flows]; decide) rfl,
      one "low_temperature_generation_mwh" (by simp only [Asset.flows]; decide) rfl, none "electric_discharge_mwh" (by simp only [Asset.flows]; decide),
      one "electric_load_mwh" (by simp only [Asset.flows]; decide) rfl, one "high_temperature_load_mwh" (by simp only [Asset.flows]; decide) rfl,
      one "low_temperature_load_mwh" (by simp only [Asset.flows]; decide) rfl, none "electric_charge_mwh" (by simp only [Asset.flows]; decide)]
    change V (c.name ++ "-electric_generation_mwh") i + V (c.name ++ "-high_temperature_generation_mwh") i +
      V (c.name ++ "-low_temperature_generation_mwh") i + 0 - V (c.name ++ "-electric_load_mwh") i -
      V (c.name ++ "-high_temperature_load_mwh") i - V (c.name ++ "-low_temperature_load_mwh") i - 0 = _
    rw [h5, h6]
    simp only [Asset.supplied, Asset.wasted, Asset.stored]
    ring
  | valve c =>
    have hv := (C13_valve h ha hw hi).1
    rw [none "electric_generation_mwh" (by simp only [Asset.flows]; decide), none "high_temperature_generation_mwh" (by simp only [Asset.flows]; decide),
      one "low_temperature_generation_mwh" (by simp only [Asset.flows]; decide) rfl, none "electric_discharge_mwh" (by simp only [Asset.flows]; decide),
      none "electric_load_mwh" (by simp only [Asset.flows]; decide), one "high_temperature_load_mwh" (by simp only [Asset.flows]; decide) rfl,
      none "low_temperature_load_mwh" (by simp only [Asset.flows]; decide), none "electric_charge_mwh" (by simp only [Asset.flows]; decide)]
    change 0 + 0 + V (c.name ++ "-low_temperature_generation_mwh") i + 0 - 0 - V (c.name ++ "-high_temperature_load_mwh") i - 0 - 0 = _
    rw [hv]
    simp only [Asset.supplied, Asset.wasted, Asset.stored]
    ring
  | evs c =>
    obtain ⟨a, hmake⟩ : ∃ a : EvArgs, a.make = .ok c := by
      cases hm with
      | evs h => exact ⟨⟨_, _, _, _, _, _, _⟩, h⟩
    have hst := ev_stored h hmake ha hi
    rw [none "electric_generation_mwh" (by simp only [Asset.flows]; decide), none "high_temperature_generation_mwh" (by simp only [Asset.flows]; decide),
      none "low_temperature_generation_mwh" (by simp only [Asset.flows]; decide),
      none "electric_load_mwh" (by simp only [Asset.flows]; decide), none "high_temperature_load_mwh" (by simp only [Asset.flows]; decide),
      none "low_temperature_load_mwh" (by simp only [Asset.flows]; decide), ev_wasted h hmake ha hi, ← hst]
    simp only [Asset.supplied]
    ring

/-- In every interval, what the grid, gas, sun, wind, spills and the site's own low temperature heat bring in is what leaves to the grid,
serves the three loads, is stored, and is wasted. -/
theorem C73_interval (h : Run s objective flags S r V) (hm : ∀ a ∈ s.assets, a.Made) (hw : ∀ a ∈ s.assets, a.WellNamed)
    (ht : ∀ c, Asset.chp c ∈ s.assets → c.Tied) {i : Nat} (hi : i < s.data.n) :
    V "site-import_power_mwh" i + (s.assets.map (Asset.supplied V i)).sum + V "site-low_temperature_generation_mwh" i =
      V "site-export_power_mwh" i + V "site-electric_load_mwh" i + V "site-high_temperature_load_mwh" i +
        V "site-low_temperature_load_mwh" i + (s.assets.map (Asset.stored V i)).sum + (s.assets.map (Asset.wasted V i)).sum := by
  have b1 := C01_electricity_balance h hw hi
  have b2 := C02_high_temperature_balance h hw hi
  have b3 := C03_low_temperature_balance h hw hi
  have hsum : (s.assets.map (Asset.net V i)).sum =
      (s.assets.map (fun a => a.supplied V i - a.wasted V i - a.stored V i)).sum :=
    list_sum_congr (fun a ha => asset_net h ha (hm a ha) (hw a ha) (fun c hac => ht c (hac ▸ ha)) hi)
  rw [list_sum_sub, list_sum_sub] at hsum
  unfold Asset.net at hsum
  simp only [list_sum_sub, list_sum_add] at hsum
  unfold Site.assetSum at b1 b2 b3
  have e1 : (s.assets.map (Asset.supplied V i)).sum = (s.assets.map (fun a => a.supplied V i)).sum := rfl
  have e2 : (s.assets.map (Asset.stored V i)).sum = (s.assets.map (fun a => a.stored V i)).sum := rfl
  have e3 : (s.assets.map (Asset.wasted V i)).sum = (s.assets.map (fun a => a.wasted V i)).sum := rfl
  rw [e1, e2, e3]
  linarith

/-- The same over the horizon: batteries go from their initial to their final charge, vehicles are filled. -/
theorem C73_horizon (h : Run s objective flags S r V) (hm : ∀ a ∈ s.assets, a.Made) (hw : ∀ a ∈ s.assets, a.WellNamed)
    (ht : ∀ c, Asset.chp c ∈ s.assets → c.Tied) :
    colSum V s.data.n "site-import_power_mwh" + sumTo s.data.n (fun i => (s.assets.map (Asset.supplied V i)).sum) +
        colSum V s.data.n "site-low_temperature_generation_mwh" =
      colSum V s.data.n "site-export_power_mwh" + colSum V s.data.n "site-electric_load_mwh" +
        colSum V s.data.n "site-high_temperature_load_mwh" + colSum V s.data.n "site-low_temperature_load_mwh" +
        (s.assets.map Asset.toStore).sum + sumTo s.data.n (fun i => (s.assets.map (Asset.wasted V i)).sum) := by
  have hst : (s.assets.map Asset.toStore).sum = sumTo s.data.n (fun i => (s.assets.map (fun a => a.stored V i)).sum) := by
    unfold sumTo
    rw [list_sum_swap]
    exact list_sum_congr (fun a ha => (asset_gain h ha (hm a ha) (hw a ha)).symm)
  rw [hst]
  unfold colSum sumTo
  rw [← list_sum_add, ← list_sum_add, ← list_sum_add, ← list_sum_add, ← list_sum_add, ← list_sum_add, ← list_sum_add]
  exact list_sum_congr (fun i hi => C73_interval h hm hw ht (List.mem_range.1 hi))

theorem wasted_nonneg (h : Run s objective flags S r V) {a : Asset} (ha : a ∈ s.assets) (hm : a.Made) (hw : a.WellNamed) (hp : a.Physical)
    {i : Nat} (hi : i < s.data.n) : 0 ≤ a.wasted V i := by
  cases a with
  | battery c => exact mul_nonneg (sub_nonneg.2 hp) (C07_battery_limits h ha hw hi).1
  | boiler c =>
    refine mul_nonneg (sub_nonneg.2 ?_) (C11_boiler h ha hw hi).2.2.2.1
    cases hm with
    | boiler h =>
      simp only [Boiler.new, bind_ok, pyValidate_ok] at h
      obtain ⟨_, _, h'⟩ := h
      split at h'
      · rename_i hb
        simp only [Except.ok.injEq] at h'
        subst h'
        exact hb.2
      · simp at h'
  | chp c =>
    obtain ⟨-, h1, h2⟩ := hp
    obtain ⟨p, σ, hco⟩ := h.core
    have hg := chp_gas hco.prog hco.feas ha hi h2
    have he := (chp_cells hco ha hw.ne_total hi).2.1
    refine mul_nonneg (by linarith) ?_
    rw [he]
    exact hg
  | evs c =>
    obtain ⟨a, hmake⟩ : ∃ a : EvArgs, a.make = .ok c := by
      cases hm with
      | evs h => exact ⟨⟨_, _, _, _, _, _, _⟩, h⟩
    have hmd := ev_made hmake
    obtain ⟨x, hx, hv⟩ := evs_schedule h hmake ha
    simp only [Asset.wasted]
    apply List.sum_nonneg
    intro q hq
    obtain ⟨⟨e, k⟩, he, rfl⟩ := List.mem_map.1 hq
    obtain ⟨hk, hge⟩ := List.mem_zipIdx' he
    have hmem : e ∈ c.events := by rw [hge]; exact List.getElem_mem ..
    refine mul_nonneg (sub_nonneg.2 (hp e hmem)) ?_
    have hk' : k < a.capacities.length := by rw [← hmd.events_length]; exact hk
    have : c.name ++ "-charge-event-" ++ toString k ++ ("-" ++ "electric_charge_mwh") = a.eventCol k "electric_charge_mwh" := by
      rw [hmd.name, dashed]; rfl
    have e2 : V (c.name ++ "-charge-event-" ++ toString k ++ "-electric_charge_mwh") i = V (a.eventCol k "electric_charge_mwh") i := by
      rw [← this]; rfl
    change 0 ≤ V (c.name ++ "-charge-event-" ++ toString k ++ "-electric_charge_mwh") i
    rw [e2, hx.event_charge i hi k hk']
    apply List.sum_nonneg
    intro q hq
    obtain ⟨j, hj, rfl⟩ := List.mem_map.1 hq
    have hj' := List.mem_range.1 hj
    exact (hv.limits i hi k hk' j hj' _ (List.getElem?_eq_getElem hj')).2.2.1
  | heatPump c => exact le_refl _
  | renewable c => exact le_refl _
  | valve c => exact le_refl _
  | spill c => exact hp.elim

/-- With sensible efficiencies and no spill, a site never gets more out than it puts in. -/
theorem C73_no_free_energy (h : Run s objective flags S r V) (hm : ∀ a ∈ s.assets, a.Made) (hw : ∀ a ∈ s.assets, a.WellNamed)
    (hp : ∀ a ∈ s.assets, a.Physical) {i : Nat} (hi : i < s.data.n) :
    V "site-export_power_mwh" i + V "site-electric_load_mwh" i + V "site-high_temperature_load_mwh" i +
        V "site-low_temperature_load_mwh" i + (s.assets.map (Asset.stored V i)).sum ≤
      V "site-import_power_mwh" i + (s.assets.map (Asset.supplied V i)).sum + V "site-low_temperature_generation_mwh" i := by
  rw [C73_interval h hm hw (fun c hc => (hp _ hc).1) hi]
  have : 0 ≤ (s.assets.map (Asset.wasted V i)).sum := by
    apply List.sum_nonneg
    intro q hq
    obtain ⟨a, ha, rfl⟩ := List.mem_map.1 hq
    exact wasted_nonneg h ha (hm a ha) (hw a ha) (hp a ha) hi
  linarith

/-- Batteries, vehicles, heat pumps and valves make no energy: over the horizon a site with nothing else, with no loads below zero, no low
temperature heat of its own, and batteries that do not end below their initial charges, exports no more than it imports. -/
theorem C73_no_perpetual_motion (h : Run s objective flags S r V) (hm : ∀ a ∈ s.assets, a.Made) (hw : ∀ a ∈ s.assets, a.WellNamed)
    (hp : ∀ a ∈ s.assets, a.Physical) (hc : ∀ a ∈ s.assets, a.Closed) (hst : ∀ a ∈ s.assets, 0 ≤ a.toStore)
    (hl : ∀ i < s.data.n, 0 ≤ V "site-electric_load_mwh" i ∧ 0 ≤ V "site-high_temperature_load_mwh" i ∧ 0 ≤ V "site-low_temperature_load_mwh" i ∧
      V "site-low_temperature_generation_mwh" i ≤ 0) :
    colSum V s.data.n "site-export_power_mwh" ≤ colSum V s.data.n "site-import_power_mwh" := by
  have hz := C73_horizon h hm hw (fun c hc => (hp _ hc).1)
  have h1 : sumTo s.data.n (fun i => (s.assets.map (Asset.supplied V i)).sum) = 0 := by
    apply sumTo_zero
    intro i _
    apply list_sum_zero
    intro a ha
    have := hc a ha
    cases a <;> first | rfl | exact this.elim
  have nn : ∀ k, (∀ i < s.data.n, 0 ≤ V k i) → 0 ≤ colSum V s.data.n k := by
    intro k hk
    apply List.sum_nonneg
    intro q hq
    obtain ⟨i, hi, rfl⟩ := List.mem_map.1 hq
    exact hk i (List.mem_range.1 hi)
  have h2 := nn _ (fun i hi => (hl i hi).1)
  have h3 := nn _ (fun i hi => (hl i hi).2.1)
  have h4 := nn _ (fun i hi => (hl i hi).2.2.1)
  have h5 : colSum V s.data.n "site-low_temperature_generation_mwh" ≤ 0 := by
    have key : ∀ l : List Nat, (∀ i ∈ l, V "site-low_temperature_generation_mwh" i ≤ 0) →
        (l.map (fun i => V "site-low_temperature_generation_mwh" i)).sum ≤ 0 := by
      intro l
      induction l with
      | nil => intro _; simp
      | cons a l ih =>
        intro hal
        have h1 := hal a (by simp)
        have h2 := ih (fun i hi => hal i (by simp [hi]))
        simp only [List.map_cons, List.sum_cons]
        linarith
    exact key _ (fun i hi => (hl i (List.mem_range.1 hi)).2.2.2)
  have h6 : 0 ≤ (s.assets.map Asset.toStore).sum := by
    apply List.sum_nonneg
    intro q hq
    obtain ⟨a, ha, rfl⟩ := List.mem_map.1 hq
    exact hst a ha
  have h7 : 0 ≤ sumTo s.data.n (fun i => (s.assets.map (Asset.wasted V i)).sum) := by
    apply List.sum_nonneg
    intro q hq
    obtain ⟨i, hi, rfl⟩ := List.mem_map.1 hq
    apply List.sum_nonneg
    intro q hq
    obtain ⟨a, ha, rfl⟩ := List.mem_map.1 hq
    exact wasted_nonneg h ha (hm a ha) (hw a ha) (hp a ha) (List.mem_range.1 hi)
  linarith

/-! ### The hypotheses are met -/

/-- The site of `demoHeat`: 2 imported, 8 + 5 gas and 3 from the sun serve loads of 7 + 5 + 4; 1 + 1 is wasted by the boiler and the CHP. -/
example : ∃ (s : Site) (r : SimResult) (V : String → Nat → ℚ), Run s (.str "price") {} (checkSolver (tab demoHeat.answer)) r V ∧
    (∀ a ∈ s.assets, a.Made) ∧ (∀ a ∈ s.assets, a.WellNamed) ∧ (∀ c, Asset.chp c ∈ s.assets → c.Tied) ∧ 0 < s.data.n := by
  obtain ⟨s, r, V, hs, h, ht⟩ := Demo.run demoHeat_test
  simp only [Bool.and_eq_true, decide_eq_true_eq] at ht
  refine ⟨s, r, V, h, ?_, by rw [ht.1.1]; decide +kernel, ?_, by rw [ht.1.2]; decide⟩
  · rw [ht.1.1]
    intro a ha
    simp only [List.mem_cons, List.not_mem_nil, or_false] at ha
    rcases ha with rfl | rfl | rfl | rfl | rfl | rfl
    · exact .chp (electricEfficiency := 1/2) (powerMax := 10) (powerMin := 2) (htEfficiency := 1/4) (ltEfficiency := 1/8) (name := "chp")
        (freqMins := 60) (by decide +kernel)
    · exact .boiler (name := "boiler") (heatMax := defaultBoiler.heatMax) (heatMin := defaultBoiler.heatMin)
        (efficiency := defaultBoiler.efficiency) (by decide +kernel)
    · exact .heatPump (cop := 3) (power := 4) (name := "heat-pump") (freqMins := 60) (includeValve := true) (by decide +kernel)
    · exact .renewable (gen := .array [3]) (lowerBoundPct := 1/2) (name := "solar") (freqMins := 60) (by decide +kernel)
    · exact .spill (name := "spill") (by decide +kernel)
    · exact .valve (name := "valve") (by decide +kernel)
  · rw [ht.1.1]
    intro c hc
    have : c = demoChpCfg := by simpa using hc
    rw [this]
    exact .inl (by decide +kernel)

set_option maxRecDepth 10000 in
theorem demoBattery_calm : demoBattery.test (fun s _ => decide (s.assets = [.battery demoBatteryCfg]) && decide (s.data.n = 2) &&
    decide ((s.data.electricLoad, s.data.htLoad, s.data.ltLoad, s.data.ltGeneration) = ([0, 0], [0, 0], [0, 0], [0, 0]))) = true := by
  decide +kernel

/-- The battery of `demoBattery` imports 2, loses 1 and exports 1. -/
example : ∃ (s : Site) (r : SimResult) (V : String → Nat → ℚ), Run s (.str "price") {} (checkSolver (tab demoBattery.answer)) r V ∧
    (∀ a ∈ s.assets, a.Made) ∧ (∀ a ∈ s.assets, a.WellNamed) ∧ (∀ a ∈ s.assets, a.Physical) ∧ (∀ a ∈ s.assets, a.Closed) ∧
    (∀ a ∈ s.assets, 0 ≤ a.toStore) ∧
    (∀ i < s.data.n, 0 ≤ V "site-electric_load_mwh" i ∧ 0 ≤ V "site-high_temperature_load_mwh" i ∧
      0 ≤ V "site-low_temperature_load_mwh" i ∧ V "site-low_temperature_generation_mwh" i ≤ 0) := by
  obtain ⟨s, r, V, hs, h, ht⟩ := Demo.run demoBattery_calm
  simp only [Bool.and_eq_true, decide_eq_true_eq] at ht
  have one : ∀ P : Asset → Prop, P (.battery demoBatteryCfg) → ∀ a ∈ s.assets, P a := by
    intro P hP a ha
    rw [ht.1.1, List.mem_singleton] at ha
    exact ha ▸ hP
  refine ⟨s, r, V, h, one _ ?_, one _ (by decide +kernel), one _ ?_, one _ trivial, one _ ?_, ?_⟩
  · exact .battery (power := 2) (dischargePower := some 2) (capacity := 4) (efficiency := 1/2) (initial := 0) (final := some 0) (name := "battery")
      (freqMins := 60) (by decide +kernel)
  · simp only [Asset.Physical, demoBatteryCfg]; norm_num
  · simp [Asset.toStore, demoBatteryCfg]
  · intro i hi
    have hz := ht.2
    simp only [Prod.mk.injEq] at hz
    obtain ⟨p, σ, hco⟩ := h.core
    obtain ⟨v1, v2, v3, v4⟩ := data_cells hco hi
    rw [v1, v2, v3, v4, hz.1, hz.2.1, hz.2.2.1, hz.2.2.2]
    have : ∀ j < 2, (0 : ℚ) ≤ [0, 0].getD j 0 ∧ (0 : ℚ) ≤ [0, 0].getD j 0 ∧ (0 : ℚ) ≤ [0, 0].getD j 0 ∧ [0, 0].getD j (0 : ℚ) ≤ 0 := by
      decide +kernel
    exact this i (ht.1.2 ▸ hi)

/-- A CHP without an electric efficiency is not tied to its gas: it exports 10 MWh and burns nothing. -/
def demoFree : Demo where
  assets := [.chp ⟨"chp", 10, 0, 0, 1/2, 0, 60⟩]
  raw := { electricityPrices := prices [10] }
  answer := [ (.site "export_power_mw" 0, 10), (.site "export_power_bin" 0, 1), (.asset "chp" "electric_generation_mwh" 0, 10),
    (.asset "chp" "binary_mwh" 0, 1) ]

/-- Columns read in `demoFree_test`. -/
def freeColumns : List (String × ℚ) :=
  [("site-export_power_mwh", 10), ("site-import_power_mwh", 0), ("chp-gas_consumption_mwh", 0), ("site-low_temperature_generation_mwh", 0)]

set_option maxRecDepth 10000 in
theorem demoFree_test : demoFree.test (fun s r => decide (s.assets = [.chp ⟨"chp", 10, 0, 0, 1/2, 0, 60⟩]) && decide (s.data.n = 1) &&
    freeColumns.all (fun k => decide (k.1 ∈ r.results.columns) && decide (r.results.cell k.1 0 = some k.2))) = true := by
  decide +kernel

/-- Without the hypothesis on CHPs energy is not kept: a run that exports 10 MWh and takes nothing in. -/
theorem C73_untied_chp : ∃ (s : Site) (r : SimResult) (V : String → Nat → ℚ), Run s (.str "price") {} (checkSolver (tab demoFree.answer)) r V ∧
    (∀ a ∈ s.assets, a.Made) ∧ 0 < s.data.n ∧ V "site-export_power_mwh" 0 = 10 ∧
    V "site-import_power_mwh" 0 + (s.assets.map (Asset.supplied V 0)).sum + V "site-low_temperature_generation_mwh" 0 = 0 := by
  obtain ⟨s, r, V, hs, h, ht⟩ := Demo.run demoFree_test
  simp only [Bool.and_eq_true, decide_eq_true_eq, List.all_eq_true] at ht
  obtain ⟨⟨h1, h2⟩, hr⟩ := ht
  have key : ∀ k ∈ freeColumns, V k.1 0 = k.2 := by
    intro k hk
    obtain ⟨m, e⟩ := hr k hk
    have := h.reads k.1 m 0 (by rw [h2]; decide)
    rw [e] at this
    exact (Option.some.inj this).symm
  refine ⟨s, r, V, h, ?_, by rw [h2]; decide, key ("site-export_power_mwh", 10) (by simp [freeColumns]), ?_⟩
  · rw [h1]
    intro a ha
    rw [List.mem_singleton.1 ha]
    exact .chp (electricEfficiency := 0) (powerMax := 10) (powerMin := 0) (htEfficiency := 1/2) (ltEfficiency := 0) (name := "chp")
        (freqMins := 60) (by decide +kernel)
  · have e1 := key ("site-import_power_mwh", 0) (by simp [freeColumns])
    have e2 := key ("chp-gas_consumption_mwh", 0) (by simp [freeColumns])
    have e3 := key ("site-low_temperature_generation_mwh", 0) (by simp [freeColumns])
    simp only at e1 e2 e3
    have e4 : "chp" ++ "-gas_consumption_mwh" = "chp-gas_consumption_mwh" := by decide +kernel
    rw [h1]
    simp [Asset.supplied, e1, e3, e4, e2]

end

end EPL
