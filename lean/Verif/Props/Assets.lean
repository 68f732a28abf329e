/-
C04 - C08, C10 - C14: the site connection and the assets with one object per interval, as read from the results.
-/
import Verif.Props.Inputs
import Verif.Proofs.Units

namespace EPL

section
variable {s : Site} {objective : Objective} {flags : Flags} {S : Solver} {r : SimResult} {V : String → Nat → ℚ}

/-! ### C04 -/

/-- Import and export stay within the limits of the connection and never overlap. -/
theorem C04_site_limits (h : Run s objective flags S r V) {i : Nat} (hi : i < s.data.n) :
    0 ≤ V "site-import_power_mwh" i ∧ V "site-import_power_mwh" i ≤ s.importLimit * s.freqMins / 60 ∧
    0 ≤ V "site-export_power_mwh" i ∧ V "site-export_power_mwh" i ≤ s.exportLimit * s.freqMins / 60 ∧
    (V "site-import_power_mwh" i = 0 ∨ V "site-export_power_mwh" i = 0) := by
  obtain ⟨p, σ, hc⟩ := h.core
  rw [hc.import_cell hi, hc.export_cell hi]
  exact site_facts hc.prog hc.feas hi

example : ∃ s r V, Run s (.str "price") {} (checkSolver (tab demoBattery.answer)) r V ∧ 0 < s.data.n := by
  obtain ⟨s, r, V, _, h, ht⟩ := Demo.run demoBattery_test
  simp only [Bool.and_eq_true, decide_eq_true_eq] at ht
  exact ⟨s, r, V, h, by omega⟩

/-! ### C05 - C08: batteries -/

/-- The state of charge stays between empty and full. -/
theorem C05_battery_soc (h : Run s objective flags S r V) {c : BatteryCfg} (hc : Asset.battery c ∈ s.assets)
    (hn : (Asset.battery c).WellNamed) {i : Nat} (hi : i < s.data.n) :
    0 ≤ V (c.name ++ "-electric_initial_charge_mwh") i ∧ V (c.name ++ "-electric_initial_charge_mwh") i ≤ c.capacity ∧
    0 ≤ V (c.name ++ "-electric_final_charge_mwh") i ∧ V (c.name ++ "-electric_final_charge_mwh") i ≤ c.capacity := by
  obtain ⟨p, σ, hco⟩ := h.core
  have hf := battery_facts hco.prog hco.feas hc hi
  obtain ⟨_, _, _, e4, e5, _, _⟩ := battery_cells hco hc hn.ne_total hi
  rw [e4, e5]
  exact ⟨hf.ini_nonneg, hf.ini_le, hf.fin_nonneg, hf.fin_le⟩

/-- Charge is conserved in every interval: what is not lost is stored or was stored. -/
theorem C06_battery_balance (h : Run s objective flags S r V) {c : BatteryCfg} (hc : Asset.battery c ∈ s.assets)
    (hn : (Asset.battery c).WellNamed) {i : Nat} (hi : i < s.data.n) :
    V (c.name ++ "-electric_final_charge_mwh") i = V (c.name ++ "-electric_initial_charge_mwh") i +
      V (c.name ++ "-electric_charge_mwh") i - V (c.name ++ "-electric_discharge_mwh") i - V (c.name ++ "-electric_loss_mwh") i ∧
    V (c.name ++ "-electric_loss_mwh") i = (1 - c.efficiency) * V (c.name ++ "-electric_charge_mwh") i := by
  obtain ⟨p, σ, hco⟩ := h.core
  have hf := battery_facts hco.prog hco.feas hc hi
  obtain ⟨e1, e2, e3, e4, e5, _, _⟩ := battery_cells hco hc hn.ne_total hi
  rw [e1, e2, e3, e4, e5]
  exact ⟨hf.balance.symm, by rw [hf.loss_eq]; ring⟩

/-- The final charge of an interval is the initial charge of the next. -/
theorem C06_battery_chain (h : Run s objective flags S r V) {c : BatteryCfg} (hc : Asset.battery c ∈ s.assets)
    (hn : (Asset.battery c).WellNamed) {i : Nat} (hi : i + 1 < s.data.n) :
    V (c.name ++ "-electric_final_charge_mwh") i = V (c.name ++ "-electric_initial_charge_mwh") (i + 1) := by
  obtain ⟨p, σ, hco⟩ := h.core
  obtain ⟨_, _, _, _, e5, _, _⟩ := battery_cells hco hc hn.ne_total (i := i) (by omega)
  obtain ⟨_, _, _, e4, _, _, _⟩ := battery_cells hco hc hn.ne_total hi
  rw [e4, e5]
  exact battery_connect hco.prog hco.feas hc hi

/-- The first interval starts at the initial charge, the last ends at the final charge. -/
theorem C06_battery_ends (h : Run s objective flags S r V) {c : BatteryCfg} (hc : Asset.battery c ∈ s.assets)
    (hn : (Asset.battery c).WellNamed) :
    0 < s.data.n ∧ V (c.name ++ "-electric_initial_charge_mwh") 0 = c.initialCharge ∧
    V (c.name ++ "-electric_final_charge_mwh") (s.data.n - 1) = c.finalCharge := by
  obtain ⟨p, σ, hco⟩ := h.core
  have hpos := hco.outcome.pos
  obtain ⟨_, _, _, e4, _, _, _⟩ := battery_cells hco hc hn.ne_total hpos
  obtain ⟨_, _, _, _, e5, _, _⟩ := battery_cells hco hc hn.ne_total (i := s.data.n - 1) (by omega)
  rw [e4, e5]
  exact ⟨hpos, battery_ends hco.prog hco.feas hc⟩

/-- The charge after `k` intervals is the initial charge plus what was charged with the efficiency minus what was discharged. -/
theorem C06_battery_partial_sums (h : Run s objective flags S r V) {c : BatteryCfg} (hc : Asset.battery c ∈ s.assets)
    (hn : (Asset.battery c).WellNamed) {k : Nat} (hk : k < s.data.n) :
    V (c.name ++ "-electric_final_charge_mwh") k = c.initialCharge +
      c.efficiency * colSum V (k + 1) (c.name ++ "-electric_charge_mwh") - colSum V (k + 1) (c.name ++ "-electric_discharge_mwh") := by
  induction k with
  | zero =>
    obtain ⟨b1, b2⟩ := C06_battery_balance h hc hn hk
    obtain ⟨_, e1, _⟩ := C06_battery_ends h hc hn
    simp only [colSum, List.range_succ, List.range_zero, List.nil_append, List.map_cons, List.map_nil, List.sum_cons, List.sum_nil]
    rw [b1, b2, e1]
    ring
  | succ k ih =>
    obtain ⟨b1, b2⟩ := C06_battery_balance h hc hn hk
    have e := C06_battery_chain h hc hn hk
    have ih := ih (by omega)
    simp only [colSum] at ih ⊢
    rw [List.range_succ (n := k + 1), List.map_append, List.sum_append, List.map_append, List.sum_append]
    simp only [List.map_cons, List.map_nil, List.sum_cons, List.sum_nil]
    rw [b1, b2, ← e, ih]
    ring

/-- Over the horizon the energy discharged is the efficiency times the energy charged plus initial minus final charge. -/
theorem C06_battery_horizon (h : Run s objective flags S r V) {c : BatteryCfg} (hc : Asset.battery c ∈ s.assets)
    (hn : (Asset.battery c).WellNamed) :
    colSum V s.data.n (c.name ++ "-electric_discharge_mwh") =
      c.efficiency * colSum V s.data.n (c.name ++ "-electric_charge_mwh") + c.initialCharge - c.finalCharge := by
  obtain ⟨hpos, _, e2⟩ := C06_battery_ends h hc hn
  have := C06_battery_partial_sums h hc hn (k := s.data.n - 1) (by omega)
  rw [e2, Nat.sub_add_cancel hpos] at this
  linarith

/-- Charge and discharge respect the power limits at the frequency of the site, and never exceed the capacity. -/
theorem C07_battery_limits (h : Run s objective flags S r V) {c : BatteryCfg} (hc : Asset.battery c ∈ s.assets)
    (hn : (Asset.battery c).WellNamed) {i : Nat} (hi : i < s.data.n) :
    0 ≤ V (c.name ++ "-electric_charge_mwh") i ∧
    V (c.name ++ "-electric_charge_mwh") i ≤ min (c.chargePower * s.freqMins / 60) c.capacity ∧
    0 ≤ V (c.name ++ "-electric_discharge_mwh") i ∧
    V (c.name ++ "-electric_discharge_mwh") i ≤ min (c.dischargePower * s.freqMins / 60) c.capacity := by
  obtain ⟨p, σ, hco⟩ := h.core
  have hf := battery_facts hco.prog hco.feas hc hi
  obtain ⟨e1, e2, _, _, _, _, _⟩ := battery_cells hco hc hn.ne_total hi
  rw [e1, e2]
  have hcap : 0 ≤ c.capacity := hf.ini_nonneg.trans hf.ini_le
  have hb : ∀ b : ℚ, (b = 0 ∨ b = 1) → b * c.capacity ≤ c.capacity := by rintro b (rfl | rfl) <;> simp [hcap]
  exact ⟨hf.ch_nonneg, le_min hf.ch_le (hf.ch_cap.trans (hb _ hf.cb01)), hf.dis_nonneg,
    le_min hf.dis_le (hf.dis_cap.trans (hb _ hf.db01))⟩

/-- A battery never charges and discharges in the same interval; the binary columns say which it does. -/
theorem C08_battery_exclusive (h : Run s objective flags S r V) {c : BatteryCfg} (hc : Asset.battery c ∈ s.assets)
    (hn : (Asset.battery c).WellNamed) {i : Nat} (hi : i < s.data.n) :
    (V (c.name ++ "-electric_charge_mwh") i = 0 ∨ V (c.name ++ "-electric_discharge_mwh") i = 0) ∧
    (V (c.name ++ "-electric_charge_binary") i = 0 ∨ V (c.name ++ "-electric_charge_binary") i = 1) ∧
    (V (c.name ++ "-electric_discharge_binary") i = 0 ∨ V (c.name ++ "-electric_discharge_binary") i = 1) ∧
    ¬ (V (c.name ++ "-electric_charge_binary") i = 1 ∧ V (c.name ++ "-electric_discharge_binary") i = 1) ∧
    (V (c.name ++ "-electric_charge_mwh") i ≠ 0 → V (c.name ++ "-electric_charge_binary") i = 1) ∧
    (V (c.name ++ "-electric_discharge_mwh") i ≠ 0 → V (c.name ++ "-electric_discharge_binary") i = 1) := by
  obtain ⟨p, σ, hco⟩ := h.core
  have hf := battery_facts hco.prog hco.feas hc hi
  obtain ⟨e1, e2, _, _, _, e6, e7⟩ := battery_cells hco hc hn.ne_total hi
  rw [e1, e2, e6, e7]
  have key : ∀ x b : ℚ, 0 ≤ x → (b = 0 ∨ b = 1) → x ≤ b * c.capacity → x ≠ 0 → b = 1 := by
    rintro x b h0 (rfl | rfl) hx hne
    · rw [zero_mul] at hx
      exact absurd (le_antisymm hx h0) hne
    · rfl
  have k1 := key _ _ hf.ch_nonneg hf.cb01 hf.ch_cap
  have k2 := key _ _ hf.dis_nonneg hf.db01 hf.dis_cap
  have hone := hf.one
  have hex : ¬ (σ (c.oneInterval i s.freq).chargeBin.id = 1 ∧ σ (c.oneInterval i s.freq).dischargeBin.id = 1) := by
    rintro ⟨h1, h2⟩
    rw [h1, h2] at hone
    norm_num at hone
  refine ⟨?_, hf.cb01, hf.db01, hex, k1, k2⟩
  by_contra hne
  rw [not_or] at hne
  exact hex ⟨k1 hne.1, k2 hne.2⟩

example : ∃ s r V c, Run s (.str "price") {} (checkSolver (tab demoBattery.answer)) r V ∧ Asset.battery c ∈ s.assets ∧
    (Asset.battery c).WellNamed ∧ s.data.n = 2 := by
  obtain ⟨s, r, V, _, h, ht⟩ := Demo.run demoBattery_test
  simp only [Bool.and_eq_true, decide_eq_true_eq] at ht
  exact ⟨s, r, V, demoBatteryCfg, h, by simp [ht.1.1], by decide +kernel, ht.1.2⟩

/-! ### C10: CHP -/

/-- A CHP converts gas at its efficiencies; its electricity is zero or between its minimum and maximum. -/
theorem C10_chp (h : Run s objective flags S r V) {c : ChpCfg} (hc : Asset.chp c ∈ s.assets)
    (hn : (Asset.chp c).WellNamed) {i : Nat} (hi : i < s.data.n) :
    (0 < c.electricEfficiency →
      V (c.name ++ "-gas_consumption_mwh") i = V (c.name ++ "-electric_generation_mwh") i / c.electricEfficiency) ∧
    V (c.name ++ "-high_temperature_generation_mwh") i = c.htEfficiency * V (c.name ++ "-gas_consumption_mwh") i ∧
    V (c.name ++ "-low_temperature_generation_mwh") i = c.ltEfficiency * V (c.name ++ "-gas_consumption_mwh") i ∧
    0 ≤ V (c.name ++ "-electric_generation_mwh") i ∧
    (V (c.name ++ "-electric_generation_mwh") i = 0 ∨
      (c.powerMin * s.freqMins / 60 ≤ V (c.name ++ "-electric_generation_mwh") i ∧
       V (c.name ++ "-electric_generation_mwh") i ≤ c.powerMax * s.freqMins / 60)) := by
  obtain ⟨p, σ, hco⟩ := h.core
  obtain ⟨f1, f2, f3, f4, f5, _, _, f8, _⟩ := chp_facts hco.prog hco.feas hc hi
  obtain ⟨e1, e2, e3, e4⟩ := chp_cells hco hc hn.ne_total hi
  rw [e1, e2, e3, e4]
  refine ⟨fun he => by rw [f1 he]; ring, by rw [f2]; ring, by rw [f3]; ring, f4, ?_⟩
  rcases f8 with f8 | f8
  · exact .inl f8
  · exact .inr ⟨f8, f5⟩

/-! ### C11: boiler -/

/-- A boiler turns gas into heat with its efficiency and stays within its bounds; with a positive minimum it never stops. -/
theorem C11_boiler (h : Run s objective flags S r V) {c : BoilerCfg} (hc : Asset.boiler c ∈ s.assets)
    (hn : (Asset.boiler c).WellNamed) {i : Nat} (hi : i < s.data.n) :
    c.efficiency * V (c.name ++ "-gas_consumption_mwh") i = V (c.name ++ "-high_temperature_generation_mwh") i ∧
    c.heatMin * s.freqMins / 60 ≤ V (c.name ++ "-high_temperature_generation_mwh") i ∧
    V (c.name ++ "-high_temperature_generation_mwh") i ≤ c.heatMax * s.freqMins / 60 ∧
    0 ≤ V (c.name ++ "-gas_consumption_mwh") i ∧
    (0 < c.heatMin → 0 < s.freqMins → 0 < V (c.name ++ "-high_temperature_generation_mwh") i) := by
  obtain ⟨p, σ, hco⟩ := h.core
  obtain ⟨f1, f2, f3, f4, f5⟩ := boiler_facts hco.prog hco.feas hc hi
  obtain ⟨e1, e2⟩ := boiler_cells hco hc hn.ne_total hi
  rw [e1, e2]
  refine ⟨by rw [f1]; field_simp, f2, f3, f4, ?_⟩
  intro h1 h2
  refine lt_of_lt_of_le ?_ f2
  exact div_pos (mul_pos h1 h2) (by norm_num)

/-! ### C12: heat pump -/

/-- A heat pump lifts low temperature heat with its COP. -/
theorem C12_heat_pump (h : Run s objective flags S r V) {c : HeatPumpCfg} (hc : Asset.heatPump c ∈ s.assets)
    (hn : (Asset.heatPump c).WellNamed) {i : Nat} (hi : i < s.data.n) :
    V (c.name ++ "-high_temperature_generation_mwh") i = c.cop * V (c.name ++ "-electric_load_mwh") i ∧
    V (c.name ++ "-low_temperature_load_mwh") i = (c.cop - 1) * V (c.name ++ "-electric_load_mwh") i ∧
    0 ≤ V (c.name ++ "-electric_load_mwh") i ∧ V (c.name ++ "-electric_load_mwh") i ≤ c.power * s.freqMins / 60 := by
  obtain ⟨p, σ, hco⟩ := h.core
  obtain ⟨f1, f2, f3, f4, _, _⟩ := heatPump_facts hco.prog hco.feas hc hi
  obtain ⟨e1, e2, e3⟩ := heatPump_cells hco hc hn.ne_total hi
  rw [e1, e2, e3]
  exact ⟨by rw [f1]; ring, by linarith, f3, f4⟩

/-! ### C13: valve -/

/-- A valve passes on exactly the heat it takes, and only downwards. -/
theorem C13_valve (h : Run s objective flags S r V) {c : ValveCfg} (hc : Asset.valve c ∈ s.assets)
    (hn : (Asset.valve c).WellNamed) {i : Nat} (hi : i < s.data.n) :
    V (c.name ++ "-high_temperature_load_mwh") i = V (c.name ++ "-low_temperature_generation_mwh") i ∧
    0 ≤ V (c.name ++ "-high_temperature_load_mwh") i := by
  obtain ⟨p, σ, hco⟩ := h.core
  obtain ⟨e1, e2⟩ := valve_cells hco hc hn.ne_total hi
  rw [e1, e2]
  exact valve_facts hco.prog hco.feas hc hi

/-! ### C14: renewable generator -/

/-- The generation a renewable generator was built with. -/
def GenInput.values : GenInput → List ℚ
  | .scalar q => [q]
  | .array l => l

theorem renewable_new {gen : GenInput} {lb : ℚ} {name : String} {fm : ℚ} {c : RenewableCfg}
    (h : Renewable.new gen lb name fm = .ok c) :
    c.name = name ∧ c.lowerBoundPct = lb ∧ c.generation = gen.values ∧ c.idxLen = gen.values.length ∧ gen.values ≠ [] ∧
    (∀ q ∈ gen.values, 0 ≤ q) ∧ 0 ≤ lb ∧ lb ≤ 1 ∧ (Asset.renewable c).WellNamed := by
  have key : ∀ (data : List ℚ) (b : Bool), (if data = [] then Except.error (Err.validation "zero-size array to reduction operation minimum")
      else do
        pyValidate (data.all (fun q => decide (0 ≤ q))) "electric_generation_mwh"
        if ¬ (0 ≤ lb ∧ lb ≤ 1) then .error (.validation "electric_generation_lower_bound_pct")
        else
          pyValidate (pyIn "wind" name || pyIn "solar" name || pyIn "renewable-generator" name) "name"
          .ok { name, lowerBoundPct := lb, generation := data, isArray := b, idxLen := data.length, freqMins := fm }) = .ok c →
      c.name = name ∧ c.lowerBoundPct = lb ∧ c.generation = data ∧ c.idxLen = data.length ∧ data ≠ [] ∧
      (∀ q ∈ data, 0 ≤ q) ∧ 0 ≤ lb ∧ lb ≤ 1 ∧ (Asset.renewable c).WellNamed := by
    intro data b h
    split at h
    · simp at h
    · rename_i h0
      simp only [bind_ok, pyValidate_ok, List.all_eq_true, decide_eq_true_eq] at h
      obtain ⟨_, h1, h⟩ := h
      split at h
      · simp at h
      · rename_i h2
        simp only [not_not] at h2
        simp only [bind_ok, pyValidate_ok, Except.ok.injEq, Bool.or_eq_true] at h
        obtain ⟨_, h3, rfl⟩ := h
        exact ⟨rfl, rfl, rfl, rfl, h0, h1, h2.1, h2.2, by simpa [Asset.WellNamed, or_assoc] using h3⟩
  cases gen with
  | scalar q => exact key [q] false h
  | array l => exact key l true h

theorem mapE_mem_ok {α β : Type} {f : α → Res β} {l : List α} {bs : List β} (h : mapE f l = .ok bs) {a : α} (ha : a ∈ l) :
    ∃ b ∈ bs, f a = .ok b := by
  induction l generalizing bs with
  | nil => simp at ha
  | cons x l ih =>
    simp only [mapE, bind_ok, Except.ok.injEq] at h
    obtain ⟨b, hb, bs', hbs, rfl⟩ := h
    rcases List.mem_cons.1 ha with rfl | ha
    · exact ⟨b, by simp, hb⟩
    · obtain ⟨b', hb', he⟩ := ih hbs ha
      exact ⟨b', by simp [hb'], he⟩

/-- The renewable generator of a site made from one the user built: same name and bound, generation repeated or cut to the number
of intervals. -/
theorem renewable_fitted {assets : List Asset} {raw : RawSiteData} {freqMins il el : ℚ} {constraints : List Constraint}
    {kwargs : List (String × KwData)} (hs : Site.new assets raw freqMins il el constraints kwargs = .ok s)
    {gen : GenInput} {lb : ℚ} {name : String} {fm : ℚ} {c : RenewableCfg} (hnew : Renewable.new gen lb name fm = .ok c)
    (hc : Asset.renewable c ∈ assets) :
    ∃ c', Asset.renewable c' ∈ s.assets ∧ c'.name = name ∧ c'.lowerBoundPct = lb ∧ c'.generation.length = s.data.n ∧
      ∀ i < s.data.n, c'.generation[i]? = cyclic gen.values i := by
  obtain ⟨h1, h2, h3, h4, h5, _⟩ := renewable_new hnew
  obtain ⟨a, ha, hfit⟩ := mapE_mem_ok (site_new hs).assets hc
  simp only [Asset.fit] at hfit
  split at hfit
  · rename_i he
    simp only [Except.ok.injEq] at hfit
    subst hfit
    refine ⟨c, ha, h1, h2, by rw [h3, ← h4, he], ?_⟩
    intro i hi
    rw [h3, cyclic, Nat.mod_eq_of_lt (by rw [← h4, he]; exact hi)]
  · simp only [bind_ok, Except.ok.injEq] at hfit
    obtain ⟨g, hg, rfl⟩ := hfit
    rw [h3] at hg
    obtain ⟨b, hb, hlen, hget⟩ := (C30_repeat gen.values s.data.n).2 h5
    rw [hg, Except.ok.injEq] at hb
    subst hb
    exact ⟨_, ha, h1, h2, hlen, hget⟩

/-- Generation stays between the turn-down bound and the available generation, which is the generation given to the asset,
repeated cyclically or cut to the length of the site. -/
theorem C14_renewable {assets : List Asset} {raw : RawSiteData} {freqMins il el : ℚ} {constraints : List Constraint}
    {kwargs : List (String × KwData)} (hs : Site.new assets raw freqMins il el constraints kwargs = .ok s)
    (h : Run s objective flags S r V)
    {gen : GenInput} {lb : ℚ} {name : String} {fm : ℚ} {c : RenewableCfg} (hnew : Renewable.new gen lb name fm = .ok c)
    (hc : Asset.renewable c ∈ assets) {i : Nat} (hi : i < s.data.n) :
    ∃ available, cyclic gen.values i = some available ∧
      lb * available ≤ V (name ++ "-electric_generation_mwh") i ∧ V (name ++ "-electric_generation_mwh") i ≤ available ∧
      0 ≤ V (name ++ "-electric_generation_mwh") i := by
  obtain ⟨c', hc', e1, e2, e3, e4⟩ := renewable_fitted hs hnew hc
  obtain ⟨h1, _, _, _, h5, h6, h7, _, h9⟩ := renewable_new hnew
  obtain ⟨p, σ, hco⟩ := h.core
  have hn : c'.name ≠ "total" := by
    rw [e1, ← h1]
    exact h9.ne_total
  obtain ⟨f1, f2⟩ := renewable_facts hco.prog hco.feas hc' hi
  have e := renewable_cells hco hc' hn hi
  rw [e1] at e
  have hg : c'.generation[i]? = some (c'.generation.getD i 0) := by
    rw [List.getD_eq_getElem?_getD, List.getElem?_eq_getElem (by omega)]
    rfl
  have hnn : 0 ≤ c'.generation.getD i 0 := by
    have hcy := e4 i hi
    rw [hg] at hcy
    unfold cyclic at hcy
    exact h6 _ (List.mem_of_getElem? hcy.symm)
  rw [e2] at f1
  refine ⟨c'.generation.getD i 0, by rw [← e4 i hi, hg], ?_, ?_, ?_⟩
  · rw [e]; linarith
  · rw [e]; exact f2
  · rw [e]; nlinarith [mul_nonneg h7 hnn]

example : ∃ s r V, Run s (.str "price") {} (checkSolver (tab demoHeat.answer)) r V ∧ Asset.chp demoChpCfg ∈ s.assets ∧
    (Asset.chp demoChpCfg).WellNamed ∧ Asset.boiler defaultBoiler ∈ s.assets ∧ (Asset.boiler defaultBoiler).WellNamed ∧
    Asset.heatPump demoHeatPumpCfg ∈ s.assets ∧ (Asset.heatPump demoHeatPumpCfg).WellNamed ∧ Asset.valve defaultValve ∈ s.assets ∧
    (Asset.valve defaultValve).WellNamed ∧ s.data.n = 1 ∧
    Site.new demoHeat.assets demoHeat.raw 60 10000 10000 [] [] = .ok s ∧
    Renewable.new (.array [3]) (1/2) "solar" = .ok demoRenewableCfg ∧ Asset.renewable demoRenewableCfg ∈ demoHeat.assets := by
  obtain ⟨s, r, V, hs, h, ht⟩ := Demo.run demoHeat_test
  simp only [Bool.and_eq_true, decide_eq_true_eq] at ht
  refine ⟨s, r, V, h, by simp [ht.1.1], by decide +kernel, by simp [ht.1.1], by decide +kernel, by simp [ht.1.1],
    (by decide : "heat-pump" ≠ "total"), by simp [ht.1.1], by decide +kernel, ht.1.2, hs, by decide +kernel, by decide +kernel⟩

end

end EPL
