/-
C64: the results are checked before they are returned, whatever the solver answered.
-/
import Verif.Props.Results
import Verif.Proofs.Checks
import Verif.Spec.DemoGuard

namespace EPL

section
variable {s : Site} {objective : Objective} {flags : Flags} {S : Solver} {r : SimResult} {V : String → Nat → ℚ}

/-- The checks that a returned feasible table has passed. -/
theorem guard_checks (hc : s.Constructed) (h : s.optimize objective flags S = .ok r) (hf : r.feasible = true) :
    ∃ σ p, Outcome s flags σ r.results ∧ Prog s objective flags (s.ivarsTo flags s.data.n) p ∧ validateSchema r.results = .ok () ∧
      checkResults r.results (s.assets.any Asset.isValve) = .ok () := by
  obtain ⟨σ, p, hr, hp, ho, _⟩ := returned_outcome hc h
  exact ⟨σ, p, ho, hp, (hr.checks hf).1, (hr.checks hf).2⟩

/-- The balances of the totals. -/
theorem guard_totals (hc : s.Constructed) (h : s.optimize objective flags S = .ok r) (hf : r.feasible = true)
    (hV : r.results.Reads s.data.n V) {i : Nat} (hi : i < s.data.n) :
    |V "site-import_power_mwh" i + V "total-electric_generation_mwh" i +
        (V "total-electric_discharge_mwh" i - V "total-electric_charge_mwh" i) -
        (V "site-export_power_mwh" i + V "total-electric_load_mwh" i)| < 1 / 1000 ∧
    |V "total-high_temperature_generation_mwh" i - V "total-high_temperature_load_mwh" i| < 1 / 10000 ∧
    |V "total-low_temperature_generation_mwh" i - V "total-low_temperature_load_mwh" i| < 1 / 10000 := by
  obtain ⟨σ, p, ho, hp, _, hch⟩ := guard_checks hc h hf
  have hcol : ∀ k, k ∈ totalKeys ∨ k = "site-import_power_mwh" ∨ k = "site-export_power_mwh" →
      ∃ col, r.results.get k = .ok col ∧ col.length = s.data.n ∧ ∀ i < s.data.n, col.getD i 0 = V k i := by
    intro k hk
    refine get_col ho hV ((ho.columns k).2 ?_)
    rcases hk with hk | rfl | rfl
    · exact .inr hk
    · exact .inl (by simp [Site.keys])
    · exact .inl (by simp [Site.keys])
  obtain ⟨imp, e1, l1, v1⟩ := hcol "site-import_power_mwh" (by simp)
  obtain ⟨exp, e2, l2, v2⟩ := hcol "site-export_power_mwh" (by simp)
  obtain ⟨gen, e3, l3, v3⟩ := hcol "total-electric_generation_mwh" (.inl (by decide +kernel))
  obtain ⟨load, e4, l4, v4⟩ := hcol "total-electric_load_mwh" (.inl (by decide +kernel))
  obtain ⟨dis, e5, l5, v5⟩ := hcol "total-electric_discharge_mwh" (.inl (by decide +kernel))
  obtain ⟨ch, e6, l6, v6⟩ := hcol "total-electric_charge_mwh" (.inl (by decide +kernel))
  obtain ⟨loss, e7, _, _⟩ := hcol "total-electric_loss_mwh" (.inl (by decide +kernel))
  obtain ⟨spills, e8, _, _⟩ := hcol "total-spills_mwh" (.inl (by decide +kernel))
  obtain ⟨hg, e9, l9, v9⟩ := hcol "total-high_temperature_generation_mwh" (.inl (by decide +kernel))
  obtain ⟨hl, e10, l10, v10⟩ := hcol "total-high_temperature_load_mwh" (.inl (by decide +kernel))
  obtain ⟨lg, e11, l11, v11⟩ := hcol "total-low_temperature_generation_mwh" (.inl (by decide +kernel))
  obtain ⟨ll, e12, l12, v12⟩ := hcol "total-low_temperature_load_mwh" (.inl (by decide +kernel))
  simp only [checkResults, bind_ok, checkElectricityBalance, checkHeatBalance, e1, e2, e3, e4, e5, e6, e7, e8, e9, e10, e11, e12, ok_bind,
    pyAssert_ok, List.all_eq_true, decide_eq_true_eq, List.mem_range] at hch
  obtain ⟨_, b1, _, b2, _, b3, _⟩ := hch
  replace b1 := b1 i (by omega)
  replace b2 := b2 i (by omega)
  replace b3 := b3 i (by omega)
  rw [v1 i hi, v2 i hi, v3 i hi, v4 i hi, v5 i hi, v6 i hi] at b1
  rw [v9 i hi, v10 i hi] at b2
  rw [v11 i hi, v12 i hi] at b3
  exact ⟨b1, b2, b3⟩

/-- C64: whatever the solver answers, even if it is wrong, the flows of a result that is returned as feasible balance: electricity up to
1/1000 MWh and both heats up to 1/10000 MWh in every interval. -/
theorem C64_balances (hc : s.Constructed) (h : s.optimize objective flags S = .ok r) (hf : r.feasible = true)
    (hV : r.results.Reads s.data.n V) (hw : ∀ a ∈ s.assets, a.WellNamed) (hp : s.PlainNames) {i : Nat} (hi : i < s.data.n) :
    |V "site-import_power_mwh" i - V "site-export_power_mwh" i + s.assetSum V "electric_generation_mwh" i +
        s.assetSum V "electric_discharge_mwh" i - s.assetSum V "electric_charge_mwh" i -
        (V "site-electric_load_mwh" i + s.assetSum V "electric_load_mwh" i)| < 1 / 1000 ∧
    |s.assetSum V "high_temperature_generation_mwh" i -
        (V "site-high_temperature_load_mwh" i + s.assetSum V "high_temperature_load_mwh" i)| < 1 / 10000 ∧
    |V "site-low_temperature_generation_mwh" i + s.assetSum V "low_temperature_generation_mwh" i -
        (V "site-low_temperature_load_mwh" i + s.assetSum V "low_temperature_load_mwh" i)| < 1 / 10000 := by
  obtain ⟨b1, b2, b3⟩ := guard_totals hc h hf hV hi
  have t : ∀ q ∈ totalFlows, V ("total-" ++ q) i = (if q ∈ siteFlows then V ("site-" ++ q) i else 0) + s.assetSum V q i :=
    fun q hq => C24_total_assets hc h hV hw hp hq hi
  have t1 : V "total-electric_generation_mwh" i = s.assetSum V "electric_generation_mwh" i :=
    (t "electric_generation_mwh" (by decide)).trans (by rw [if_neg (by decide), zero_add])
  have t2 : V "total-electric_discharge_mwh" i = s.assetSum V "electric_discharge_mwh" i :=
    (t "electric_discharge_mwh" (by decide)).trans (by rw [if_neg (by decide), zero_add])
  have t3 : V "total-electric_charge_mwh" i = s.assetSum V "electric_charge_mwh" i :=
    (t "electric_charge_mwh" (by decide)).trans (by rw [if_neg (by decide), zero_add])
  have t4 : V "total-electric_load_mwh" i = V "site-electric_load_mwh" i + s.assetSum V "electric_load_mwh" i :=
    (t "electric_load_mwh" (by decide)).trans (by rw [if_pos (by decide)]; rfl)
  have t5 : V "total-high_temperature_generation_mwh" i = s.assetSum V "high_temperature_generation_mwh" i :=
    (t "high_temperature_generation_mwh" (by decide)).trans (by rw [if_neg (by decide), zero_add])
  have t6 : V "total-high_temperature_load_mwh" i = V "site-high_temperature_load_mwh" i + s.assetSum V "high_temperature_load_mwh" i :=
    (t "high_temperature_load_mwh" (by decide)).trans (by rw [if_pos (by decide)]; rfl)
  have t7 : V "total-low_temperature_generation_mwh" i =
      V "site-low_temperature_generation_mwh" i + s.assetSum V "low_temperature_generation_mwh" i :=
    (t "low_temperature_generation_mwh" (by decide)).trans (by rw [if_pos (by decide)]; rfl)
  have t8 : V "total-low_temperature_load_mwh" i = V "site-low_temperature_load_mwh" i + s.assetSum V "low_temperature_load_mwh" i :=
    (t "low_temperature_load_mwh" (by decide)).trans (by rw [if_pos (by decide)]; rfl)
  rw [t1, t2, t3, t4] at b1
  rw [t5, t6] at b2
  rw [t7, t8] at b3
  refine ⟨?_, b2, b3⟩
  convert b1 using 2
  ring

theorem word_pattern {name q : String} (h0 : name ≠ "") (hn : ∀ c ∈ name.toList, c.isAlphanum = true ∨ c = '_') :
    matchesSchemaPattern q (name ++ "-" ++ q) = true := by
  have hw : ∀ c ∈ name.toList, isWordChar c = true := by
    intro c hc
    rcases hn c hc with h | rfl
    · simp [isWordChar, h]
    · rfl
  have hd : isWordChar '-' = false := by decide
  have hne : name.toList ≠ [] := fun h => h0 (String.ext h)
  have e : (name ++ "-" ++ q).toList = name.toList ++ '-' :: q.toList := by simp [String.toList_append]
  have et : (name ++ "-" ++ q).toList.takeWhile isWordChar = name.toList := by
    rw [e, List.takeWhile_append_of_pos hw]
    simp [hd]
  have ed : (name ++ "-" ++ q).toList.dropWhile isWordChar = '-' :: q.toList := by
    rw [e, List.dropWhile_append_of_pos hw]
    simp [hd]
  unfold matchesSchemaPattern
  rw [et, ed]
  simp [String.toList_append, hne]

/-- C64: whatever the solver answers, no flow of a result that is returned as feasible is below -1/10000 MWh: import, export, the totals and the
flows of the site and of assets whose name consists of letters, digits and underscores. -/
theorem C64_signs (hc : s.Constructed) (h : s.optimize objective flags S = .ok r) (hf : r.feasible = true)
    (hV : r.results.Reads s.data.n V) {i : Nat} (hi : i < s.data.n) :
    -1 / 10000 ≤ V "site-import_power_mwh" i ∧ -1 / 10000 ≤ V "site-export_power_mwh" i ∧
    (∀ q ∈ totalFlows, -1 / 10000 ≤ V ("total-" ++ q) i) ∧
    ∀ name q, name ≠ "" → (∀ c ∈ name.toList, c.isAlphanum = true ∨ c = '_') → q ∈ totalFlows →
      name ++ "-" ++ q ∈ r.results.columns → -1 / 10000 ≤ V (name ++ "-" ++ q) i := by
  obtain ⟨σ, p, ho, hp, hsch, _⟩ := guard_checks hc h hf
  have key : ∀ k, k ∈ r.results.columns → isSchemaColumn k = true → -1 / 10000 ≤ V k i := by
    intro k hk hs
    obtain ⟨col, hcol, hl, hv⟩ := get_col ho hV hk
    have hlook : r.results.lookup k = some col := by
      unfold Table.get at hcol
      cases hh : r.results.lookup k with
      | none => simp [hh] at hcol
      | some c => simp [hh] at hcol; rw [hcol]
    unfold validateSchema at hsch
    split at hsch
    · exact absurd hsch (by simp)
    · rename_i hnone
      have := List.find?_eq_none.1 hnone _ (lookup_mem hlook)
      simp only [hs, Bool.true_and, List.any_eq_true, decide_eq_true_eq, not_exists, not_and, not_lt] at this
      have hm : col.getD i 0 ∈ col := by
        rw [List.getD_eq_getElem?_getD, List.getElem?_eq_getElem (by omega)]
        exact List.getElem_mem _
      have := this _ hm
      rw [hv i hi] at this
      refine le_trans ?_ this
      norm_num [Defaults.epsilon]
  have total : ∀ q ∈ totalFlows, isSchemaColumn ("total-" ++ q) = true := by decide +kernel
  have member : ∀ q ∈ totalFlows, "total-" ++ q ∈ totalKeys := by decide +kernel
  refine ⟨key _ ((ho.columns _).2 (.inl (by simp [Site.keys]))) (by decide +kernel),
    key _ ((ho.columns _).2 (.inl (by simp [Site.keys]))) (by decide +kernel),
    fun q hq => key _ ((ho.columns _).2 (.inr (member q hq))) (total q hq), ?_⟩
  intro name q h0 hn hq hk
  refine key _ hk ?_
  unfold isSchemaColumn
  rw [Bool.or_eq_true]
  refine .inr (List.any_eq_true.2 ⟨q, hq, ?_⟩)
  rw [word_pattern h0 hn, Bool.true_or]

/-- C64: whatever the solver answers, the valve of a result that is returned as feasible passes on exactly the heat it takes. -/
theorem C64_valve (hc : s.Constructed) (h : s.optimize objective flags S = .ok r) (hf : r.feasible = true)
    (hV : r.results.Reads s.data.n V) {c : ValveCfg} (hv : .valve c ∈ s.assets) {i : Nat} (hi : i < s.data.n) :
    V "valve-low_temperature_generation_mwh" i = V "valve-high_temperature_load_mwh" i := by
  obtain ⟨σ, p, ho, hp, _, hch⟩ := guard_checks hc h hf
  have hany : s.assets.any Asset.isValve = true := List.any_eq_true.2 ⟨_, hv, rfl⟩
  simp only [checkResults, hany, if_true, bind_ok] at hch
  obtain ⟨_, _, _, _, _, _, hva⟩ := hch
  simp only [checkValve, bind_ok, pyAssert_ok, decide_eq_true_eq] at hva
  obtain ⟨lt, e1, ht, e2, _, rfl, _⟩ := hva
  have cell : ∀ k, r.results.get k = .ok lt → lt.getD i 0 = V k i := by
    intro k hk
    have hm : k ∈ r.results.columns := by
      rw [← lookup_isSome_iff]
      unfold Table.get at hk
      cases hh : r.results.lookup k with
      | none => simp [hh] at hk
      | some c => rfl
    obtain ⟨col, hcol, _, hv⟩ := get_col ho hV hm
    rw [hk, Except.ok.injEq] at hcol
    subst hcol
    exact hv i hi
  rw [← cell _ e1, ← cell _ e2]

end

/-! ### The hypotheses are met -/

/-- C64: a wrong solver whose answer is returned as feasible. -/
example : ∃ (s : Site) (S : Solver) (r : SimResult) (V : String → Nat → ℚ), ¬ S.Sound ∧ s.Constructed ∧ s.optimize (.str "price") {} S = .ok r ∧ r.feasible = true ∧ r.results.Reads s.data.n V ∧
    (∀ a ∈ s.assets, a.WellNamed) ∧ s.PlainNames ∧ (∃ c, Asset.valve c ∈ s.assets) ∧ s.data.n = 1 := by
  have h := demoGuard_believed
  unfold Demo.believed Demo.lie at h
  split at h
  · rename_i s r hs
    simp only [bind_ok, Except.ok.injEq, Prod.mk.injEq] at hs
    obtain ⟨s', hs', r', hr', rfl, rfl⟩ := hs
    simp only [Bool.and_eq_true, decide_eq_true_eq] at h
    obtain ⟨hf, ha, hn⟩ := h
    have hcon : s'.Constructed := ⟨_, _, _, _, _, _, _, hs'⟩
    have hr := Site.quick_ok hr'
    obtain ⟨σ, p, hran, hp, ho, _⟩ := returned_outcome hcon hr
    obtain ⟨V, hV⟩ := exists_reads ho.lengths ho.colsNodup
    refine ⟨s', _, r', V, ?_, hcon, hr, hf, hV, ?_, ⟨?_, ?_⟩, ⟨defaultValve, by simp [ha]⟩, hn⟩
    · intro hS
      obtain ⟨σ, hσ, _⟩ := hS ⟨[⟨⟨[], 1⟩, .eq⟩], ⟨[], 0⟩⟩ rfl
      have := hσ.1 _ (List.mem_singleton.2 rfl)
      simp [Con.Holds, Expr.eval] at this
    · rw [ha]; decide +kernel
    · rw [ha]; decide +kernel
    · have := (site_new hs').custom
      rw [show (demoGuard (2 + 1 / 2000) 7 3 3).kwargs = [] from rfl] at this
      have e : s'.data.custom = [] := by simpa [customData, mapE] using this.symm
      simp [e]
  · simp at h

/-- C64: wrong answers that are refused. -/
example : ∃ (s : Site) (S1 S2 S3 : Solver), s.Constructed ∧ s.optimize (.str "price") {} S1 = .error (.assertion "electricity balance") ∧
    s.optimize (.str "price") {} S2 = .error (.assertion "valve") ∧
    s.optimize (.str "price") {} S3 = .error (.schema "boiler-gas_consumption_mwh") := by
  obtain ⟨s, hs, h1⟩ := Demo.refused_error demoGuard_electricity (by simp)
  obtain ⟨s2, hs2, h2⟩ := Demo.refused_error demoGuard_valve (by simp)
  obtain ⟨s3, hs3, h3⟩ := Demo.refused_error demoGuard_gas (by simp)
  have e2 : Demo.site (demoGuard 2 (15/4) (3 - 1/20000) 3) = Demo.site (demoGuard 3 (15/4) 3 3) := rfl
  have e3 : Demo.site (demoGuard 2 (-1) 3 3) = Demo.site (demoGuard 3 (15/4) 3 3) := rfl
  rw [e2, hs, Except.ok.injEq] at hs2
  rw [e3, hs, Except.ok.injEq] at hs3
  subst hs2 hs3
  exact ⟨s, _, _, _, ⟨_, _, _, _, _, _, _, hs⟩, h1, h2, h3⟩

end EPL
