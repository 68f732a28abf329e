/-
C65: the custom account of a run is the value of its custom objective.
-/
import Verif.Proofs.CustomAccounts
import Verif.Spec.DemoAccounts

namespace EPL

section
variable {s : Site} {objective : Objective} {flags : Flags} {S : Solver} {r : SimResult} {V : String → Nat → ℚ} {p : Prob}
  {σ : Assign}

/-- What one term adds to the custom account is what it adds to the objective. -/
theorem term_cost (h : Core s objective flags S r V p σ) (hwf : s.data.WF) (hw : ∀ a ∈ s.assets, a.WellNamed)
    (ht : r.results.Frame s.data.n V) {t : OneTerm} {q : ℚ} (ha : t.Accountable s)
    (hq : t.Contributes σ s (s.ivarsTo flags s.data.n) q) (hpeak : t.IsPeak → t.AtOptimum σ s (s.ivarsTo flags s.data.n) q) :
    termFactory t = .ok t ∧ ∃ x y z, simpleTermCost r.results t = .ok x ∧ twoTermCost r.results t = .ok y ∧
      manyTermCost r.results t = .ok z ∧ x + y + z = q := by
  cases t with
  | simple t =>
    refine ⟨rfl, _, 0, 0, simple_cost h hwf ht ha.1 ha.2, rfl, rfl, ?_⟩
    simp only [OneTerm.Contributes] at hq
    rw [hq, add_zero, add_zero]
    unfold Site.sumIntervals
    apply list_sum_congr
    intro i hi
    rw [List.mem_range] at hi
    exact (value_read h hw hi (about_attr ha.1)).symm
  | two f a b M data k =>
    obtain ⟨hf, h1, h2, rfl⟩ := ha
    refine ⟨by simp only [termFactory, hf, if_true], 0, _, 0, rfl, two_cost h ht h1 h2, ?_, ?_⟩
    · have : ¬ (f = "max_many_variables" ∨ f = "min_many_variables") := by
        rintro (rfl | rfl) <;> exact absurd hf (by decide +kernel)
      simp only [manyTermCost, if_neg this]
    · simp only [OneTerm.Contributes] at hq
      have e : ∀ i ∈ List.range s.data.n, a.value σ s i = a.read V i ∧ b.value σ s i = b.read V i := fun i hi =>
        ⟨operand_read h (List.mem_range.1 hi) (accountable_readable h1), operand_read h (List.mem_range.1 hi) (accountable_readable h2)⟩
      rw [zero_add, add_zero]
      by_cases f1 : f = "max_two_variables"
      · rw [if_pos f1] at hq ⊢
        rw [hq]
        apply list_sum_congr
        intro i hi
        rw [(e i hi).1, (e i hi).2]
        simp [SiteData.value]
      · rw [if_neg f1] at hq ⊢
        by_cases f2 : f = "min_two_variables"
        · rw [if_pos f2] at hq ⊢
          rw [hq]
          apply list_sum_congr
          intro i hi
          rw [(e i hi).1, (e i hi).2]
          simp [SiteData.value]
        · rw [if_neg f2] at hq ⊢
          exact hq.symm
  | many f v M constant k =>
    obtain ⟨hf, hv, hc⟩ := ha
    have hfn : f = "min_many_variables" ∨ f = "max_many_variables" := hf.imp_right And.left
    obtain ⟨m, hm, hext⟩ := many_cost h hw ht hv hfn (M := M) (k := k) hc
    have hn1 : pyIn "two_variables" f = false ∧ pyIn "many_variables" f = true := by
      rcases hfn with rfl | rfl <;> decide +kernel
    have hn2 : ¬ (f = "max_two_variables" ∨ f = "min_two_variables") := by
      rcases hfn with rfl | rfl <;> decide
    refine ⟨by simp [termFactory, hn1.1, hn1.2], 0, 0, _, rfl, by simp only [twoTermCost, if_neg hn2], hm, ?_⟩
    rw [zero_add, zero_add]
    rcases hf with rfl | ⟨rfl, hk⟩
    · have hne : ("min_many_variables" : String) ≠ "max_many_variables" := by decide
      simp only [OneTerm.Contributes, hne, if_false, if_true] at hq hext
      obtain ⟨m', hm', rfl⟩ := hq
      rw [le_antisymm (hm'.2 m hext.1) (hext.2 m' hm'.1)]
    · simp only [if_true] at hext
      obtain ⟨m', hm', rfl⟩ := (hpeak rfl).2 _ _ _ _ rfl hk
      rw [le_antisymm (hm'.2 m hext.1) (hext.2 m' hm'.1)]

theorem terms_cost (h : Core s objective flags S r V p σ) (hwf : s.data.WF) (hw : ∀ a ∈ s.assets, a.WellNamed)
    (ht : r.results.Frame s.data.n V) {terms : List OneTerm} {qs : List ℚ} (ha : ∀ t ∈ terms, t.Accountable s)
    (hq : List.Forall₂ (fun t q => t.Contributes σ s (s.ivarsTo flags s.data.n) q ∧
      (t.IsPeak → t.AtOptimum σ s (s.ivarsTo flags s.data.n) q)) terms qs) :
    mapE termFactory terms = .ok terms ∧ ∃ x y z, mapE (simpleTermCost r.results) terms = .ok x ∧
      mapE (twoTermCost r.results) terms = .ok y ∧ mapE (manyTermCost r.results) terms = .ok z ∧ x.sum + y.sum + z.sum = qs.sum := by
  induction hq with
  | nil => exact ⟨rfl, [], [], [], rfl, rfl, rfl, by simp⟩
  | @cons t q terms qs h1 _ ih =>
    obtain ⟨i1, x, y, z, i2, i3, i4, i5⟩ := ih (fun t ht => ha t (List.mem_cons_of_mem _ ht))
    obtain ⟨e1, a, b, c, e2, e3, e4, e5⟩ := term_cost h hwf hw ht (ha t (List.mem_cons_self ..)) h1.1 h1.2
    refine ⟨by simp only [mapE, e1, i1, ok_bind], a :: x, b :: y, c :: z, by simp only [mapE, e2, i2, ok_bind],
      by simp only [mapE, e3, i3, ok_bind], by simp only [mapE, e4, i4, ok_bind], ?_⟩
    simp only [List.sum_cons]
    linarith

theorem factory_same {terms ts : List OneTerm} (h : mapE termFactory terms = .ok ts) : ts = terms := by
  induction terms generalizing ts with
  | nil => simp [mapE] at h; exact h
  | cons t terms ih =>
    simp only [mapE, bind_ok, Except.ok.injEq] at h
    obtain ⟨t', ht, rest, hr, rfl⟩ := h
    rw [ih hr]
    congr 1
    cases t <;> simp only [termFactory] at ht
    · exact (Except.ok.inj ht).symm
    · split at ht
      · exact (Except.ok.inj ht).symm
      · split at ht <;> simp at ht
    · split at ht
      · simp at ht
      · split at ht
        · exact (Except.ok.inj ht).symm
        · simp at ht

/-- Terms given as dictionaries make the program of the terms. -/
theorem dict_program {terms : List OneTerm} {iv : IVars} (h : s.program (.dict terms) flags = .ok (iv, p)) :
    s.program (.custom terms) flags = .ok (iv, p) := by
  simp only [Site.program, bind_ok, Prod.exists] at h ⊢
  obtain ⟨u, hn, iv', cons, hb, custom, hc, obj, objCons, ho, h⟩ := h
  refine ⟨u, hn, iv', cons, hb, custom, hc, obj, objCons, ?_, h⟩
  simp only [getObjective, bind_ok] at ho ⊢
  obtain ⟨ts, hts, ho⟩ := ho
  rw [← factory_same hts]
  exact ho

end

/-- C65: for a feasible run with a custom objective whose terms are accountable, `get_accounts` with the same terms returns, and its
custom account is the value of the objective.  Charges on peaks need a solver that finds an optimum. -/
theorem C65_custom_account {s : Site} {objective : Objective} {flags : Flags} {S : Solver} {r : SimResult} {V : String → Nat → ℚ}
    {terms : List OneTerm} (ho : objective = .custom terms ∨ objective = .dict terms) (h : Run s objective flags S r V)
    (hw : ∀ a ∈ s.assets, a.WellNamed) (ha : ∀ t ∈ terms, t.Accountable s) (hS : S.Exact ∨ ∀ t ∈ terms, ¬ t.IsPeak) (validate : Bool) :
    ∃ a, getAccounts r.results none (some terms) validate = .ok a ∧ r.status.objective = some a.custom.cost ∧ a.custom.emissions = 0 ∧
      a.cost = a.electricity.cost + a.gas.cost + a.custom.cost := by
  obtain ⟨p, σ, hco⟩ := h.core
  have hprog : s.program (.custom terms) flags = .ok (s.ivarsTo flags s.data.n, p) := by
    rcases ho with rfl | rfl
    · exact hco.program
    · exact dict_program hco.program
  have hq : ∃ qs, List.Forall₂ (fun t q => t.Contributes σ s (s.ivarsTo flags s.data.n) q ∧
      (t.IsPeak → t.AtOptimum σ s (s.ivarsTo flags s.data.n) q)) terms qs ∧ p.obj.eval σ = qs.sum := by
    rcases hS with hS | hS
    · obtain ⟨qs, h1, h2⟩ := C45_terms_optimum hprog (core_optimal hco hS h.feasible)
      exact ⟨qs, h1.imp (fun t q hx => ⟨hx.1, fun _ => hx⟩), h2⟩
    · obtain ⟨qs, h1, h2⟩ := C44_terms hprog hco.feas
      refine ⟨qs, ?_, h2⟩
      clear h2 ha ho h hprog hco
      induction h1 with
      | nil => exact .nil
      | @cons t q terms qs h1 _ ih =>
        exact .cons ⟨h1, fun hp => absurd hp (hS t (List.mem_cons_self ..))⟩ (ih (fun t ht => hS t (List.mem_cons_of_mem _ ht)))
  obtain ⟨qs, hqs, hsum⟩ := hq
  obtain ⟨m1, x, y, z, m2, m3, m4, m5⟩ := terms_cost hco h.constructed.wf hw (run_frame h) ha hqs
  obtain ⟨a, hacc, _⟩ := C46_returns h h validate
  obtain ⟨hchk, e, g, cc, he, hg, _, _⟩ := getAccounts_ok.1 hacc
  refine ⟨{ electricity := e, gas := g, custom := { cost := x.sum + y.sum + z.sum, emissions := 0 },
            cost := e.cost + g.cost + (x.sum + y.sum + z.sum), profit := -(e.cost + g.cost + (x.sum + y.sum + z.sum)),
            emissions := e.emissions + g.emissions + 0 }, ?_, ?_, rfl, rfl⟩
  · refine getAccounts_ok.2 ⟨hchk, e, g, x.sum + y.sum + z.sum, he, hg, ?_, rfl⟩
    simp only [customCost, m1, m2, m3, m4, ok_bind]
  · rw [objective_value hco, hsum, m5]

/-! ### The hypotheses are met -/

/-- A charge on the gas of a boiler by name is accountable, and so are import cost, a charge on the greater of import and 4 and, with an
optimum, a charge on the peak import. -/
example : (∃ (s : Site) (r : SimResult) (V : String → Nat → ℚ), Run s (.custom [.simple gasByName]) {}
      (checkSolver (tab (demoGas gasByName).answer)) r V ∧ (∀ a ∈ s.assets, a.WellNamed) ∧
      (∀ t ∈ [OneTerm.simple gasByName], t.Accountable s ∧ ¬ t.IsPeak) ∧ r.status.objective = some 15) ∧
    (∃ (s : Site) (r : SimResult) (V : String → Nat → ℚ), Run s (.custom [.simple importCost,
        .two "max_two_variables" (.term importTerm) (.float 4) 100 none 7]) {} (checkSolver (tab demoMaxTwo.answer)) r V ∧
      (∀ a ∈ s.assets, a.WellNamed) ∧ (∀ t ∈ [OneTerm.simple importCost, .two "max_two_variables" (.term importTerm) (.float 4) 100 none 7],
        t.Accountable s ∧ ¬ t.IsPeak)) ∧
    (∃ (s : Site) (r : SimResult) (V : String → Nat → ℚ) (S : Solver), S.Exact ∧ Run s (.custom [.simple importCost,
        .many "max_many_variables" importTerm 100 0 7]) {} S r V ∧ (∀ a ∈ s.assets, a.WellNamed) ∧
      (∀ t ∈ [OneTerm.simple importCost, .many "max_many_variables" importTerm 100 0 7], t.Accountable s)) := by
  have nodata : ∀ {d : Demo} {s : Site}, d.site = .ok s → d.kwargs = [] → s.data.custom = [] := by
    intro d s hs hk
    have := (site_new hs).custom
    rw [hk] at this
    simpa [customData] using this.symm
  have hsite : ∀ (s : Site) (t : Term), s.data.custom = [] → t = importCost ∨ t = importTerm → t.AboutSite s ∧ s.HasData t.intervalData := by
    intro s t hc ht
    have hdn : s.dataNames = ["electricity_prices", "export_electricity_prices", "electricity_carbon_intensities", "gas_prices",
        "electric_load_mwh", "high_temperature_load_mwh", "low_temperature_load_mwh", "low_temperature_generation_mwh"] := by
      simp [Site.dataNames, hc]
    refine ⟨⟨.inl (by rcases ht with rfl | rfl <;> rfl), .inr (.inl (by rcases ht with rfl | rfl <;> exact ⟨rfl, rfl⟩)), ?_⟩, ?_⟩
    · rw [hdn]
      rcases ht with rfl | rfl <;> decide +kernel
    · intro n hn
      rcases ht with rfl | rfl
      · simp only [importCost, Option.some.injEq] at hn
        subst hn
        rw [hdn]
        decide
      · simp [importTerm] at hn
  refine ⟨?_, ?_, ?_⟩
  · obtain ⟨s, r, V, hs, h, ht⟩ := Demo.run demoGasName_test
    simp only [Bool.and_eq_true, decide_eq_true_eq] at ht
    refine ⟨s, r, V, h, ?_, ?_, ht.1.2⟩
    · rw [ht.1.1]; decide +kernel
    · simp only [List.mem_singleton, forall_eq, OneTerm.IsPeak, not_false_eq_true, and_true, OneTerm.Accountable]
      refine ⟨.inr ⟨.boiler defaultBoiler, by rw [ht.1.1]; simp, by simp, rfl, .inl rfl, by decide, ?_⟩, by intro n hn; simp [gasByName] at hn⟩
      unfold Site.Distinguished
      rw [ht.1.1]
      decide +kernel
  · obtain ⟨s, r, V, hs, h, ht⟩ := Demo.run demoMaxTwo_test
    simp only [Bool.and_eq_true, decide_eq_true_eq] at ht
    refine ⟨s, r, V, h, by rw [ht.1.1]; simp, ?_⟩
    have hc := nodata hs rfl
    simp only [List.mem_cons, List.not_mem_nil, or_false, forall_eq_or_imp, forall_eq, OneTerm.IsPeak, not_false_eq_true, and_true,
      OneTerm.Accountable]
    refine ⟨⟨.inl (hsite s _ hc (.inl rfl)).1, (hsite s _ hc (.inl rfl)).2⟩, by decide +kernel, ⟨.inl rfl, rfl, .inl rfl⟩, ⟨4, by norm_num⟩⟩
  · obtain ⟨s, r, V, S, hs, hS, h, ht⟩ := Demo.runOptimal demoMaxMany_test
    simp only [Bool.and_eq_true, decide_eq_true_eq] at ht
    refine ⟨s, r, V, S, hS, h, by rw [ht.1.1]; simp, ?_⟩
    have hc := nodata hs rfl
    simp only [List.mem_cons, List.not_mem_nil, or_false, forall_eq_or_imp, forall_eq, OneTerm.Accountable]
    refine ⟨⟨.inl (hsite s _ hc (.inl rfl)).1, (hsite s _ hc (.inl rfl)).2⟩, .inr ⟨trivial, by norm_num⟩, .inl (hsite s _ hc (.inr rfl)).1, ⟨0, by norm_num⟩⟩

/-- Naming the asset is necessary: a charge on the gas of all boilers, without a name, is 15 in the objective and 30 in the accounts, which
also find the column of the total. -/
example : ∃ (s : Site) (r : SimResult) (V : String → Nat → ℚ) (a : Accounts), Run s (.custom [.simple gasByType]) {}
    (checkSolver (tab (demoGas gasByType).answer)) r V ∧ getAccounts r.results none (some [.simple gasByType]) = .ok a ∧
    r.status.objective = some 15 ∧ a.custom.cost = 30 := by
  obtain ⟨s, r, V, hs, h, ht⟩ := Demo.run demoGasType_test
  simp only [Bool.and_eq_true, decide_eq_true_eq, customIs] at ht
  obtain ⟨⟨_, h1⟩, h2⟩ := ht
  split at h2
  · rename_i a ha
    exact ⟨s, r, V, a, h, ha, h1, by simpa using h2⟩
  · simp at h2

end EPL
