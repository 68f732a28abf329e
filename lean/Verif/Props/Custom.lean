/-
C37, C38, C39: custom constraints.
-/
import Verif.Proofs.Reads
import Verif.Props.Balance
import Verif.Spec.DemoSites

namespace EPL

/-! ### C37 -/

/-- The constraints a custom constraint without aggregation adds to the program hold exactly if the comparison holds in every
interval. -/
theorem C37_exact {d : SiteData} {iv : IVars} {c : Constraint} {cs : List Con} (ha : c.sumAgg = false)
    (h : addCustomConstraint d iv c = .ok cs) (σ : Assign) :
    (∀ con ∈ cs, con.Holds σ) ↔
      ∀ i < d.n, c.sense.Compares (c.lhs.value σ d (iv.getD i []) i) (c.rhs.value σ d (iv.getD i []) i) := by
  simp only [addCustomConstraint, ha, Bool.false_eq_true, if_false, bind_ok, Prod.exists, Except.ok.injEq] at h
  obtain ⟨cs', l, r, h, rfl⟩ := h
  rw [customLoop_each ha h]
  simp

section
variable {s : Site} {objective : Objective} {flags : Flags} {iv : IVars} {p : Prob} {σ : Assign} {c : Constraint}

theorem custom_holds (h : s.program objective flags = .ok (iv, p)) (hf : p.Feasible σ) (hc : c ∈ s.constraints) :
    ∃ cs, addCustomConstraint s.data iv c = .ok cs ∧ ∀ con ∈ cs, con.Holds σ := by
  obtain ⟨base, custom, objCons, _, hcu, _, he⟩ := (program_spec h).built
  obtain ⟨cs, hcs⟩ := flatMapE_all_ok hcu hc
  refine ⟨cs, hcs, fun con hcon => hf.1 con ?_⟩
  rw [he, List.mem_append, List.mem_append]
  exact .inl (.inr ((flatMapE_mem hcu).2 ⟨c, hc, cs, hcs, hcon⟩))

/-- In a feasible answer a custom constraint without aggregation holds in every interval. -/
theorem C37_every_interval (h : s.program objective flags = .ok (iv, p)) (hf : p.Feasible σ) (hc : c ∈ s.constraints)
    (ha : c.sumAgg = false) {i : Nat} (hi : i < s.data.n) :
    c.sense.Compares (c.lhs.value σ s.data (iv.getD i []) i) (c.rhs.value σ s.data (iv.getD i []) i) := by
  obtain ⟨cs, hcs, hh⟩ := custom_holds h hf hc
  exact (C37_exact ha hcs σ).1 hh i hi

end

section
variable {s : Site} {objective : Objective} {flags : Flags} {S : Solver} {r : SimResult} {V : String → Nat → ℚ} {c : Constraint}

/-- In the results of a feasible run a custom constraint on reported flows holds in every row, the left and the right side
being read from the columns of the assets it selects. -/
theorem C37_results (h : Run s objective flags S r V) (hw : ∀ a ∈ s.assets, a.WellNamed) (hc : c ∈ s.constraints)
    (ha : c.sumAgg = false) (hr : c.Readable) {i : Nat} (hi : i < s.data.n) :
    c.sense.Compares (c.lhs.read s V i) (c.rhs.read s V i) := by
  obtain ⟨p, σ, hco⟩ := h.core
  rw [← side_read (core_shows hco hw) hi (fun t ht => hr t (List.mem_append_left _ ht)),
    ← side_read (core_shows hco hw) hi (fun t ht => hr t (List.mem_append_right _ ht))]
  exact C37_every_interval hco.program hco.feas hc ha hi

end

/-! ### C38 -/

theorem share_total {σ : Assign} {d : SiteData} {iv : IVars} (hn : 0 < d.n) (entries : List CEntry) :
    ((List.range d.n).map (fun i => (entries.map (CEntry.share σ d (iv.getD i []) i true)).sum)).sum =
      (entries.map (CEntry.total σ d iv d.n)).sum := by
  rw [list_sum_swap]
  apply list_sum_congr
  intro e _
  cases e with
  | num q =>
    simp only [CEntry.share, if_true, CEntry.total]
    rw [List.map_const', List.sum_replicate, List.length_range, nsmul_eq_mul]
    have : (d.n : ℚ) ≠ 0 := by exact_mod_cast hn.ne'
    field_simp
  | term t => rfl

/-- The constraint a custom constraint with `interval_aggregation="sum"` adds to the program holds exactly if the comparison
holds between the sums over all intervals, with every number counted once. -/
theorem C38_exact {d : SiteData} {iv : IVars} {c : Constraint} {cs : List Con} (ha : c.sumAgg = true) (hn : 0 < d.n)
    (h : addCustomConstraint d iv c = .ok cs) (σ : Assign) :
    (∀ con ∈ cs, con.Holds σ) ↔ c.sense.Compares (c.lhs.total σ d iv d.n) (c.rhs.total σ d iv d.n) := by
  simp only [addCustomConstraint, ha, if_true, bind_ok, Prod.exists, Except.ok.injEq] at h
  obtain ⟨cs', l, r, h, rfl⟩ := h
  obtain ⟨rfl, e1, e2⟩ := customLoop_sum (σ := σ) ha h
  simp only [List.nil_append, List.mem_singleton, forall_eq]
  rw [compares_holds, Expr.eval_sum, Expr.eval_sum, e1, e2, share_total hn, share_total hn]
  simp [CSide.total]

section
variable {s : Site} {objective : Objective} {flags : Flags} {iv : IVars} {p : Prob} {σ : Assign} {c : Constraint}

/-- In a feasible answer a summed custom constraint holds for the sums over the intervals. -/
theorem C38_horizon (h : s.program objective flags = .ok (iv, p)) (hf : p.Feasible σ) (hc : c ∈ s.constraints)
    (ha : c.sumAgg = true) (hn : 0 < s.data.n) :
    c.sense.Compares (c.lhs.total σ s.data iv s.data.n) (c.rhs.total σ s.data iv s.data.n) := by
  obtain ⟨cs, hcs, hh⟩ := custom_holds h hf hc
  exact (C38_exact ha hn hcs σ).1 hh

end

section
variable {s : Site} {objective : Objective} {flags : Flags} {S : Solver} {r : SimResult} {V : String → Nat → ℚ} {c : Constraint}

/-- In the results of a feasible run a summed custom constraint on reported flows holds for the sums over the rows. -/
theorem C38_results (h : Run s objective flags S r V) (hw : ∀ a ∈ s.assets, a.WellNamed) (hc : c ∈ s.constraints)
    (ha : c.sumAgg = true) (hr : c.Readable) (hn : 0 < s.data.n) :
    c.sense.Compares (c.lhs.readTotal s V) (c.rhs.readTotal s V) := by
  obtain ⟨p, σ, hco⟩ := h.core
  rw [← side_total_read (core_shows hco hw) (fun t ht => hr t (List.mem_append_left _ ht)),
    ← side_total_read (core_shows hco hw) (fun t ht => hr t (List.mem_append_right _ ht))]
  exact C38_horizon hco.program hco.feas hc ha hn

end

/-! ### C39 -/

/-- Both sides of a custom constraint have a term in the first interval. -/
theorem first_nonempty {d : SiteData} {iv : IVars} {c : Constraint} {cs : List Con} (hn : 0 < d.n)
    (h : addCustomConstraint d iv c = .ok cs) :
    ∃ l r, addTerms d iv 0 c.sumAgg c.lhs = .ok l ∧ addTerms d iv 0 c.sumAgg c.rhs = .ok r ∧ l ≠ [] ∧ r ≠ [] := by
  simp only [addCustomConstraint, bind_ok] at h
  obtain ⟨x, h, -⟩ := h
  obtain ⟨m, hm⟩ : ∃ m, d.n = m + 1 := ⟨d.n - 1, by omega⟩
  rw [hm, List.range_succ_eq_map] at h
  simp only [customLoop, List.nil_append] at h
  rw [bind_ok] at h
  obtain ⟨l, hl, h⟩ := h
  rw [bind_ok] at h
  obtain ⟨r, hr, h⟩ := h
  rw [bind_ok] at h
  obtain ⟨_, h1, h⟩ := h
  rw [bind_ok] at h
  obtain ⟨_, h2, h⟩ := h
  rw [pyAssert_ok] at h1 h2
  refine ⟨l, r, hl, hr, ?_, ?_⟩
  · rintro rfl; simp at h1
  · rintro rfl; simp at h2

section
variable {s : Site} {objective : Objective} {flags : Flags} {c : Constraint} {side : CSide}

theorem side_terms (h : ∃ iv p, s.program objective flags = .ok (iv, p)) (hc : c ∈ s.constraints)
    (hs : side = c.lhs ∨ side = c.rhs) (hn : 0 < s.data.n) :
    ∃ p iv, Prog s objective flags iv p ∧ ∃ l, addTerms s.data iv 0 c.sumAgg side = .ok l ∧ l ≠ [] := by
  obtain ⟨iv, p, h⟩ := h
  have hp := program_spec h
  obtain ⟨base, custom, objCons, _, hcu, _, he⟩ := hp.built
  obtain ⟨cs, hcs⟩ := flatMapE_all_ok hcu hc
  obtain ⟨l, r, hl, hr, h1, h2⟩ := first_nonempty hn hcs
  rcases hs with rfl | rfl
  · exact ⟨p, iv, hp, l, hl, h1⟩
  · exact ⟨p, iv, hp, r, hr, h2⟩

theorem program_of_optimize {S : Solver} {r : SimResult} (h : s.optimize objective flags S = .ok r) :
    ∃ iv p, s.program objective flags = .ok (iv, p) := by
  obtain ⟨p, hr⟩ := optimize_ran h
  exact ⟨_, p, hr.program⟩

/-- A constraint with a side whose terms can select neither the site nor any asset is rejected, whatever the solver. -/
theorem C39_no_match (hc : c ∈ s.constraints) (hs : side = c.lhs ∨ side = c.rhs) (hn : 0 < s.data.n)
    (hm : ∀ e ∈ side.entries, ∃ t, e = .term t ∧ ¬ s.HasMatch t.assetType t.assetName) (S : Solver) (r : SimResult) :
    s.optimize objective flags S ≠ .ok r := by
  intro h
  obtain ⟨p, iv, hp, l, hl, hne⟩ := side_terms (program_of_optimize h) hc hs hn
  apply hne
  have hiv := hp.iv_eq
  subst hiv
  rw [addTerms] at hl
  rw [List.eq_nil_iff_forall_not_mem]
  intro x hx
  obtain ⟨e, he, bs, hb, hx⟩ := (flatMapE_mem hl).1 hx
  obtain ⟨t, rfl, ht⟩ := hm e he
  simp only [resolveConstraintTerm, bind_ok] at hb
  obtain ⟨vars, hv, hb⟩ := hb
  obtain ⟨_, hvars, _⟩ := filterStr_ok hv
  obtain ⟨o, ho, _⟩ := (mapE_mem hb).1 hx
  apply ht
  have e0 : (s.ivarsTo flags s.data.n).getD 0 [] = s.ones flags 0 := by
    rw [List.getD_eq_getElem?_getD, ivarsTo_get s flags hn]; rfl
  rw [hvars, e0, ones_eq hp.vars hn, List.mem_filter, decide_eq_true_iff] at ho
  obtain ⟨ho, h1, h2⟩ := ho
  rw [List.mem_cons, List.mem_flatMap] at ho
  rcases ho with rfl | ⟨a, ha, ho⟩
  · left
    simp only [OneInterval.kind, Kind.typeName, OneInterval.name] at h1 h2
    exact ⟨h1.imp_right (Or.imp_right Eq.symm), h2⟩
  · right
    obtain ⟨e1, e2⟩ := ois_name_kind ho
    rw [e1] at h2
    refine ⟨a, ha, ?_, h2⟩
    rcases h1 with h1 | h1 | h3
    · exact .inl h1
    · exact .inr (.inl h1)
    cases a with
    | evs c =>
      simp only [Asset.kinds, List.mem_cons, List.not_mem_nil, or_false] at e2
      rcases e2 with e2 | e2 <;> rw [e2] at h3 <;> simp only [Kind.typeName] at h3 <;>
        exact .inr (.inr ⟨_, by simp [Asset.typeNames], h3.symm⟩)
    | valve c =>
      simp only [Asset.kinds, List.mem_cons, List.not_mem_nil, or_false] at e2
      rw [e2] at h3
      exact .inl h3.symm
    | _ =>
      simp only [Asset.kinds, List.mem_cons, List.not_mem_nil, or_false] at e2
      rw [e2] at h3
      exact .inr (.inr ⟨_, List.mem_singleton.2 rfl, h3.symm⟩)

/-- An unknown asset type is rejected, whatever the solver. -/
theorem C39_unknown_type (hc : c ∈ s.constraints) {t : ConstraintTerm} (ht : CEntry.term t ∈ c.lhs.entries ++ c.rhs.entries)
    (hn : 0 < s.data.n) {type : String} (hty : t.assetType = some type) (hun : type ∉ assetTypes) (S : Solver) (r : SimResult) :
    s.optimize objective flags S ≠ .ok r := by
  intro h
  obtain ⟨side, hs, hmem⟩ : ∃ side, (side = c.lhs ∨ side = c.rhs) ∧ CEntry.term t ∈ side.entries := by
    rcases List.mem_append.1 ht with h | h
    · exact ⟨_, .inl rfl, h⟩
    · exact ⟨_, .inr rfl, h⟩
  obtain ⟨p, iv, hp, l, hl, hne⟩ := side_terms (program_of_optimize h) hc hs hn
  obtain ⟨bs, hb⟩ := flatMapE_all_ok hl hmem
  simp only [resolveConstraintTerm, bind_ok] at hb
  obtain ⟨vars, hv, hb⟩ := hb
  exact hun ((filterStr_ok hv).2.2 type hty)

end

/-! ### The hypotheses are met -/

/-- Charge at most what is imported, in every interval. -/
def demoEach : Constraint where
  lhs := .one (.term { attr := "electric_charge_mwh", assetType := some "battery" })
  rhs := .many [.term { attr := "import_power_mwh", assetType := some "site", coefficient := 1/2 }, .num 1]
  sense := .le
  sumAgg := false

/-- At most three units of charge and discharge over the horizon, plus a fifth of the price-weighted charge. -/
def demoSum : Constraint where
  lhs := .many [.term { attr := "electric_charge_mwh", assetType := some "*", assetName := some "battery" },
    .term { attr := "electric_discharge_mwh", assetName := some "battery" },
    .term { attr := "electric_charge_mwh", assetType := some "battery", intervalData := some "electricity_prices", coefficient := 1/5 }]
  rhs := .one (.num 7)
  sense := .eq
  sumAgg := true

/-- The battery site with both constraints. -/
def demoCustom : Demo := { demoBattery with constraints := [demoEach, demoSum] }

set_option maxRecDepth 10000 in
theorem demoCustom_test : demoCustom.test (fun s _ => decide (s.assets = [.battery demoBatteryCfg]) && decide (s.data.n = 2) &&
    decide (s.constraints = [demoEach, demoSum])) = true := by
  decide +kernel

/-- The hypotheses of `C37_results` and `C38_results` are met. -/
example : ∃ s r V, Run s (.str "price") {} (checkSolver (tab demoBattery.answer)) r V ∧ (∀ a ∈ s.assets, a.WellNamed) ∧
    demoEach ∈ s.constraints ∧ demoSum ∈ s.constraints ∧ demoEach.Readable ∧ demoSum.Readable ∧ s.data.n = 2 := by
  obtain ⟨s, r, V, hs, h, ht⟩ := Demo.run demoCustom_test
  simp only [Bool.and_eq_true, decide_eq_true_eq] at ht
  refine ⟨s, r, V, h, ?_, ?_, ?_, ?_, ?_, ht.1.2⟩
  · rw [ht.1.1]; decide +kernel
  · rw [ht.2]; simp
  · rw [ht.2]; simp
  · decide +kernel
  · decide +kernel

/-- A constraint on electric vehicles that the battery site does not have meets the hypotheses of `C39_no_match`, one on a type
"valve" those of `C39_unknown_type`. -/
example : ∃ s : Site, Site.new [.battery demoBatteryCfg] { electricityPrices := prices [10, 100] }
      (constraints := [⟨.one (.term { attr := "electric_charge_mwh", assetType := some "evs" }), .one (.num 1), .le, false⟩,
        ⟨.one (.term { attr := "high_temperature_load_mwh", assetType := some "valve" }), .one (.num 1), .le, false⟩]) = .ok s ∧
    0 < s.data.n ∧ ¬ s.HasMatch (some "evs") none ∧ "valve" ∉ assetTypes := by
  refine ⟨_, rfl, by decide, ?_, by decide +kernel⟩
  simp only [Site.HasMatch]
  rintro (h | ⟨a, ha, h⟩)
  · exact absurd h.1 (by decide)
  · rw [List.mem_singleton] at ha
    subst ha
    exact absurd h.1 (by simp [Asset.typeNames])

end EPL
