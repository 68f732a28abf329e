/-
C42, C43, C44, C45: custom objectives.
-/
import Verif.Proofs.ObjectiveTerms
import Verif.Props.Custom
import Verif.Props.Objectives

namespace EPL

theorem sum_mul_const {α : Type} (l : List α) (g : α → ℚ) (k : ℚ) : (l.map (fun a => g a * k)).sum = (l.map g).sum * k :=
  list_sum_mul_right l g k

/-! ### C42 -/

section
variable {s : Site} {flags : Flags} {iv : IVars} {p : Prob}

theorem simple_two_nil {ts : List Term} {k : Nat} {d : SiteData} {es : List (Expr × List Con)}
    (h : flatMapE (fun (q : OneTerm × Nat) => q.1.twoExprs d iv q.2) ((ts.map OneTerm.simple).zipIdx k) = .ok es) : es = [] := by
  rw [List.eq_nil_iff_forall_not_mem]
  intro x hx
  obtain ⟨q, hq, l, hl, hx⟩ := (flatMapE_mem h).1 hx
  have hm := List.fst_mem_of_mem_zipIdx hq
  obtain ⟨t, -, ht⟩ := List.mem_map.1 hm
  rw [← ht] at hl
  simp only [OneTerm.twoExprs, Except.ok.injEq] at hl
  subst hl
  simp at hx

theorem simple_many_nil {ts : List Term} {k : Nat} {es : List (Expr × List Con)}
    (h : flatMapE (fun (q : OneTerm × Nat) => q.1.manyExprs iv q.2) ((ts.map OneTerm.simple).zipIdx k) = .ok es) : es = [] := by
  rw [List.eq_nil_iff_forall_not_mem]
  intro x hx
  obtain ⟨q, hq, l, hl, hx⟩ := (flatMapE_mem h).1 hx
  have hm := List.fst_mem_of_mem_zipIdx hq
  obtain ⟨t, -, ht⟩ := List.mem_map.1 hm
  rw [← ht] at hl
  simp only [OneTerm.manyExprs, Except.ok.injEq] at hl
  subst hl
  simp at hx

/-- The value of a custom objective of simple terms is the sum over terms, intervals and selected objects of
variable * interval data * coefficient, for every assignment. -/
theorem C42_simple {ts : List Term} (h : s.program (.custom (ts.map .simple)) flags = .ok (iv, p)) (σ : Assign) :
    p.obj.eval σ = (ts.map (fun t => s.sumIntervals (fun i => t.value σ s.data (iv.getD i []) i))).sum := by
  obtain ⟨_, _, _, _, _, ho, _⟩ := (program_spec h).built
  simp only [getObjective, customObjective, bind_ok, Except.ok.injEq, Prod.mk.injEq] at ho
  obtain ⟨simple, h1, two, h2, many, h3, ho, _⟩ := ho
  rw [simple_two_nil h2, simple_many_nil h3, List.map_nil, List.append_nil, List.append_nil] at ho
  rw [← ho, Expr.eval_sum, sum_flatten_eval (σ := σ) (g := fun t => match t with
    | .simple t => s.sumIntervals (fun i => t.value σ s.data (iv.getD i []) i)
    | _ => 0) h1, List.map_map]
  · rfl
  · intro t ht e he
    obtain ⟨t, -, rfl⟩ := List.mem_map.1 ht
    exact simple_eval he

/-- A dictionary of simple terms means the same as the custom objective of these terms. -/
theorem C42_dict (ts : List Term) (S : Solver) :
    s.optimize (.dict (ts.map .simple)) flags S = s.optimize (.custom (ts.map .simple)) flags S := by
  have h : mapE termFactory (ts.map OneTerm.simple) = .ok (ts.map OneTerm.simple) := by
    induction ts with
    | nil => rfl
    | cons t ts ih => simp only [List.map_cons, mapE, termFactory, ih, ok_bind]
  have hp : s.program (.dict (ts.map .simple)) flags = s.program (.custom (ts.map .simple)) flags := by
    simp only [Site.program, getObjective, h, ok_bind]
  simp only [Site.optimize, hp]

/-- An unknown objective name never gives a result, and if the site itself can be built it is the `ValueError`. -/
theorem C42_unknown {name : String} (h1 : name ≠ "price") (h2 : name ≠ "carbon") (S : Solver) :
    (∀ r, s.optimize (.str name) flags S ≠ .ok r) ∧
    ((∃ objective r, s.program objective flags = .ok r) → ∃ msg, s.optimize (.str name) flags S = .error (.value msg)) := by
  have ho : ∀ d iv, getObjective d iv (.str name) = .error (.value "objective not in objectives") := by
    intro d iv
    simp only [getObjective, if_neg h1, if_neg h2]
  constructor
  · intro r h
    obtain ⟨iv, p, h⟩ := program_of_optimize h
    obtain ⟨_, _, _, _, _, h, _⟩ := (program_spec h).built
    rw [ho] at h
    exact absurd h (by simp)
  · rintro ⟨objective, r, h⟩
    simp only [Site.program, bind_ok, Prod.exists] at h
    obtain ⟨u, hn, iv, cons, hb, custom, hc, -⟩ := h
    refine ⟨"objective not in objectives", ?_⟩
    simp only [Site.optimize, Site.program, hn, hb, hc, ok_bind, ho]
    rfl

end

section
variable {s : Site} {objective : Objective} {flags : Flags} {S : Solver} {r : SimResult} {V : String → Nat → ℚ} {p : Prob}
  {σ : Assign}

theorem value_read (h : Core s objective flags S r V p σ) (hw : ∀ a ∈ s.assets, a.WellNamed) {i : Nat} (hi : i < s.data.n)
    {t : Term} (ht : t.attr ∈ readable) : t.value σ s.data ((s.ivarsTo flags s.data.n).getD i []) i = t.read s V i := by
  have e : (s.ivarsTo flags s.data.n).getD i [] = s.ones flags i := by
    rw [List.getD_eq_getElem?_getD, ivarsTo_get s flags hi]; rfl
  rw [e]
  unfold Term.value Term.select Term.read
  split
  · rename_i hs
    have := term_read h hw hi ht t.assetType none t.intervalData t.coefficient
    rw [← this]
    congr 1
    symm
    rw [List.filter_eq_self]
    intro o _
    simp [Selected, hs]
  · exact term_read h hw hi ht ..

end

/-- The objective value of a run for a custom objective of simple terms on reported flows, read from the results. -/
theorem C42_results {s : Site} {flags : Flags} {S : Solver} {r : SimResult} {V : String → Nat → ℚ} {ts : List Term}
    (h : Run s (.custom (ts.map .simple)) flags S r V) (hw : ∀ a ∈ s.assets, a.WellNamed) (hr : ∀ t ∈ ts, t.attr ∈ readable) :
    r.status.objective = some ((ts.map (fun t => s.sumIntervals (fun i => t.read s V i))).sum) := by
  obtain ⟨p, σ, hco⟩ := h.core
  rw [objective_value hco, C42_simple hco.program]
  congr 1
  apply list_sum_congr
  intro t ht
  unfold Site.sumIntervals
  apply list_sum_congr
  intro i hi
  rw [List.mem_range] at hi
  exact value_read hco hw hi (hr t ht)

/-! ### C43 -/

/-- The custom objective that prices what objective "price" prices. -/
def priceObjectiveTerms : List Term :=
  [ { attr := "import_power_mwh", assetType := some "site", intervalData := some "electricity_prices" },
    { attr := "export_power_mwh", assetType := some "site", intervalData := some "export_electricity_prices", coefficient := -1 },
    { attr := "gas_consumption_mwh", assetType := some "*", intervalData := some "gas_prices" } ] ++
  ["electric_generation_mwh", "high_temperature_generation_mwh", "electric_load_mwh", "electric_charge_mwh",
    "electric_discharge_mwh"].flatMap (fun attr =>
      [ { attr := attr, assetType := some "spill", coefficient := spillPenalty },
        { attr := attr, assetType := some "spill_evs", coefficient := spillPenalty } ])

theorem value_filter (σ : Assign) (d : SiteData) (objects : List OneInterval) (i : Nat) (t : Term) :
    t.value σ d objects i = (objects.map (fun o => if t.assetType = some "*" ∨ Selected t.assetType t.assetName o then
      o.attrValue σ t.attr * d.value t.intervalData i * t.coefficient else 0)).sum := by
  unfold Term.value Term.select termSum
  split
  · rename_i h
    simp [h]
  · rename_i h
    simp only [h, false_or]
    induction objects with
    | nil => rfl
    | cons o os ih =>
      rw [List.filter_cons]
      by_cases ho : Selected t.assetType t.assetName o
      · simp [ho, ih]
      · simp [ho, ih]

section
variable {s : Site} {flags : Flags} {iv iv' : IVars} {p p' : Prob}

/-- The custom price objective has the same value as objective "price", for every assignment. -/
theorem C43_same (h : s.program (.custom (priceObjectiveTerms.map .simple)) flags = .ok (iv, p))
    (h' : s.program (.str "price") flags = .ok (iv', p')) (σ : Assign) : p.obj.eval σ = p'.obj.eval σ := by
  rw [C42_simple h, C40_price h']
  have hp := program_spec h
  have hiv := hp.iv_eq
  subst hiv
  rw [show (priceObjectiveTerms.map (fun t => s.sumIntervals (fun i => t.value σ s.data ((s.ivarsTo flags s.data.n).getD i []) i))).sum =
    s.sumIntervals (fun i => (priceObjectiveTerms.map (fun t => t.value σ s.data ((s.ivarsTo flags s.data.n).getD i []) i)).sum) from
    (list_sum_swap ..)]
  have : s.costOf σ + spillPenalty * s.spillOf flags σ = s.sumIntervals (fun i =>
      importOf σ i * s.data.electricityPrices.getD i 0 - exportOf σ i * s.data.exportElectricityPrices.getD i 0 +
      s.gasOf σ i * s.data.gasPrices.getD i 0 + s.spilledOf flags σ i * spillPenalty) := by
    unfold Site.costOf Site.spillOf Site.sumIntervals
    rw [list_sum_add _ _ (fun i => s.spilledOf flags σ i * spillPenalty), list_sum_mul_right, mul_comm]
  rw [this]
  unfold Site.sumIntervals
  apply list_sum_congr
  intro i hi
  rw [List.mem_range] at hi
  have e : (s.ivarsTo flags s.data.n).getD i [] = s.ones flags i := by
    rw [List.getD_eq_getElem?_getD, ivarsTo_get s flags hi]; rfl
  rw [e, ← grid_sum hp hi, ← gas_sum hp hi, ← spilled_sum hp hi, ← sum_three]
  simp only [value_filter]
  rw [list_sum_swap]
  apply list_sum_congr
  intro o _
  simp only [priceObjectiveTerms, List.flatMap_cons, List.flatMap_nil, List.cons_append, List.nil_append, List.append_nil, List.map_cons,
    List.map_nil, List.sum_cons, List.sum_nil]
  have d1 : s.data.value (some "electricity_prices") i = s.data.electricityPrices.getD i 0 := rfl
  have d2 : s.data.value (some "export_electricity_prices") i = s.data.exportElectricityPrices.getD i 0 := rfl
  have d3 : s.data.value (some "gas_prices") i = s.data.gasPrices.getD i 0 := rfl
  have d4 : s.data.value none i = 1 := rfl
  have a1 : o.attrValue σ "gas_consumption_mwh" = o.base.gasConsumption.eval σ := by cases o <;> rfl
  have a2 : o.attrValue σ "electric_generation_mwh" = o.base.electricGeneration.eval σ := by cases o <;> rfl
  have a3 : o.attrValue σ "high_temperature_generation_mwh" = o.base.htGeneration.eval σ := by cases o <;> rfl
  have a4 : o.attrValue σ "electric_load_mwh" = o.base.electricLoad.eval σ := by cases o <;> rfl
  have a5 : o.attrValue σ "electric_charge_mwh" = o.base.electricCharge.eval σ := by cases o <;> rfl
  have a6 : o.attrValue σ "electric_discharge_mwh" = o.base.electricDischarge.eval σ := by cases o <;> rfl
  have a7 : ∀ x, (OneInterval.site x).attrValue σ "import_power_mwh" = σ x.importPower.id := fun _ => rfl
  have a8 : ∀ x, (OneInterval.site x).attrValue σ "export_power_mwh" = σ x.exportPower.id := fun _ => rfl
  rw [d1, d2, d3, d4, a1, a2, a3, a4, a5, a6]
  cases o <;> simp [Selected, OneInterval.kind, Kind.typeName, a7, a8, OneInterval.base, Val.eval, OneInterval.grid, OneInterval.gas,
    OneInterval.spilled] <;> ring

end

end EPL
