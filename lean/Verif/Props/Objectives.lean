/-
C40, C41: the price and carbon objectives.
-/
import Verif.Proofs.Cost
import Verif.Props.Balance
import Verif.Props.Results

namespace EPL

section
variable {s : Site} {flags : Flags} {iv : IVars} {p : Prob}

/-! ### C40 -/

/-- The price objective is the cost of the dispatch plus the penalties, for every assignment. -/
theorem C40_price (h : s.program (.str "price") flags = .ok (iv, p)) (σ : Assign) :
    p.obj.eval σ = s.costOf σ + spillPenalty * s.spillOf flags σ := by
  have hp := program_spec h
  obtain ⟨_, _, _, _, _, ho, _⟩ := hp.built
  have hiv := hp.iv_eq
  subst hiv
  simp only [getObjective, if_true, priceObjective, bind_ok, Except.ok.injEq, Prod.mk.injEq] at ho
  obtain ⟨e, ⟨ts, ht, rfl⟩, he, _⟩ := ho
  rw [← he, Expr.eval_sum]
  rw [list_sum_flatMapE (g := fun i => importOf σ i * s.data.electricityPrices.getD i 0 - exportOf σ i * s.data.exportElectricityPrices.getD i 0 +
    s.gasOf σ i * s.data.gasPrices.getD i 0 + s.spilledOf flags σ i * spillPenalty) ht]
  · rw [list_sum_add, list_sum_mul_right, mul_comm]
    rfl
  · intro i hi es hes
    rw [List.mem_range] at hi
    simp only [bind_ok, ivarsTo_index s flags hi, Except.ok.injEq, exists_eq_left'] at hes
    rw [priceTerms_eval hes, grid_sum hp hi, gas_sum hp hi, spilled_sum hp hi]

/-! ### C41 -/

/-- The carbon objective is the emissions of the dispatch plus the penalties, for every assignment. -/
theorem C41_carbon (h : s.program (.str "carbon") flags = .ok (iv, p)) (σ : Assign) :
    p.obj.eval σ = s.emissionsOf σ + spillPenalty * s.spillOf flags σ := by
  have hp := program_spec h
  obtain ⟨_, _, _, _, _, ho, _⟩ := hp.built
  have hiv := hp.iv_eq
  subst hiv
  have hne : ("carbon" : String) ≠ "price" := by decide
  simp only [getObjective, hne, if_false, if_true, carbonObjective, bind_ok, Except.ok.injEq, Prod.mk.injEq] at ho
  obtain ⟨e, ⟨ts, ht, rfl⟩, he, _⟩ := ho
  rw [← he, Expr.eval_sum]
  rw [list_sum_flatMapE (g := fun i => (importOf σ i - exportOf σ i) * s.data.electricityCarbonIntensities.getD i 0 +
    s.gasOf σ i * (185 / 1000) + s.spilledOf flags σ i * spillPenalty) ht]
  · rw [list_sum_add, list_sum_mul_right, mul_comm]
    rfl
  · intro i hi es hes
    rw [List.mem_range] at hi
    simp only [bind_ok, ivarsTo_index s flags hi, Except.ok.injEq, exists_eq_left'] at hes
    rw [carbonTerms_eval hes, grid_sum hp hi, gas_sum hp hi, spilled_sum hp hi]
    ring

end

/-! ### As read from the results -/

theorem mapM_some {α : Type} {l : List α} {f : α → Option ℚ} {g : α → ℚ} (h : ∀ a ∈ l, f a = some (g a)) : l.mapM f = some (l.map g) := by
  induction l with
  | nil => rfl
  | cons a l ih =>
    rw [List.mapM_cons, h a (by simp), ih (fun b hb => h b (by simp [hb]))]
    rfl

section
variable {s : Site} {objective : Objective} {flags : Flags} {S : Solver} {r : SimResult} {V : String → Nat → ℚ} {p : Prob}
  {σ : Assign}

/-- The reported objective value is the value of the objective. -/
theorem objective_value (h : Core s objective flags S r V p σ) : r.status.objective = some (p.obj.eval σ) := by
  rw [h.objectiveValue]
  unfold Expr.value
  rw [mapM_some (g := fun t => t.2 * σ t.1.id)]
  · rfl
  · intro t ht
    have hm : t.1 ∈ p.vars := List.mem_append_right _ (List.mem_map_of_mem ht)
    simp only [Prob.valuesOf]
    rw [if_pos (List.mem_map_of_mem hm), h.values t.1 hm]
    rfl

theorem price_cells (h : Core s objective flags S r V p σ) {i : Nat} (hi : i < s.data.n) :
    V "site-electricity_prices" i = s.data.electricityPrices.getD i 0 ∧
    V "site-export_electricity_prices" i = s.data.exportElectricityPrices.getD i 0 ∧
    V "site-electricity_carbon_intensities" i = s.data.electricityCarbonIntensities.getD i 0 ∧
    V "site-gas_prices" i = s.data.gasPrices.getD i 0 :=
  ⟨h.data_cell hi (f := ("electricity_prices", s.data.electricityPrices)) (by simp [SiteData.dump]) (by decide : "site-electricity_prices" ∉ totalKeys),
   h.data_cell hi (f := ("export_electricity_prices", s.data.exportElectricityPrices)) (by simp [SiteData.dump])
    (by decide : "site-export_electricity_prices" ∉ totalKeys),
   h.data_cell hi (f := ("electricity_carbon_intensities", s.data.electricityCarbonIntensities)) (by simp [SiteData.dump])
    (by decide : "site-electricity_carbon_intensities" ∉ totalKeys),
   h.data_cell hi (f := ("gas_prices", s.data.gasPrices)) (by simp [SiteData.dump]) (by decide : "site-gas_prices" ∉ totalKeys)⟩

theorem gas_read (h : Core s objective flags S r V p σ) (hw : ∀ a ∈ s.assets, a.WellNamed) {i : Nat} (hi : i < s.data.n) :
    s.assetSum V "gas_consumption_mwh" i = s.gasOf σ i := by
  rw [assetSum_flow h hw hi (q := "gas_consumption_mwh") (sel := Base.gasConsumption) (by decide) (fun _ => rfl)
    (by simp [OneInterval.base, Val.eval]), sumOver_eval, ← gas_sum h.prog hi]
  apply list_sum_congr
  intro o _
  cases o <;> simp [OneInterval.base, OneInterval.gas, Val.eval]

theorem spill_read (h : Core s objective flags S r V p σ) (hw : ∀ a ∈ s.assets, a.WellNamed) {i : Nat} (hi : i < s.data.n) :
    (s.assets.map (fun a => rowSum V a.penalised i)).sum = s.spilledOf flags σ i := by
  unfold Site.spilledOf
  apply list_sum_congr
  intro a ha
  have hwa := hw a ha
  cases a with
  | spill c =>
    obtain ⟨e1, e2, e3, _⟩ := spill_cells h ha hwa.ne_total hi
    simp only [rowSum, Asset.penalised, List.map_cons, List.map_nil, List.sum_cons, List.sum_nil, e1, e2, e3, Asset.spilledOf, add_zero,
      add_assoc]
    rfl
  | evs c =>
    simp only [rowSum, Asset.penalised, List.map_map, Asset.spilledOf]
    apply list_sum_congr
    intro ch hch
    have := (ev_spill_cell h ha hwa.1 hi hch).1
    simp only [Function.comp]
    rw [← this]
    simp [String.append_assoc]
  | _ => rfl

end

section
variable {s : Site} {flags : Flags} {S : Solver} {r : SimResult} {V : String → Nat → ℚ}

/-- The objective value of a run for price is the cost read from the results plus the penalties. -/
theorem C40_results (h : Run s (.str "price") flags S r V) (hw : ∀ a ∈ s.assets, a.WellNamed) :
    r.status.objective = some (s.readCost V + spillPenalty * s.readSpill V) := by
  obtain ⟨p, σ, hco⟩ := h.core
  rw [objective_value hco, C40_price hco.program]
  congr 2
  · unfold Site.costOf Site.readCost Site.sumIntervals
    apply list_sum_congr
    intro i hi
    rw [List.mem_range] at hi
    obtain ⟨e1, e2, _, e4⟩ := price_cells hco hi
    rw [e1, e2, e4, hco.import_cell hi, hco.export_cell hi, gas_read hco hw hi]
    rfl
  · unfold Site.spillOf Site.readSpill Site.sumIntervals
    congr 1
    apply list_sum_congr
    intro i hi
    rw [List.mem_range] at hi
    exact (spill_read hco hw hi).symm

/-- The objective value of a run for carbon is the emissions read from the results plus the penalties. -/
theorem C41_results (h : Run s (.str "carbon") flags S r V) (hw : ∀ a ∈ s.assets, a.WellNamed) :
    r.status.objective = some (s.readEmissions V + spillPenalty * s.readSpill V) := by
  obtain ⟨p, σ, hco⟩ := h.core
  rw [objective_value hco, C41_carbon hco.program]
  congr 2
  · unfold Site.emissionsOf Site.readEmissions Site.sumIntervals
    apply list_sum_congr
    intro i hi
    rw [List.mem_range] at hi
    obtain ⟨_, _, e3, _⟩ := price_cells hco hi
    rw [e3, hco.import_cell hi, hco.export_cell hi, gas_read hco hw hi]
    rfl
  · unfold Site.spillOf Site.readSpill Site.sumIntervals
    congr 1
    apply list_sum_congr
    intro i hi
    rw [List.mem_range] at hi
    exact (spill_read hco hw hi).symm

end

/-- The demonstration site with a carbon objective: 2 MWh of import at 0.1 and 13 MWh of gas. -/
def demoCarbon : Demo := { demoHeat with objective := .str "carbon" }

set_option maxRecDepth 10000 in
theorem demoCarbon_test : demoCarbon.test (fun s r => decide (s.assets = [.chp demoChpCfg, .boiler defaultBoiler, .heatPump demoHeatPumpCfg,
    .renewable demoRenewableCfg, .spill ⟨"spill"⟩, .valve defaultValve]) && decide (s.data.n = 1) &&
    decide (r.status.objective = some (2 / 10 + 13 * 185 / 1000))) = true := by
  decide +kernel

/-- The hypotheses are met, with objective values that are not zero. -/
example : (∃ s r V, Run s (.str "price") {} (checkSolver (tab demoHeat.answer)) r V ∧ (∀ a ∈ s.assets, a.WellNamed) ∧
      r.status.objective = some 280) ∧
    (∃ s r V, Run s (.str "carbon") {} (checkSolver (tab demoHeat.answer)) r V ∧ (∀ a ∈ s.assets, a.WellNamed) ∧
      r.status.objective = some (2 / 10 + 13 * 185 / 1000)) ∧
    (∃ s r V, Run s (.str "price") {} (checkSolver (tab demoEvs.answer)) r V ∧ (∀ a ∈ s.assets, a.WellNamed) ∧
      r.status.objective = some 240) := by
  refine ⟨?_, ?_, ?_⟩
  · obtain ⟨s, r, V, hs, h, ht⟩ := Demo.run demoHeat_test
    simp only [Bool.and_eq_true, decide_eq_true_eq] at ht
    refine ⟨s, r, V, h, ?_, ht.2⟩
    rw [ht.1.1]
    decide +kernel
  · obtain ⟨s, r, V, hs, h, ht⟩ := Demo.run demoCarbon_test
    simp only [Bool.and_eq_true, decide_eq_true_eq] at ht
    refine ⟨s, r, V, h, ?_, ht.2⟩
    rw [ht.1.1]
    decide +kernel
  · obtain ⟨s, r, V, hs, h, ht⟩ := Demo.run demoEvs_test
    simp only [Bool.and_eq_true, decide_eq_true_eq] at ht
    refine ⟨s, r, V, h, ?_, ht.2⟩
    rw [ht.1.1]
    decide +kernel

end EPL
