/-
The energy balances of the site, as read from the results.
-/
import Verif.Proofs.Flows
import Verif.Props.Assets
import Verif.Spec.DemoEvs

namespace EPL

/-! ### Names of assets that came out of their constructors -/

theorem zipIdx_names {α : Type} (l : List α) (pre : String) :
    l.zipIdx.map (fun p => pre ++ toString p.2) = (List.range l.length).map (fun k => pre ++ toString k) := by
  have : l.zipIdx.map (fun p => pre ++ toString p.2) = (l.zipIdx.map Prod.snd).map (fun k => pre ++ toString k) := by
    rw [List.map_map]; rfl
  rw [this, List.zipIdx_map_snd, ← List.range_eq_range']

/-- Constructors enforce the names (heat pumps excepted). -/
theorem made_wellNamed {a : Asset} (h : a.Made) (hn : a.name ≠ "total") : a.WellNamed := by
  cases h with
  | battery h =>
    simp only [Battery.new, bind_ok, pyAssert_ok, pyValidate_ok, Except.ok.injEq] at h
    obtain ⟨_, _, _, h, rfl⟩ := h
    exact h
  | boiler h =>
    simp only [Boiler.new, bind_ok, pyValidate_ok] at h
    obtain ⟨_, h, h'⟩ := h
    split at h'
    · simp only [Except.ok.injEq] at h'
      subst h'
      exact h
    · simp at h'
  | chp h =>
    simp only [Chp.new, bind_ok, pyValidate_ok, Except.ok.injEq] at h
    obtain ⟨_, h, rfl⟩ := h
    exact h
  | @evs ce powers caps eff td name fm c h =>
    have hm := ev_made (a := ⟨ce, powers, caps, eff, td, name, fm⟩) h
    refine ⟨by rw [hm.name]; exact hm.well, ?_, ?_, ?_⟩
    · rw [hm.chargers_length, hm.chargers, List.map_map]
      exact zipIdx_names powers "charger-"
    · rw [hm.spill, hm.name]; rfl
    · rw [hm.events_length, hm.events, List.map_map]
      exact zipIdx_names caps "charge-event-"
  | heatPump h => exact hn
  | renewable h => exact (renewable_new h).2.2.2.2.2.2.2.2
  | spill h =>
    simp only [Spill.new, bind_ok, pyValidate_ok, Except.ok.injEq] at h
    obtain ⟨_, h, rfl⟩ := h
    exact h
  | valve h =>
    simp only [Valve.new, bind_ok, pyValidate_ok, Except.ok.injEq] at h
    obtain ⟨_, h, rfl⟩ := h
    exact h

theorem fit_wellNamed {n : Nat} {a a' : Asset} (h : a.fit n = .ok a') (hw : a.WellNamed) : a'.WellNamed := by
  cases a with
  | renewable c =>
    simp only [Asset.fit] at h
    split at h
    · cases h; exact hw
    · simp only [bind_ok, Except.ok.injEq] at h
      obtain ⟨g, _, rfl⟩ := h
      exact hw
  | _ => simp only [Asset.fit, Except.ok.injEq] at h; subst h; exact hw

/-- A site made from made assets has well named assets. -/
theorem site_wellNamed {assets : List Asset} {raw : RawSiteData} {freqMins il el : ℚ} {constraints : List Constraint}
    {kwargs : List (String × KwData)} {s : Site} (hs : Site.new assets raw freqMins il el constraints kwargs = .ok s)
    (hm : ∀ a ∈ assets, a.Made ∧ a.name ≠ "total") : ∀ a ∈ s.assets, a.WellNamed := by
  intro a ha
  obtain ⟨a0, ha0, hf⟩ := (mapE_mem (site_new hs).assets).1 ha
  exact fit_wellNamed hf (made_wellNamed (hm a0 ha0).1 (hm a0 ha0).2)

section
variable {s : Site} {objective : Objective} {flags : Flags} {S : Solver} {r : SimResult} {V : String → Nat → ℚ}

theorem assetSum_flow {p : Prob} {σ : Assign} (h : Core s objective flags S r V p σ) (hw : ∀ a ∈ s.assets, a.WellNamed) {i : Nat}
    (hi : i < s.data.n) {q : String} (hq : q ∈ quantities) {sel : Base → Val}
    (hsel : ∀ b : Base, b.get? q = some (sel b)) (hsite : (sel (OneInterval.site (s.oneInterval i)).base).eval σ = 0) :
    s.assetSum V q i = (sumOver sel (s.ones flags i)).eval σ := by
  rw [sumOver_eval, ones_eq h.prog.vars hi, List.map_cons, List.sum_cons, hsite, zero_add, list_sum_flatMap]
  unfold Site.assetSum
  apply list_sum_congr
  intro a ha
  rw [asset_flow h ha (hw a ha) hi hq]
  apply list_sum_congr
  intro o _
  simp [OneInterval.flow, hsel]

/-- The site data of a row. -/
theorem data_cells {p : Prob} {σ : Assign} (h : Core s objective flags S r V p σ) {i : Nat} (hi : i < s.data.n) :
    V "site-electric_load_mwh" i = s.data.electricLoad.getD i 0 ∧ V "site-high_temperature_load_mwh" i = s.data.htLoad.getD i 0 ∧
    V "site-low_temperature_load_mwh" i = s.data.ltLoad.getD i 0 ∧
    V "site-low_temperature_generation_mwh" i = s.data.ltGeneration.getD i 0 :=
  ⟨h.data_cell hi (f := ("electric_load_mwh", s.data.electricLoad)) (by simp [SiteData.dump]) (by decide : "site-electric_load_mwh" ∉ totalKeys),
   h.data_cell hi (f := ("high_temperature_load_mwh", s.data.htLoad)) (by simp [SiteData.dump])
    (by decide : "site-high_temperature_load_mwh" ∉ totalKeys),
   h.data_cell hi (f := ("low_temperature_load_mwh", s.data.ltLoad)) (by simp [SiteData.dump])
    (by decide : "site-low_temperature_load_mwh" ∉ totalKeys),
   h.data_cell hi (f := ("low_temperature_generation_mwh", s.data.ltGeneration)) (by simp [SiteData.dump])
    (by decide : "site-low_temperature_generation_mwh" ∉ totalKeys)⟩

/-! ### C01 -/

/-- Electricity: what comes in equals what goes out, in every row. -/
theorem C01_electricity_balance (h : Run s objective flags S r V) (hw : ∀ a ∈ s.assets, a.WellNamed) {i : Nat} (hi : i < s.data.n) :
    V "site-import_power_mwh" i + s.assetSum V "electric_generation_mwh" i + s.assetSum V "electric_discharge_mwh" i =
      V "site-export_power_mwh" i + V "site-electric_load_mwh" i + s.assetSum V "electric_load_mwh" i +
        s.assetSum V "electric_charge_mwh" i := by
  obtain ⟨p, σ, hco⟩ := h.core
  rw [assetSum_flow hco hw hi (q := "electric_generation_mwh") (sel := Base.electricGeneration) (by decide) (fun _ => rfl) rfl,
    assetSum_flow hco hw hi (q := "electric_discharge_mwh") (sel := Base.electricDischarge) (by decide) (fun _ => rfl) rfl,
    assetSum_flow hco hw hi (q := "electric_load_mwh") (sel := Base.electricLoad) (by decide) (fun _ => rfl)
      (by simp [OneInterval.base, Val.eval]),
    assetSum_flow hco hw hi (q := "electric_charge_mwh") (sel := Base.electricCharge) (by decide) (fun _ => rfl) rfl,
    hco.import_cell hi, hco.export_cell hi, (data_cells hco hi).1]
  have := site_cons hco.prog hco.feas hi _ (by simp only [Site.siteList, Site.withinList]; exact List.mem_cons_self ..)
  simp only [eqC_holds, Expr.eval_add, Expr.eval_sub, Expr.eval_var, Expr.eval_num] at this
  linarith

/-! ### C02 -/

/-- High temperature heat: generation equals load, in every row. -/
theorem C02_high_temperature_balance (h : Run s objective flags S r V) (hw : ∀ a ∈ s.assets, a.WellNamed) {i : Nat}
    (hi : i < s.data.n) :
    s.assetSum V "high_temperature_generation_mwh" i =
      V "site-high_temperature_load_mwh" i + s.assetSum V "high_temperature_load_mwh" i := by
  obtain ⟨p, σ, hco⟩ := h.core
  rw [assetSum_flow hco hw hi (q := "high_temperature_generation_mwh") (sel := Base.htGeneration) (by decide) (fun _ => rfl) rfl,
    assetSum_flow hco hw hi (q := "high_temperature_load_mwh") (sel := Base.htLoad) (by decide) (fun _ => rfl)
      (by simp [OneInterval.base, Val.eval]),
    (data_cells hco hi).2.1]
  have := site_cons hco.prog hco.feas hi
    ((sumOver Base.htGeneration (s.ones flags i) - sumOver Base.htLoad (s.ones flags i) - .num (s.data.htLoad.getD i 0)).eqC (.num 0))
    (by simp [Site.siteList, Site.withinList])
  simp only [eqC_holds, Expr.eval_add, Expr.eval_sub, Expr.eval_var, Expr.eval_num] at this
  linarith

/-! ### C03 -/

/-- Low temperature heat: generation equals load, in every row. -/
theorem C03_low_temperature_balance (h : Run s objective flags S r V) (hw : ∀ a ∈ s.assets, a.WellNamed) {i : Nat}
    (hi : i < s.data.n) :
    s.assetSum V "low_temperature_generation_mwh" i + V "site-low_temperature_generation_mwh" i =
      V "site-low_temperature_load_mwh" i + s.assetSum V "low_temperature_load_mwh" i := by
  obtain ⟨p, σ, hco⟩ := h.core
  rw [assetSum_flow hco hw hi (q := "low_temperature_generation_mwh") (sel := Base.ltGeneration) (by decide) (fun _ => rfl) rfl,
    assetSum_flow hco hw hi (q := "low_temperature_load_mwh") (sel := Base.ltLoad) (by decide) (fun _ => rfl)
      (by simp [OneInterval.base, Val.eval]),
    (data_cells hco hi).2.2.1, (data_cells hco hi).2.2.2]
  have := site_cons hco.prog hco.feas hi
    ((sumOver Base.ltGeneration (s.ones flags i) - sumOver Base.ltLoad (s.ones flags i) - .num (s.data.ltLoad.getD i 0) +
      .num (s.data.ltGeneration.getD i 0)).eqC (.num 0))
    (by simp [Site.siteList, Site.withinList])
  simp only [eqC_holds, Expr.eval_add, Expr.eval_sub, Expr.eval_var, Expr.eval_num] at this
  linarith

/-- The hypotheses are met by a site with heat and power assets, and by one with electric vehicles. -/
example : (∃ s r V, Run s (.str "price") {} (checkSolver (tab demoHeat.answer)) r V ∧ (∀ a ∈ s.assets, a.WellNamed) ∧ s.data.n = 1) ∧
    (∃ s r V, Run s (.str "price") {} (checkSolver (tab demoEvs.answer)) r V ∧ (∀ a ∈ s.assets, a.WellNamed) ∧ s.data.n = 2) := by
  refine ⟨?_, ?_⟩
  · obtain ⟨s, r, V, hs, h, ht⟩ := Demo.run demoHeat_test
    simp only [Bool.and_eq_true, decide_eq_true_eq] at ht
    refine ⟨s, r, V, h, ?_, ht.1.2⟩
    rw [ht.1.1]
    decide +kernel
  · obtain ⟨s, r, V, hs, h, ht⟩ := Demo.run demoEvs_test
    simp only [Bool.and_eq_true, decide_eq_true_eq] at ht
    refine ⟨s, r, V, h, ?_, ht.1.2⟩
    rw [ht.1.1]
    decide +kernel

end

end EPL
