/-
What the `Site` constructor leaves behind.
-/
import Verif.Proofs.Optimize

namespace EPL

theorem completeField_length {n : Nat} {dflt : ℚ} {f : RawField} {l : List PyFloat} (h : completeField n dflt f = .ok l) :
    l.length = n := by
  cases f with
  | missing => simp [completeField] at h; subst h; simp
  | scalar x =>
    simp only [completeField, bind_ok, pyValidate_ok, Except.ok.injEq] at h
    obtain ⟨_, _, rfl⟩ := h
    simp
  | array a =>
    simp only [completeField, bind_ok, pyValidate_ok, Except.ok.injEq, decide_eq_true_eq] at h
    obtain ⟨_, h1, _, _, rfl⟩ := h
    exact h1

/-- The fields of interval data with their names. -/
def SiteDataF.fields (d : SiteDataF) : List (List PyFloat) :=
  [d.electricityPrices, d.exportElectricityPrices, d.electricityCarbonIntensities, d.gasPrices, d.electricLoad, d.htLoad,
    d.ltLoad, d.ltGeneration]

theorem validateSiteData_lengths {r : RawSiteData} {d : SiteDataF} (h : validateSiteData r = .ok d) :
    ∀ l ∈ d.fields, l.length = d.n := by
  unfold validateSiteData at h
  split at h
  · rename_i prices hp
    simp only [bind_ok, Except.ok.injEq] at h
    obtain ⟨ex, hex, ca, hca, ga, hga, el, hel, ht, hht, lt, hlt, lg, hlg, rfl⟩ := h
    have hexl : ex.length = prices.length := by
      cases hr : r.exportElectricityPrices with
      | missing => simp [hr, completeExport] at hex; rw [hex]
      | scalar x => rw [hr] at hex; exact completeField_length (dflt := Defaults.exportElectricityPrices) (f := .scalar x) hex
      | array x => rw [hr] at hex; exact completeField_length (dflt := Defaults.exportElectricityPrices) (f := .array x) hex
    simp [SiteDataF.fields, hexl, completeField_length hca, completeField_length hga, completeField_length hel,
      completeField_length hht, completeField_length hlt, completeField_length hlg]
  · simp at h
  · split at h
    · simp only [bind_ok, Except.ok.injEq] at h
      obtain ⟨pr, hpr, ex, hex, ga, hga, el, hel, ht, hht, lt, hlt, lg, hlg, rfl⟩ := h
      simp [SiteDataF.fields, completeField_length hpr, completeField_length hex, completeField_length hga,
        completeField_length hel, completeField_length hht, completeField_length hlt, completeField_length hlg]
    · simp at h
    · simp at h

theorem finite_ok {l : List PyFloat} {q : List ℚ} : finite l = .ok q ↔ l = q.map some := by
  unfold finite
  rw [mapE_ok]
  constructor
  · intro h
    induction h with
    | nil => rfl
    | cons h1 _ ih =>
      rename_i a b _ _
      split at h1
      · simp at h1; simp [h1, ih]
      · simp at h1
  · rintro rfl
    induction q with
    | nil => exact .nil
    | cons q qs ih => exact .cons rfl ih

/-- Finite interval data, field by field. -/
theorem toFinite_ok {d : SiteDataF} {e : SiteData} : d.toFinite = .ok e ↔
    d = { n := e.n
          electricityPrices := e.electricityPrices.map some
          exportElectricityPrices := e.exportElectricityPrices.map some
          electricityCarbonIntensities := e.electricityCarbonIntensities.map some
          gasPrices := e.gasPrices.map some
          electricLoad := e.electricLoad.map some
          htLoad := e.htLoad.map some
          ltLoad := e.ltLoad.map some
          ltGeneration := e.ltGeneration.map some } ∧ e.custom = [] := by
  simp only [SiteDataF.toFinite, bind_ok, finite_ok, Except.ok.injEq]
  constructor
  · rintro ⟨a1, h1, a2, h2, a3, h3, a4, h4, a5, h5, a6, h6, a7, h7, a8, h8, rfl⟩
    cases d
    simp_all
  · rintro ⟨rfl, hc⟩
    cases e
    simp_all

theorem repeat_length {α : Type} {a b : List α} {n : Nat} (h : repeatToMatchLength a n = .ok b) : b.length = n := by
  unfold repeatToMatchLength at h
  split at h
  · simp at h
  · rename_i h0
    simp only [Except.ok.injEq] at h
    subst h
    have := Nat.mod_lt n (Nat.pos_of_ne_zero h0)
    simp only [List.length_append, List.length_flatten, List.map_replicate, List.sum_replicate, List.length_take,
      nsmul_eq_mul, Nat.cast_id]
    rw [min_eq_left (by omega)]
    rw [mul_comm]
    exact Nat.div_add_mod n a.length

theorem customData_spec {n : Nat} {kws : List (String × KwData)} {c : List (String × List ℚ)} (h : customData n kws = .ok c) :
    (∀ f ∈ c, f.2.length = n) ∧ (c.map Prod.fst).Sublist (kws.map Prod.fst) := by
  induction kws generalizing c with
  | nil => simp [customData] at h; subst h; simp
  | cons kw kws ih =>
    obtain ⟨name, kd⟩ := kw
    cases kd with
    | seq l =>
      simp only [customData] at h
      split at h
      · simp at h
      · simp only [bind_ok, Except.ok.injEq] at h
        obtain ⟨l', hl', rest, hrest, rfl⟩ := h
        obtain ⟨h1, h2⟩ := ih hrest
        refine ⟨?_, ?_⟩
        · intro f hf
          rcases List.mem_cons.1 hf with rfl | hf
          · exact repeat_length hl'
          · exact h1 f hf
        · simpa using h2
    | nested => exact ⟨(ih h).1, (ih h).2.cons _⟩
    | other => exact ⟨(ih h).1, (ih h).2.cons _⟩

/-- `Site.new` taken apart. -/
structure NewSite (assets : List Asset) (raw : RawSiteData) (freqMins il el : ℚ) (constraints : List Constraint)
    (kwargs : List (String × KwData)) (s : Site) : Prop where
  names : ∀ kw ∈ kwargs, kw.1 ∉ siteParams
  nodup : (kwargs.map Prod.fst).Nodup
  data : validateSiteData raw = .ok
    { n := s.data.n
      electricityPrices := s.data.electricityPrices.map some
      exportElectricityPrices := s.data.exportElectricityPrices.map some
      electricityCarbonIntensities := s.data.electricityCarbonIntensities.map some
      gasPrices := s.data.gasPrices.map some
      electricLoad := s.data.electricLoad.map some
      htLoad := s.data.htLoad.map some
      ltLoad := s.data.ltLoad.map some
      ltGeneration := s.data.ltGeneration.map some }
  assets : mapE (Asset.fit s.data.n) assets = .ok s.assets
  custom : customData s.data.n kwargs = .ok s.data.custom
  freq : s.freqMins = freqMins
  importLimit : s.importLimit = il
  exportLimit : s.exportLimit = el
  constraints : s.constraints = constraints

theorem site_new {assets : List Asset} {raw : RawSiteData} {freqMins il el : ℚ} {constraints : List Constraint}
    {kwargs : List (String × KwData)} {s : Site} (h : Site.new assets raw freqMins il el constraints kwargs = .ok s) :
    NewSite assets raw freqMins il el constraints kwargs s := by
  unfold Site.new at h
  split at h
  · simp at h
  · rename_i hk
    simp only [Bool.or_eq_true, not_or, Bool.not_eq_true, List.any_eq_false, Bool.not_eq_eq_eq_not, Bool.not_false,
      noDup, decide_eq_true_eq] at hk
    simp only [bind_ok, Except.ok.injEq] at h
    obtain ⟨d, hd, e, he, as, has, c, hc, rfl⟩ := h
    obtain ⟨rfl, _⟩ := toFinite_ok.1 he
    refine ⟨?_, by simpa using hk.2, hd, has, hc, rfl, rfl, rfl, rfl⟩
    intro kw hkw hm
    have := hk.1 kw hkw
    simp [hm] at this

theorem NewSite.wf {assets : List Asset} {raw : RawSiteData} {freqMins il el : ℚ} {constraints : List Constraint}
    {kwargs : List (String × KwData)} {s : Site} (h : NewSite assets raw freqMins il el constraints kwargs s) : s.data.WF := by
  have hl := validateSiteData_lengths h.data
  obtain ⟨hc1, hc2⟩ := customData_spec h.custom
  simp only [SiteDataF.fields, List.mem_cons, List.not_mem_nil, or_false, forall_eq_or_imp, forall_eq, List.length_map] at hl
  refine ⟨?_, ?_⟩
  · intro f hf
    unfold SiteData.dump at hf
    rcases List.mem_append.1 hf with hf | hf
    · simp only [List.mem_cons, List.not_mem_nil, or_false] at hf
      rcases hf with rfl | rfl | rfl | rfl | rfl | rfl | rfl | rfl <;> tauto
    · exact hc1 f hf
  · unfold SiteData.dump
    rw [List.map_append, List.nodup_append]
    refine ⟨by simp, hc2.nodup h.nodup, ?_⟩
    intro a ha b hb he
    subst he
    have : a ∈ siteParams := by
      have hsub : ∀ x ∈ ["electricity_prices", "export_electricity_prices", "electricity_carbon_intensities", "gas_prices",
        "electric_load_mwh", "high_temperature_load_mwh", "low_temperature_load_mwh", "low_temperature_generation_mwh"],
        x ∈ siteParams := by decide
      exact hsub a (by simpa using ha)
    obtain ⟨kw, hkw, rfl⟩ := List.mem_map.1 (hc2.subset hb)
    exact h.names kw hkw this

end EPL
