/-
C09, C12 (construction), C29, C30, C31, C32, C39 (construction): what the constructors do with their arguments.
-/
import Verif.Spec.Inputs
import Verif.Spec.DemoSites
import Mathlib.Tactic.FieldSimp

namespace EPL

/-! ### C30 -/

theorem flatten_replicate_get {α : Type} (a : List α) (k : Nat) {j : Nat} (hj : j < k * a.length) :
    ((List.replicate k a).flatten)[j]? = a[j % a.length]? := by
  induction k generalizing j with
  | zero => simp at hj
  | succ k ih =>
    rw [List.replicate_succ, List.flatten_cons]
    by_cases h : j < a.length
    · rw [List.getElem?_append_left h, Nat.mod_eq_of_lt h]
    · push Not at h
      rw [List.getElem?_append_right h, ih (by rw [Nat.succ_mul] at hj; omega), Nat.mod_eq_sub_mod h]

/-- `repeat_to_match_length(a, b)`: an empty `a` raises, otherwise the result has the length of `b` and its `j`-th element is
`a[j % len(a)]`. -/
theorem C30_repeat {α : Type} (a : List α) (n : Nat) :
    (a = [] → ∃ e, repeatToMatchLength a n = .error e) ∧
    (a ≠ [] → ∃ b, repeatToMatchLength a n = .ok b ∧ b.length = n ∧ ∀ j < n, b[j]? = cyclic a j) := by
  constructor
  · rintro rfl
    exact ⟨_, rfl⟩
  · intro h
    have h0 : a.length ≠ 0 := by simpa using h
    have hdef : repeatToMatchLength a n = .ok ((List.replicate (n / a.length) a).flatten ++ a.take (n % a.length)) := by
      simp [repeatToMatchLength, h]
    refine ⟨_, hdef, repeat_length hdef, ?_⟩
    intro j hj
    unfold cyclic
    have hl : ((List.replicate (n / a.length) a).flatten).length = n / a.length * a.length := by simp
    have hdm := Nat.div_add_mod n a.length
    rw [mul_comm] at hdm
    have hmod := Nat.mod_lt n (Nat.pos_of_ne_zero h0)
    by_cases hlt : j < n / a.length * a.length
    · rw [List.getElem?_append_left (by rw [hl]; exact hlt), flatten_replicate_get _ _ hlt]
    · push Not at hlt
      rw [List.getElem?_append_right (by rw [hl]; exact hlt), hl, List.getElem?_take_of_lt (by omega)]
      congr 1
      have hb : j - n / a.length * a.length < a.length := by omega
      conv_rhs => rw [show j = (j - n / a.length * a.length) + n / a.length * a.length by omega, Nat.add_mul_mod_self_right,
        Nat.mod_eq_of_lt hb]

example : repeatToMatchLength [1, 2, 3] 7 = .ok [1, 2, 3, 1, 2, 3, 1] := by decide

/-! ### C32 -/

/-- `Freq.mw_to_mwh` and `Freq.mwh_to_mw` are inverse to each other for every interval length other than zero, linear, monotone
for positive lengths, and the identity for an hour. -/
theorem C32_freq (m : ℚ) (hm : m ≠ 0) (x y c : ℚ) :
    (⟨m⟩ : Freq).mwhToMw ((⟨m⟩ : Freq).mwToMwh x) = .ok x ∧
    (∃ z, (⟨m⟩ : Freq).mwhToMw x = .ok z ∧ (⟨m⟩ : Freq).mwToMwh z = x) ∧
    (⟨m⟩ : Freq).mwToMwh (c * x + y) = c * (⟨m⟩ : Freq).mwToMwh x + (⟨m⟩ : Freq).mwToMwh y ∧
    (0 < m → (x ≤ y ↔ (⟨m⟩ : Freq).mwToMwh x ≤ (⟨m⟩ : Freq).mwToMwh y)) ∧
    (⟨60⟩ : Freq).mwToMwh x = x ∧ (⟨60⟩ : Freq).mwhToMw x = .ok x := by
  refine ⟨?_, ?_, ?_, ?_, ?_, ?_⟩
  · simp only [Freq.mwhToMw, Freq.mwToMwh, hm, if_false]
    congr 1
    field_simp
  · refine ⟨x * 60 / m, by simp [Freq.mwhToMw, hm], ?_⟩
    simp only [Freq.mwToMwh]
    field_simp
  · simp only [Freq.mwToMwh]
    ring
  · intro h
    simp only [Freq.mwToMwh]
    constructor
    · intro hxy
      have := mul_le_mul_of_nonneg_right hxy h.le
      linarith
    · intro hxy
      have : x * m ≤ y * m := by linarith
      exact le_of_mul_le_mul_right this h
  · simp [Freq.mwToMwh]
  · simp [Freq.mwhToMw]

/-- A zero interval length makes `mwh_to_mw` raise. -/
theorem C32_freq_zero (x : ℚ) : (⟨0⟩ : Freq).mwhToMw x = .error .zeroDivision := rfl

example : (⟨5⟩ : Freq).mwToMwh 12 = 1 := by norm_num [Freq.mwToMwh]

/-! ### C09 -/

/-- `epl.Battery(...)` succeeds exactly for a non-zero discharge power (the charge power if none is given) and a name containing
"battery", and then clamps the initial charge and the final charge (the clamped initial charge if none is given) to the
capacity and keeps everything else. -/
theorem C09_battery_new (power : ℚ) (dis : Option ℚ) (capacity efficiency initial : ℚ) (final : Option ℚ) (name : String)
    (freqMins : ℚ) (c : BatteryCfg) :
    Battery.new power dis capacity efficiency initial final name freqMins = .ok c ↔
      dis.getD power ≠ 0 ∧ "battery".toList <:+: name.toList ∧ c.name = name ∧ c.chargePower = power ∧
      c.dischargePower = dis.getD power ∧ c.capacity = capacity ∧ c.efficiency = efficiency ∧
      c.initialCharge = min initial capacity ∧ c.finalCharge = min (final.getD initial) capacity ∧ c.freqMins = freqMins := by
  simp only [Battery.new, setupInitialFinalCharge, bind_ok, pyAssert_ok, pyValidate_ok, decide_eq_true_eq, Except.ok.injEq, pyIn]
  constructor
  · rintro ⟨_, h1, _, h2, rfl⟩
    cases dis <;> cases final <;> simp_all
  · rintro ⟨h1, h2, h3, h4, h5, h6, h7, h8, h9, h10⟩
    refine ⟨(), ?_, (), h2, ?_⟩
    · cases dis <;> simp_all
    · cases c
      cases dis <;> cases final <;> simp_all

/-- Both charges of a constructed battery are at most its capacity. -/
theorem C09_battery_within (power : ℚ) (dis : Option ℚ) (capacity efficiency initial : ℚ) (final : Option ℚ) (name : String)
    (freqMins : ℚ) (c : BatteryCfg) (h : Battery.new power dis capacity efficiency initial final name freqMins = .ok c) :
    c.initialCharge ≤ c.capacity ∧ c.finalCharge ≤ c.capacity := by
  obtain ⟨_, _, _, _, _, h1, _, h2, h3, _⟩ := (C09_battery_new ..).1 h
  rw [h1, h2, h3]
  exact ⟨min_le_right _ _, min_le_right _ _⟩

example : (Battery.new (power := 2) (capacity := 4) (initial := 5) (final := none)).map (fun c => (c.initialCharge, c.finalCharge)) =
    .ok (4, 4) := by decide +kernel
example : Battery.new (power := 0) = .error (.assertion "discharge_power_mw") := by decide +kernel

/-! ### C12, construction -/

/-- `epl.HeatPump(...)` succeeds exactly for a COP of at least one; the name is not checked. -/
theorem C12_heat_pump_new (cop power : ℚ) (name : String) (freqMins : ℚ) (valve : Bool) (c : HeatPumpCfg) :
    HeatPump.new cop power name freqMins valve = .ok c ↔
      1 ≤ cop ∧ c = ⟨name, cop, power, freqMins, valve⟩ := by
  unfold HeatPump.new
  split
  · rename_i h
    simp [h]
  · rename_i h
    simp only [not_lt] at h
    simp [h, eq_comm]

/-! ### C39, construction -/

/-- `epl.Constraint(...)` is rejected exactly when every entry of both sides is a number. -/
theorem C39_constraint_new (lhs rhs : CSide) (sense : Sense) (sumAgg : Bool) :
    (∃ c, Constraint.new lhs rhs sense sumAgg = .ok c) ↔
      (∃ t, CEntry.term t ∈ lhs.entries) ∨ (∃ t, CEntry.term t ∈ rhs.entries) := by
  have key : ∀ l : List CEntry, l.all CEntry.isNum = false ↔ ∃ t, CEntry.term t ∈ l := by
    intro l
    induction l with
    | nil => simp
    | cons e l ih =>
      cases e with
      | num q => simp [CEntry.isNum, ih]
      | term t => simp only [List.all_cons, CEntry.isNum, Bool.false_and, true_iff]; exact ⟨t, by simp⟩
  unfold Constraint.new
  cases h1 : lhs.entries.all CEntry.isNum with
  | false => simp [← key, h1]
  | true =>
    cases h2 : rhs.entries.all CEntry.isNum with
    | false => simp [← key, h1, h2]
    | true => simp [← key, h1, h2]

example : ∃ c, Constraint.new (.one (.term { attr := "electric_charge_mwh", assetType := some "battery" })) (.one (.num 3)) .le true =
    .ok c := ⟨_, rfl⟩

/-! ### C29 -/

theorem completeField_iff {n : Nat} {dflt : ℚ} {f : RawField} {l : List PyFloat} :
    completeField n dflt f = .ok l ↔ Completed n dflt f l := by
  cases f with
  | missing => simp [completeField, Completed, eq_comm]
  | scalar x =>
    simp only [completeField, Completed, bind_ok, pyValidate_ok, Except.ok.injEq]
    constructor
    · rintro ⟨_, h, rfl⟩
      cases x with
      | some q => exact ⟨q, fun _ => rfl, rfl⟩
      | none =>
        cases n with
        | zero => exact ⟨0, by simp, by simp⟩
        | succ n => simp at h
    · rintro ⟨q, hx, rfl⟩
      cases n with
      | zero => exact ⟨(), by simp, by simp⟩
      | succ n =>
        rw [hx (by omega)]
        exact ⟨(), by simp, rfl⟩
  | array a =>
    simp only [completeField, Completed, bind_ok, pyValidate_ok, Except.ok.injEq, decide_eq_true_eq, List.all_eq_true]
    constructor
    · rintro ⟨_, h1, _, h2, rfl⟩
      exact ⟨h1, fun x hx hn => by simpa [hn] using h2 x hx, rfl⟩
    · rintro ⟨h1, h2, rfl⟩
      exact ⟨(), h1, (), fun x hx => Option.isSome_iff_ne_none.2 (h2 x hx), rfl⟩

theorem completeExport_iff {prices : List PyFloat} {f : RawField} {l : List PyFloat} :
    completeExport prices f = .ok l ↔ (f = .missing → l = prices) ∧ (f ≠ .missing → Completed prices.length 100 f l) := by
  cases f with
  | missing => simp [completeExport, eq_comm]
  | scalar x => simp [completeExport, completeField_iff, Defaults.exportElectricityPrices]
  | array x => simp [completeExport, completeField_iff, Defaults.exportElectricityPrices]

/-- `SiteIntervalData` accepts its arguments exactly when they can be read as documented, and completes them that way. -/
theorem C29_site_data (r : RawSiteData) (d : SiteDataF) : validateSiteData r = .ok d ↔ SiteDataSpec r d := by
  unfold SiteDataSpec
  constructor
  · intro h
    unfold validateSiteData at h
    split at h
    · rename_i prices hp
      simp only [bind_ok, Except.ok.injEq, completeField_iff, completeExport_iff] at h
      obtain ⟨ex, hex, ca, hca, ga, hga, el, hel, ht, hht, lt, hlt, lg, hlg, rfl⟩ := h
      exact .inl ⟨prices, hp, rfl, rfl, hex.1, hex.2, hca, hga, hel, hht, hlt, hlg⟩
    · simp at h
    · rename_i hp
      split at h
      · rename_i carbon hc
        simp only [bind_ok, Except.ok.injEq, completeField_iff] at h
        obtain ⟨pr, hpr, ex, hex, ga, hga, el, hel, ht, hht, lt, hlt, lg, hlg, rfl⟩ := h
        exact .inr ⟨hp, carbon, hc, rfl, rfl, hpr, hex, hga, hel, hht, hlt, hlg⟩
      · simp at h
      · simp at h
  · rintro (⟨prices, hp, hn, hpr, hx1, hx2, hca, hr⟩ | ⟨hp, carbon, hc, hn, hca, hpr, hex, hr⟩)
    · cases d
      simp only at hn hpr hx1 hx2 hca
      subst hn hpr
      unfold validateSiteData
      simp only [hp, bind_ok, completeField_iff, completeExport_iff, Except.ok.injEq]
      exact ⟨_, ⟨hx1, hx2⟩, _, hca, _, hr.gas, _, hr.electricLoad, _, hr.htLoad, _, hr.ltLoad, _, hr.ltGeneration, rfl⟩
    · cases d
      simp only at hn hpr hca hex
      subst hn hca
      unfold validateSiteData
      simp only [hp, hc, bind_ok, completeField_iff, Except.ok.injEq]
      exact ⟨_, hpr, _, hex, _, hr.gas, _, hr.electricLoad, _, hr.htLoad, _, hr.ltLoad, _, hr.ltGeneration, rfl⟩

/-- Without prices and carbon intensities the constructor fails. -/
theorem C29_no_anchor (r : RawSiteData) (h1 : r.electricityPrices = .missing) (h2 : r.electricityCarbonIntensities = .missing) :
    ∃ e, validateSiteData r = .error e := by
  unfold validateSiteData
  rw [h1, h2]
  exact ⟨_, rfl⟩

/-- All fields of a validated site have one value per interval. -/
theorem C29_lengths (r : RawSiteData) (d : SiteDataF) (h : validateSiteData r = .ok d) :
    d.electricityPrices.length = d.n ∧ d.exportElectricityPrices.length = d.n ∧ d.electricityCarbonIntensities.length = d.n ∧
    d.gasPrices.length = d.n ∧ d.electricLoad.length = d.n ∧ d.htLoad.length = d.n ∧ d.ltLoad.length = d.n ∧
    d.ltGeneration.length = d.n := by
  have := validateSiteData_lengths h
  simpa [SiteDataF.fields] using this

/-- The site holds the completed data: a site is only built from finite values. -/
theorem C29_site (assets : List Asset) (raw : RawSiteData) (freqMins il el : ℚ) (constraints : List Constraint)
    (kwargs : List (String × KwData)) (s : Site) (h : Site.new assets raw freqMins il el constraints kwargs = .ok s) :
    SiteDataSpec raw
      { n := s.data.n
        electricityPrices := s.data.electricityPrices.map some
        exportElectricityPrices := s.data.exportElectricityPrices.map some
        electricityCarbonIntensities := s.data.electricityCarbonIntensities.map some
        gasPrices := s.data.gasPrices.map some
        electricLoad := s.data.electricLoad.map some
        htLoad := s.data.htLoad.map some
        ltLoad := s.data.ltLoad.map some
        ltGeneration := s.data.ltGeneration.map some } :=
  (C29_site_data _ _).1 (site_new h).data

example : (validateSiteData { electricityPrices := prices [10, 100], gasPrices := .scalar (some 30) }).map
    (fun d => (d.exportElectricityPrices, d.gasPrices, d.electricLoad)) =
    .ok ([some 10, some 100], [some 30, some 30], [some 0, some 0]) := by decide +kernel
example : (validateSiteData { electricityPrices := prices [10, 100], gasPrices := .scalar none }).toBool = false := by decide +kernel
example : (validateSiteData { electricityPrices := prices [10, 100], gasPrices := prices [1] }).toBool = false := by decide +kernel

/-! ### C31 -/

/-- The keyword arguments that are one dimensional sequences. -/
def sequences (kwargs : List (String × KwData)) : List (String × List ℚ) :=
  kwargs.filterMap (fun kw => match kw.2 with | .seq l => some (kw.1, l) | _ => none)

/-- The custom interval data of a site are its sequence keyword arguments, each repeated cyclically to the number of intervals;
everything else is ignored. -/
theorem C31_custom_data (assets : List Asset) (raw : RawSiteData) (freqMins il el : ℚ) (constraints : List Constraint)
    (kwargs : List (String × KwData)) (s : Site) (h : Site.new assets raw freqMins il el constraints kwargs = .ok s) :
    List.Forall₂ (fun (given : String × List ℚ) (kept : String × List ℚ) => kept.1 = given.1 ∧ kept.2.length = s.data.n ∧
      ∀ j < s.data.n, kept.2[j]? = cyclic given.2 j) (sequences kwargs) s.data.custom := by
  have hc := (site_new h).custom
  generalize s.data.custom = c at hc
  generalize s.data.n = n at hc
  clear h
  induction kwargs generalizing c with
  | nil => simp [customData] at hc; subst hc; exact .nil
  | cons kw kws ih =>
    obtain ⟨name, kd⟩ := kw
    cases kd with
    | seq l =>
      simp only [customData] at hc
      split at hc
      · simp at hc
      · simp only [bind_ok, Except.ok.injEq] at hc
        obtain ⟨l', hl', rest, hrest, rfl⟩ := hc
        have hne : l ≠ [] := by
          rintro rfl
          simp [repeatToMatchLength] at hl'
        obtain ⟨b, hb, hlen, hget⟩ := (C30_repeat l n).2 hne
        rw [hl', Except.ok.injEq] at hb
        subst hb
        exact .cons ⟨rfl, hlen, hget⟩ (ih _ hrest)
    | nested => exact ih _ hc
    | other => exact ih _ hc

example : (Site.new [] { electricityPrices := prices [10, 20, 30] } (kwargs := [("export_charge", .seq [1, 2]), ("other", .other)])).map
    (fun s => s.data.custom) = .ok [("export_charge", [1, 2, 1])] := by decide +kernel

end EPL
