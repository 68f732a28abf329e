/-
What the constructors of the assets accept.
-/
import Verif.Spec.Constructors
import Verif.Props.Standalone
import Verif.Props.Assets
import Verif.Proofs.EvTable

namespace EPL

/-- `epl.Boiler(...)` succeeds exactly with "boiler" in the name and an efficiency above zero and at most one. -/
theorem C74_boiler (name : String) (heatMax heatMin efficiency : ℚ) (c : BoilerCfg) :
    Boiler.new name heatMax heatMin efficiency = .ok c ↔
      Contains "boiler" name ∧ 0 < efficiency ∧ efficiency ≤ 1 ∧ c = ⟨name, heatMax, heatMin, efficiency⟩ := by
  unfold Boiler.new Contains
  simp only [bind_ok, pyValidate_ok, pyIn_iff]
  by_cases h : 0 < efficiency ∧ efficiency ≤ 1
  · simp [h, eq_comm]
  · rw [if_neg h]
    constructor
    · rintro ⟨_, _, h'⟩; cases h'
    · rintro ⟨_, h1, h2, _⟩; exact absurd ⟨h1, h2⟩ h

/-- `epl.CHP(...)` succeeds exactly with "chp" in the name; no efficiency is checked. -/
theorem C74_chp (electric powerMax powerMin ht lt : ℚ) (name : String) (freqMins : ℚ) (c : ChpCfg) :
    Chp.new electric powerMax powerMin ht lt name freqMins = .ok c ↔
      Contains "chp" name ∧ c = ⟨name, powerMax, powerMin, electric, ht, lt, freqMins⟩ := by
  unfold Chp.new Contains
  simp only [bind_ok, pyValidate_ok, pyIn_iff, Except.ok.injEq]
  exact ⟨fun ⟨_, h, e⟩ => ⟨h, e.symm⟩, fun ⟨h, e⟩ => ⟨(), h, e.symm⟩⟩

/-- `epl.Spill(...)` -/
theorem C74_spill (name : String) (c : SpillCfg) : Spill.new name = .ok c ↔ Contains "spill" name ∧ c = ⟨name⟩ := by
  unfold Spill.new Contains
  simp only [bind_ok, pyValidate_ok, pyIn_iff, Except.ok.injEq]
  exact ⟨fun ⟨_, h, e⟩ => ⟨h, e.symm⟩, fun ⟨h, e⟩ => ⟨(), h, e.symm⟩⟩

/-- `epl.Valve(...)` -/
theorem C74_valve (name : String) (c : ValveCfg) : Valve.new name = .ok c ↔ Contains "valve" name ∧ c = ⟨name⟩ := by
  unfold Valve.new Contains
  simp only [bind_ok, pyValidate_ok, pyIn_iff, Except.ok.injEq]
  exact ⟨fun ⟨_, h, e⟩ => ⟨h, e.symm⟩, fun ⟨h, e⟩ => ⟨(), h, e.symm⟩⟩

/-- `epl.RenewableGenerator(...)` succeeds exactly with some generation, none of it negative, a lower bound between zero and one, and a name
with "wind", "solar" or "renewable-generator" in it. -/
theorem C74_renewable (gen : GenInput) (lb : ℚ) (name : String) (freqMins : ℚ) (c : RenewableCfg) :
    Renewable.new gen lb name freqMins = .ok c ↔
      gen.values ≠ [] ∧ (∀ q ∈ gen.values, 0 ≤ q) ∧ 0 ≤ lb ∧ lb ≤ 1 ∧
      (Contains "wind" name ∨ Contains "solar" name ∨ Contains "renewable-generator" name) ∧
      c = { name, lowerBoundPct := lb, generation := gen.values, isArray := gen.listed, idxLen := gen.values.length,
            freqMins } := by
  have key : ∀ (data : List ℚ) (b : Bool), (if data = [] then Except.error (Err.validation "zero-size array to reduction operation minimum")
      else do
        pyValidate (data.all (fun q => decide (0 ≤ q))) "electric_generation_mwh"
        if ¬ (0 ≤ lb ∧ lb ≤ 1) then .error (.validation "electric_generation_lower_bound_pct")
        else
          pyValidate (pyIn "wind" name || pyIn "solar" name || pyIn "renewable-generator" name) "name"
          .ok { name, lowerBoundPct := lb, generation := data, isArray := b, idxLen := data.length, freqMins := freqMins }) = .ok c ↔
      data ≠ [] ∧ (∀ q ∈ data, 0 ≤ q) ∧ 0 ≤ lb ∧ lb ≤ 1 ∧
      (Contains "wind" name ∨ Contains "solar" name ∨ Contains "renewable-generator" name) ∧
      c = { name, lowerBoundPct := lb, generation := data, isArray := b, idxLen := data.length, freqMins } := by
    intro data b
    unfold Contains
    simp only [← pyIn_iff]
    by_cases h0 : data = []
    · simp [h0]
    · rw [if_neg h0]
      simp only [bind_ok, pyValidate_ok, List.all_eq_true, decide_eq_true_eq]
      by_cases h2 : 0 ≤ lb ∧ lb ≤ 1
      · rw [if_neg (not_not.2 h2)]
        simp only [bind_ok, pyValidate_ok, Except.ok.injEq, Bool.or_eq_true, or_assoc]
        exact ⟨fun ⟨_, h3, _, h4, e⟩ => ⟨h0, h3, h2.1, h2.2, h4, e.symm⟩, fun ⟨_, h3, _, _, h4, e⟩ => ⟨(), h3, (), h4, e.symm⟩⟩
      · rw [if_pos h2]
        constructor
        · rintro ⟨_, _, h⟩; cases h
        · rintro ⟨_, _, h3, h4, _⟩; exact absurd ⟨h3, h4⟩ h2
  cases gen with
  | scalar q =>
    have := key [q] false
    simpa only [Renewable.new, GenInput.values, GenInput.listed] using this
  | array l =>
    have := key l true
    simpa only [Renewable.new, GenInput.values, GenInput.listed] using this

/-- `epl.EVs(...)` succeeds exactly when its arguments fit together, and keeps them. -/
theorem C74_evs (a : EvArgs) (c : EvsCfg) : a.make = .ok c ↔ ∃ n, a.Fit n ∧ a.Kept n c := by
  have zipGet : ∀ {α β : Type} (l : List α) (f : α × Nat → β) (k : Nat), (l.zipIdx.map f)[k]? = (l[k]?).map (fun x => f (x, k)) := by
    intro α β l f k
    rw [List.getElem?_map, List.getElem?_zipIdx, Option.map_map]
    simp [Function.comp_def]
  obtain ⟨ce, powers, caps, eff, td, name, fm⟩ := a
  constructor
  · intro h
    cases ce with
    | nil => simp [EvArgs.make, Evs.new, bind_ok] at h
    | cons row rows =>
      simp only [EvArgs.make, Evs.new] at h
      split at h
      · rename_i hall
        simp only [bind_ok, pyValidate_ok, decide_eq_true_eq, Except.ok.injEq, List.length_map, List.length_zipIdx] at h
        obtain ⟨_, hw, _, hlen, rfl⟩ := h
        refine ⟨row.length, ⟨by simp, ?_, hlen, pyIn_iff.1 hw⟩, ⟨rfl, rfl, ?_, ?_, rfl, ?_, ?_⟩⟩
        · intro r hr
          rcases List.mem_cons.1 hr with rfl | hr
          · rfl
          · simpa using List.all_eq_true.1 hall r hr
        · intro k; rw [zipGet]; rfl
        · intro k; rw [zipGet]; rfl
        · simp [transpose]
        · intro i hi
          simp only [transpose, List.getElem?_map, List.getElem?_range hi, Option.map_some, Option.some.injEq]
          apply List.ext_getElem?
          intro e
          rw [List.getElem?_map, List.getElem?_map]
          by_cases he : e < caps.length
          · have he' : e < (row :: rows).length := by rw [← hlen]; exact he
            rw [List.getElem?_range he, List.getElem?_eq_getElem he']
            simp only [Option.map_some, EvArgs.present]
            rw [List.getD_eq_getElem?_getD (l := row :: rows), List.getElem?_eq_getElem he']
            rfl
          · have he' : (row :: rows).length ≤ e := by rw [← hlen]; omega
            rw [List.getElem?_eq_none (l := List.range _) (by simpa using Nat.le_of_not_lt he), List.getElem?_eq_none he']
            rfl
      · simp at h
  · rintro ⟨n, hf, hk⟩
    cases ce with
    | nil => exact absurd rfl hf.some
    | cons row rows =>
      have hrow : row.length = n := hf.rows row (by simp)
      have hall : rows.all (fun r => r.length == row.length) = true := by
        rw [List.all_eq_true]
        intro r hr
        have := hf.rows r (by simp [hr])
        simp [this, hrow]
      have hcap : caps.length = (row :: rows).length := hf.capacities
      simp only [EvArgs.make, Evs.new, hall, if_true]
      simp only [bind_ok, pyValidate_ok, decide_eq_true_eq, Except.ok.injEq, List.length_map, List.length_zipIdx]
      refine ⟨(), pyIn_iff.2 hf.name, (), hcap, ?_⟩
      obtain ⟨cname, cch, csp, cev, cce, cfm⟩ := c
      have e1 := hk.name
      have e2 := hk.freqMins
      have e3 := hk.chargers
      have e4 := hk.events
      have e5 := hk.spill
      have e6 := hk.intervals
      have e7 := hk.present
      simp only at e1 e2 e3 e4 e5 e6 e7
      subst e1 e2 e5
      simp only [EvsCfg.mk.injEq, true_and, and_true]
      refine ⟨?_, rfl, ?_, ?_⟩
      · apply List.ext_getElem?
        intro k; rw [e3, zipGet]; rfl
      · apply List.ext_getElem?
        intro k; rw [e4, zipGet]; rfl
      · apply List.ext_getElem?
        intro i
        by_cases hi : i < n
        · rw [e7 i hi]
          simp only [transpose, hrow, List.getElem?_map, List.getElem?_range hi, Option.map_some, Option.some.injEq]
          apply List.ext_getElem?
          intro e
          rw [List.getElem?_map, List.getElem?_map]
          by_cases he : e < caps.length
          · have he' : e < (row :: rows).length := by rw [← hcap]; exact he
            rw [List.getElem?_range he, List.getElem?_eq_getElem he']
            simp only [Option.map_some, EvArgs.present]
            rw [List.getD_eq_getElem?_getD (l := row :: rows), List.getElem?_eq_getElem he']
            rfl
          · have he' : (row :: rows).length ≤ e := by rw [← hcap]; omega
            rw [List.getElem?_eq_none (l := List.range _) (by simpa using Nat.le_of_not_lt he), List.getElem?_eq_none he']
            rfl
        · rw [List.getElem?_eq_none (by simp [transpose, hrow]; omega), List.getElem?_eq_none (by rw [e6]; omega)]

/-- A stand-alone `epl.EVs(...)` with prices refuses charge events that do not span the horizon or are never plugged in. -/
theorem C74_evs_alone {a : EvArgs} {c : EvsCfg} (ha : a.make = .ok c) {args : SiteArgs} {withSpill : Bool} {s : Site}
    (h : standaloneEvs c args withSpill = .ok (some s)) :
    (∀ row ∈ a.chargeEvents, row.length = s.data.n) ∧ ∀ row ∈ a.chargeEvents, 0 < row.sum := by
  obtain ⟨n, hf, hk⟩ := (C74_evs a c).1 ha
  have hv := (C58_evs h).2
  have hn : s.data.n = n := hv.1.trans hk.intervals
  refine ⟨fun row hr => by rw [hn]; exact hf.rows row hr, ?_⟩
  intro row hr
  obtain ⟨e, he, rfl⟩ := List.getElem_of_mem hr
  have heE : e < c.events.length := by
    rw [(ev_made ha).events_length, hf.capacities]; exact he
  have hpos := hv.2 e heE
  have : c.chargeEvents.map (fun row => row.getD e 0) = a.chargeEvents[e] := by
    apply List.ext_getElem?
    intro i
    rw [List.getElem?_map]
    have hlen := hf.rows _ (List.getElem_mem he)
    by_cases hi : i < n
    · rw [hk.present i hi, Option.map_some, List.getElem?_eq_getElem (by rw [hlen]; exact hi)]
      rw [List.getD_eq_getElem?_getD, List.getElem?_map, List.getElem?_range (by rw [hf.capacities]; exact he)]
      simp only [Option.map_some, Option.getD_some, EvArgs.present, List.getD_eq_getElem?_getD, List.getElem?_eq_getElem he]
      rw [List.getElem?_eq_getElem (by rw [hlen]; exact hi)]
      rfl
    · rw [List.getElem?_eq_none (by rw [hk.intervals]; omega), List.getElem?_eq_none (by rw [hlen]; omega)]
      rfl
  rw [this] at hpos
  exact hpos

/-! ### Concrete cases -/

example : ∃ c, Boiler.new "gas-boiler-2" 5 1 (9/10) = .ok c := ⟨_, (C74_boiler _ _ _ _ _).2 ⟨⟨"gas-".toList, "-2".toList, by decide +kernel⟩, by norm_num, by norm_num, rfl⟩⟩
example : ¬ ∃ c, Boiler.new "boiler" 5 1 (11/10) = .ok c := fun ⟨_, h⟩ => by have := ((C74_boiler _ _ _ _ _).1 h).2.2.1; norm_num at this
example : ∃ c, Chp.new 0 10 0 3 0 "chp-1" 60 = .ok c := ⟨_, (C74_chp _ _ _ _ _ _ _ _).2 ⟨⟨[], "-1".toList, by decide +kernel⟩, rfl⟩⟩
example : ∃ c, Renewable.new (.array [3, 0]) (1/2) "roof-solar" 60 = .ok c :=
  ⟨_, (C74_renewable _ _ _ _ _).2 ⟨by simp [GenInput.values], by simp [GenInput.values], by norm_num, by norm_num,
    .inr (.inl ⟨"roof-".toList, [], by decide +kernel⟩), rfl⟩⟩

/-- The fleet of `demoEvs`: two events over two intervals. -/
example : ∃ a : EvArgs, a.make = .ok demoEvsCfg ∧ a.Fit 2 ∧ a.Kept 2 demoEvsCfg := by
  have h : (⟨[[1, 0], [0, 1]], [4], [2, 1], 1/2, 1/10, "evs", Defaults.freqMins⟩ : EvArgs).make = .ok demoEvsCfg := by decide +kernel
  obtain ⟨n, hf, hk⟩ := (C74_evs _ _).1 h
  have hn : n = 2 := hk.intervals.symm
  subst hn
  exact ⟨_, h, hf, hk⟩

end EPL
