/-
EVs: from the variables to the columns and the schedule.
-/
import Verif.Proofs.EvsFacts
import Verif.Spec.Evs

namespace EPL

/-- What `EVs(...)` stores. -/
structure EvMade (a : EvArgs) (c : EvsCfg) : Prop where
  name : c.name = a.name
  well : pyIn "evs" a.name = true
  chargers : c.chargers = a.powers.zipIdx.map (fun p => ⟨"charger-" ++ toString p.2, p.1, p.1 * a.turndown⟩)
  spill : c.spillChargers = [⟨"charger-spill-" ++ a.name, 10000, 0⟩]
  events : c.events = a.capacities.zipIdx.map (fun p => ⟨"charge-event-" ++ toString p.2, p.1, a.efficiency⟩)
  present : ∀ i < c.chargeEvents.length, ∀ e, c.present i e = a.present i e
  rows : ∀ i < c.chargeEvents.length, ∀ row ∈ c.chargeEvents[i]?, row.length = c.events.length

theorem ev_made {a : EvArgs} {c : EvsCfg} (h : a.make = .ok c) : EvMade a c := by
  unfold EvArgs.make Evs.new at h
  cases hce : a.chargeEvents with
  | nil =>
    rw [hce] at h
    simp [bind_ok] at h
  | cons row rows =>
    rw [hce] at h
    simp only at h
    split at h
    · rename_i hall
      simp only [bind_ok, pyValidate_ok, decide_eq_true_eq, Except.ok.injEq] at h
      obtain ⟨_, hw, _, hlen, rfl⟩ := h
      refine ⟨rfl, hw, rfl, rfl, rfl, ?_, ?_⟩
      · intro i hi e
        simp only [transpose, List.length_map, List.length_range] at hi
        simp only [EvsCfg.present, EvArgs.present, transpose, hce]
        simp only [List.getD_eq_getElem?_getD, List.getElem?_map, List.getElem?_range hi, Option.map_some, Option.getD_some]
        cases (row :: rows)[e]? <;> simp
      · intro i hi r hr
        simp only [transpose, List.length_map, List.length_range] at hi
        simp only [transpose, List.getElem?_map, List.getElem?_range hi, Option.map_some, Option.mem_def, Option.some.injEq] at hr
        rw [← hr, List.length_map, ← hlen]
    · simp at h

namespace EvMade
variable {a : EvArgs} {c : EvsCfg} (h : EvMade a c)
include h

theorem charger {k : Nat} {power : ℚ} (hk : a.powers[k]? = some power) :
    c.chargers[k]? = some ⟨"charger-" ++ toString k, power, power * a.turndown⟩ := by
  rw [h.chargers, List.getElem?_map, List.getElem?_zipIdx, hk]
  simp

theorem event {e : Nat} {q : ℚ} (he : a.capacities[e]? = some q) :
    c.events[e]? = some ⟨"charge-event-" ++ toString e, q, a.efficiency⟩ := by
  rw [h.events, List.getElem?_map, List.getElem?_zipIdx, he]
  simp

theorem events_length : c.events.length = a.capacities.length := by rw [h.events]; simp

theorem chargers_length : c.chargers.length = a.powers.length := by rw [h.chargers]; simp

theorem sum_chargers (g : String → ℚ) :
    (c.chargers.map (fun ch => g ch.name)).sum = sumTo a.powers.length (fun k => g ("charger-" ++ toString k)) := by
  rw [h.chargers, List.map_map, sumTo]
  congr 1
  apply List.ext_getElem?
  intro k
  by_cases hk : k < a.powers.length
  · simp [hk]
  · simp [Nat.le_of_not_lt hk]

end EvMade

section
variable {s : Site} {objective : Objective} {flags : Flags} {S : Solver} {r : SimResult} {V : String → Nat → ℚ} {p : Prob}
  {σ : Assign} {c : EvsCfg} {i : Nat}

theorem ev_cell (h : Core s objective flags S r V p σ) (hc : Asset.evs c ∈ s.assets) (hw : pyIn "evs" c.name = true)
    (hi : i < s.data.n) {x : String × ℚ} (hx : x ∈ c.cells i s.freq flags σ) (hk : x.1 ∉ totalKeys) : V x.1 i = x.2 := by
  obtain ⟨_, hrow⟩ := (h.prog.buildable hi hc : c.Shape ∧ c.HasRow i)
  refine h.asset_cell hi hc ?_ hk
  rw [cells_evs (hrow.matOk _), if_pos hw]
  exact hx

/-- A charger column: the sum over the charge events. -/
theorem ev_charger_cell (h : Core s objective flags S r V p σ) (hc : Asset.evs c ∈ s.assets) (hw : pyIn "evs" c.name = true)
    (hi : i < s.data.n) {ch : ChargerCfg} (hch : ch ∈ c.chargers) :
    V (c.name ++ "-" ++ ch.name ++ "-" ++ "electric_charge_mwh") i = c.sumEvents (fun e => c.chargeOf flags σ i e ch.name false) ∧
    V (c.name ++ "-" ++ ch.name ++ "-" ++ "electric_charge_binary") i = c.sumEvents (fun e => c.chargeBinOf flags σ i e ch.name false) ∧
    V (c.name ++ "-" ++ ch.name ++ "-" ++ "electric_discharge_mwh") i = c.sumEvents (fun e => c.dischargeOf flags σ i e ch.name) ∧
    V (c.name ++ "-" ++ ch.name ++ "-" ++ "electric_discharge_binary") i = c.sumEvents (fun e => c.dischargeBinOf flags σ i e ch.name) ∧
    V (c.name ++ "-" ++ ch.name ++ "-" ++ "electric_loss_mwh") i = c.sumEvents (fun e => c.lossOf σ i e ch.name false) := by
  obtain ⟨_, hrow⟩ := (h.prog.buildable hi hc : c.Shape ∧ c.HasRow i)
  obtain ⟨k, hk⟩ := List.mem_iff_getElem?.1 hch
  have key : ∀ attr ∈ evCols, V (c.name ++ "-" ++ ch.name ++ "-" ++ attr) i =
      ((List.range c.events.length).map (fun e => (((c.array i s.freq flags).get2 attr) e k).eval σ)).sum := by
    intro attr hat
    refine ev_cell h hc hw hi (x := (c.name ++ "-" ++ ch.name ++ "-" ++ attr, _)) ?_ (double_key ?_)
    · unfold EvsCfg.cells
      refine List.mem_append_left _ (List.mem_append_left _ (List.mem_append_left _ ?_))
      unfold evChargerCells
      refine List.mem_flatMap.2 ⟨(ch, k), mem_zipIdx_iff.2 hk, List.mem_map.2 ⟨attr, hat, rfl⟩⟩
    · revert attr; decide
  refine ⟨?_, ?_, ?_, ?_, ?_⟩
  · rw [key "electric_charge_mwh" (by decide)]
    exact sum_col (g := fun ev e ch k => (c.obj i s.freq flags true true false ev e ch k).charge)
      (val := fun e => c.chargeOf flags σ i e ch.name false) hk (fun ev e he => obj_charge hrow he ..)
  · rw [key "electric_charge_binary" (by decide)]
    exact sum_col (g := fun ev e ch k => (c.obj i s.freq flags true true false ev e ch k).chargeBin)
      (val := fun e => c.chargeBinOf flags σ i e ch.name false) hk (fun ev e he => obj_chargeBin hrow he ..)
  · rw [key "electric_discharge_mwh" (by decide)]
    exact sum_col (g := fun ev e ch k => (c.obj i s.freq flags true true false ev e ch k).discharge)
      (val := fun e => c.dischargeOf flags σ i e ch.name) hk (fun ev e he => obj_discharge ..)
  · rw [key "electric_discharge_binary" (by decide)]
    exact sum_col (g := fun ev e ch k => (c.obj i s.freq flags true true false ev e ch k).dischargeBin)
      (val := fun e => c.dischargeBinOf flags σ i e ch.name) hk (fun ev e he => obj_dischargeBin ..)
  · rw [key "electric_loss_mwh" (by decide)]
    exact sum_col (g := fun ev e ch k => (c.obj i s.freq flags true true false ev e ch k).loss)
      (val := fun e => c.lossOf σ i e ch.name false) hk (fun ev e he => obj_loss ..)

/-- A spill charger column. -/
theorem ev_spill_cell (h : Core s objective flags S r V p σ) (hc : Asset.evs c ∈ s.assets) (hw : pyIn "evs" c.name = true)
    (hi : i < s.data.n) {ch : ChargerCfg} (hch : ch ∈ c.spillChargers) :
    V (c.name ++ "-" ++ ch.name ++ "-" ++ "electric_charge_mwh") i = c.sumEvents (fun e => c.chargeOf flags σ i e ch.name true) ∧
    V (c.name ++ "-" ++ ch.name ++ "-" ++ "electric_discharge_mwh") i = 0 ∧
    V (c.name ++ "-" ++ ch.name ++ "-" ++ "electric_discharge_binary") i = 0 ∧
    V (c.name ++ "-" ++ ch.name ++ "-" ++ "electric_loss_mwh") i = c.sumEvents (fun e => c.lossOf σ i e ch.name true) ∧
    V (c.name ++ "-" ++ ch.name ++ "-" ++ "electric_charge_binary") i = c.sumEvents (fun e => c.chargeBinOf flags σ i e ch.name true) := by
  obtain ⟨_, hrow⟩ := (h.prog.buildable hi hc : c.Shape ∧ c.HasRow i)
  obtain ⟨k, hk⟩ := List.mem_iff_getElem?.1 hch
  have key : ∀ attr ∈ evCols, V (c.name ++ "-" ++ ch.name ++ "-" ++ attr) i =
      ((List.range c.events.length).map (fun e => (((c.spillArray i s.freq flags).get2 attr) e k).eval σ)).sum := by
    intro attr hat
    refine ev_cell h hc hw hi (x := (c.name ++ "-" ++ ch.name ++ "-" ++ attr, _)) ?_ (double_key ?_)
    · unfold EvsCfg.cells
      refine List.mem_append_right _ ?_
      unfold evChargerCells
      refine List.mem_flatMap.2 ⟨(ch, k), mem_zipIdx_iff.2 hk, List.mem_map.2 ⟨attr, hat, rfl⟩⟩
    · revert attr; decide
  refine ⟨?_, ?_, ?_, ?_, ?_⟩
  · rw [key "electric_charge_mwh" (by decide)]
    exact sum_col (g := fun ev e ch k => (c.obj i s.freq flags false false true ev e ch k).charge)
      (val := fun e => c.chargeOf flags σ i e ch.name true) hk (fun ev e he => obj_charge hrow he ..)
  · rw [key "electric_discharge_mwh" (by decide)]
    refine (sum_col (c := c) (g := fun ev e ch k => (c.obj i s.freq flags false false true ev e ch k).discharge)
      (val := fun _ => 0) hk (fun ev e he => obj_discharge_spill ..)).trans (by simp [EvsCfg.sumEvents])
  · rw [key "electric_discharge_binary" (by decide)]
    refine (sum_col (c := c) (g := fun ev e ch k => (c.obj i s.freq flags false false true ev e ch k).dischargeBin)
      (val := fun _ => 0) hk (fun ev e he => obj_dischargeBin_spill ..)).trans (by simp [EvsCfg.sumEvents])
  · rw [key "electric_loss_mwh" (by decide)]
    exact sum_col (g := fun ev e ch k => (c.obj i s.freq flags false false true ev e ch k).loss)
      (val := fun e => c.lossOf σ i e ch.name true) hk (fun ev e he => obj_loss ..)
  · rw [key "electric_charge_binary" (by decide)]
    exact sum_col (g := fun ev e ch k => (c.obj i s.freq flags false false true ev e ch k).chargeBin)
      (val := fun e => c.chargeBinOf flags σ i e ch.name true) hk (fun ev e he => obj_chargeBin hrow he ..)

/-- A charge event column: the sum over the chargers. -/
theorem ev_event_cell (h : Core s objective flags S r V p σ) (hc : Asset.evs c ∈ s.assets) (hw : pyIn "evs" c.name = true)
    (hi : i < s.data.n) {e : Nat} {ev : ChargeEventCfg} (he : c.events[e]? = some ev) :
    V (c.name ++ "-" ++ ev.name ++ "-" ++ "electric_charge_mwh") i = c.eventCharge flags σ i e ∧
    V (c.name ++ "-" ++ ev.name ++ "-" ++ "electric_discharge_mwh") i = c.eventDischarge flags σ i e ∧
    V (c.name ++ "-" ++ ev.name ++ "-" ++ "electric_loss_mwh") i = (c.chargers.map (fun ch => c.lossOf σ i e ch.name false)).sum ∧
    V (c.name ++ "-charge-event-" ++ toString e ++ "-" ++ "initial_soc_mwh") i = c.initialSocOf σ i ev ∧
    V (c.name ++ "-charge-event-" ++ toString e ++ "-" ++ "final_soc_mwh") i = c.finalSocOf σ i ev := by
  obtain ⟨_, hrow⟩ := (h.prog.buildable hi hc : c.Shape ∧ c.HasRow i)
  have key : ∀ attr ∈ evEventCols, V (c.name ++ "-" ++ ev.name ++ "-" ++ attr) i =
      ((List.range c.chargers.length).map (fun k => (((c.array i s.freq flags).get2 attr) e k).eval σ)).sum := by
    intro attr hat
    refine ev_cell h hc hw hi (x := (c.name ++ "-" ++ ev.name ++ "-" ++ attr, _)) ?_ (double_key ?_)
    · unfold EvsCfg.cells
      refine List.mem_append_left _ (List.mem_append_left _ (List.mem_append_right _ ?_))
      unfold evEventCells
      refine List.mem_flatMap.2 ⟨(ev, e), mem_zipIdx_iff.2 he, List.mem_map.2 ⟨attr, hat, rfl⟩⟩
    · revert attr; decide
  have hd : c.name ++ "-charge-event-" ++ toString e = c.name ++ "-" ++ ("charge-event-" ++ toString e) := by
    rw [str_eq_iff]; simp [String.toList_append]
  refine ⟨?_, ?_, ?_, ?_, ?_⟩
  · rw [key "electric_charge_mwh" (by decide)]
    exact sum_row (g := fun ev e ch k => (c.obj i s.freq flags true true false ev e ch k).charge)
      (val := fun ch => c.chargeOf flags σ i e ch.name false) he (fun ch k => obj_charge hrow he ..)
  · rw [key "electric_discharge_mwh" (by decide)]
    exact sum_row (g := fun ev e ch k => (c.obj i s.freq flags true true false ev e ch k).discharge)
      (val := fun ch => c.dischargeOf flags σ i e ch.name) he (fun ch k => obj_discharge ..)
  · rw [key "electric_loss_mwh" (by decide)]
    exact sum_row (g := fun ev e ch k => (c.obj i s.freq flags true true false ev e ch k).loss)
      (val := fun ch => c.lossOf σ i e ch.name false) he (fun ch k => obj_loss ..)
  · refine (ev_cell h hc hw hi (x := (c.name ++ "-charge-event-" ++ toString e ++ "-" ++ "initial_soc_mwh", _)) ?_ ?_).trans
      (?_ : ((c.array i s.freq flags).initialSoc e).eval σ = _)
    · unfold EvsCfg.cells evSocCells
      refine List.mem_append_left _ (List.mem_append_right _ (List.mem_append_left _ ?_))
      exact List.mem_map.2 ⟨e, List.mem_range.2 (event_lt he), rfl⟩
    · rw [hd]; exact double_key (by decide)
    · simp [EvsCfg.array, arr1, he, Val.eval, EvsCfg.initialSocOf, EvsCfg.socVar, continuous]
  · refine (ev_cell h hc hw hi (x := (c.name ++ "-charge-event-" ++ toString e ++ "-" ++ "final_soc_mwh", _)) ?_ ?_).trans
      (?_ : ((c.array i s.freq flags).finalSoc e).eval σ = _)
    · unfold EvsCfg.cells evSocCells
      refine List.mem_append_left _ (List.mem_append_right _ (List.mem_append_right _ ?_))
      exact List.mem_map.2 ⟨e, List.mem_range.2 (event_lt he), rfl⟩
    · rw [hd]; exact double_key (by decide)
    · simp [EvsCfg.array, arr1, he, Val.eval, EvsCfg.finalSocOf, EvsCfg.socVar, continuous]

end

end EPL
