/-
The columns of the loss and spill totals.
-/
import Verif.Props.PlotEvs
import Verif.Spec.Losses

namespace EPL

theorem evs_keys {c : EvsCfg} (hw : (Asset.evs c).WellNamed) :
    (Asset.evs c).keys = c.chargerColumns ++ c.eventColumns ++ c.socColumns ++ c.spillColumns := by
  have hn : pyIn "evs" c.name = true := hw.1
  simp only [Asset.keys, hn, if_true]
  rw [(evs_names hw (fun n => evCols.map (fun attr => c.name ++ "-" ++ n ++ "-" ++ attr))).1,
    (evs_names hw (fun n => evCols.map (fun attr => c.name ++ "-" ++ n ++ "-" ++ attr))).2.1,
    (evs_names hw (fun n => evEventCols.map (fun attr => c.name ++ "-" ++ n ++ "-" ++ attr))).2.2]
  have e1 : ∀ x y : String, c.name ++ "-" ++ (x ++ y) = c.name ++ "-" ++ x ++ y := fun x y => by
    rw [str_eq_iff]; simp [String.toList_append]
  congr 1
  · congr 1
    · congr 1
      · apply List.flatMap_congr
        intro k _
        have e : c.name ++ "-" ++ ("charger-" ++ toString k) = c.name ++ "-charger-" ++ toString k := by
          rw [str_eq_iff]; simp [String.toList_append]
        rw [e]; rfl
      · apply List.flatMap_congr
        intro k _
        have e : c.name ++ "-" ++ ("charge-event-" ++ toString k) = c.name ++ "-charge-event-" ++ toString k := by
          rw [str_eq_iff]; simp [String.toList_append]
        rw [e]; rfl
    · unfold EvsCfg.socColumns
      congr 1 <;> apply List.map_congr_left <;> intro e _ <;> rw [String.append_assoc] <;> rfl
  · have e : c.name ++ "-" ++ ("charger-spill-" ++ c.name) = c.name ++ "-charger-spill-" ++ c.name := by
      rw [str_eq_iff]; simp [String.toList_append]
    rw [e]; rfl

/-- `"evs-charger" in a-b` -/
theorem pyIn_evsCharger {a b : String} : pyIn "evs-charger" (a ++ "-" ++ b) = true ↔
    pyIn "evs-charger" a = true ∨ (pyEndsWith a "evs" = true ∧ pyStartsWith b "charger" = true) ∨ pyIn "evs-charger" b = true := by
  rw [pyIn_iff, pyIn_iff, pyIn_iff, toList_dash]
  simp only [pyEndsWith, pyStartsWith, decide_eq_true_eq]
  have := infix_mid (d := '-') (u := "evs".toList) (v := "charger".toList) (a := a.toList) (b := b.toList) (by decide) (by decide)
  exact this

theorem evsCharger_word {b : String} (h : NoDash b) : pyIn "evs-charger" b = false := by
  rw [← Bool.not_eq_true, pyIn_iff]
  rintro ⟨x, y, he⟩
  exact h (by rw [← he]; simp)

theorem charger_evsCharger {n : String} (hn : pyIn "evs-charger" n = false) (k : Nat) {q : String} (hq : NoDash q)
    (hs : pyStartsWith q "charger" = false) :
    pyIn "evs-charger" (n ++ "-charger-" ++ toString k ++ "-" ++ q) = pyEndsWith n "evs" := by
  have e : n ++ "-charger-" ++ toString k ++ "-" ++ q = n ++ "-" ++ "charger" ++ "-" ++ toString k ++ "-" ++ q := by
    rw [str_eq_iff]; simp [String.toList_append]
  have hk : NoDash (toString k) := by
    intro hd
    have := toString_digits k _ hd
    exact absurd this (by decide)
  have hks : pyStartsWith (toString k) "charger" = false := by
    rw [← Bool.not_eq_true]
    simp only [pyStartsWith, decide_eq_true_eq]
    intro h
    have := digits_word "charger" ⟨'c', by decide, by decide⟩ k
    rw [← Bool.not_eq_true, pyIn_iff] at this
    exact this h.isInfix
  have h1 : pyEndsWith (n ++ "-" ++ "charger") "evs" = false := by rw [ends_word (by decide)]; decide +kernel
  rw [e, Bool.eq_iff_iff, pyIn_evsCharger, pyIn_evsCharger, pyIn_evsCharger, evsCharger_word hq, evsCharger_word hk, hn,
    evsCharger_word (b := "charger") (by decide), hs, hks]
  have : pyStartsWith "charger" "charger" = true := by decide +kernel
  simp [this]

theorem event_evsCharger {n : String} (hn : pyIn "evs-charger" n = false) (k : Nat) {q : String} (hq : NoDash q)
    (hs : pyStartsWith q "charger" = false) :
    pyIn "evs-charger" (n ++ "-charge-event-" ++ toString k ++ "-" ++ q) = false := by
  have e : n ++ "-charge-event-" ++ toString k ++ "-" ++ q = n ++ "-" ++ "charge" ++ "-" ++ "event" ++ "-" ++ toString k ++ "-" ++ q := by
    rw [str_eq_iff]; simp [String.toList_append]
  have hk : NoDash (toString k) := by
    intro hd
    have := toString_digits k _ hd
    exact absurd this (by decide)
  have hks : pyStartsWith (toString k) "charger" = false := by
    rw [← Bool.not_eq_true]
    simp only [pyStartsWith, decide_eq_true_eq]
    intro h
    have := digits_word "charger" ⟨'c', by decide, by decide⟩ k
    rw [← Bool.not_eq_true, pyIn_iff] at this
    exact this h.isInfix
  rw [e, ← Bool.not_eq_true, pyIn_evsCharger, pyIn_evsCharger, pyIn_evsCharger, pyIn_evsCharger, evsCharger_word hq, evsCharger_word hk, hn,
    evsCharger_word (b := "charge") (by decide), evsCharger_word (b := "event") (by decide), hs, hks]
  have h1 : pyStartsWith "charge" "charger" = false := by decide +kernel
  have h2 : pyStartsWith "event" "charger" = false := by decide +kernel
  simp [h1, h2]

theorem spill_evsCharger {n : String} (hn : pyIn "evs-charger" n = false) {q : String} (hq : NoDash q)
    (hs : pyStartsWith q "charger" = false) :
    pyIn "evs-charger" (n ++ "-charger-spill-" ++ n ++ "-" ++ q) = pyEndsWith n "evs" := by
  have e : n ++ "-charger-spill-" ++ n ++ "-" ++ q = n ++ "-" ++ ("charger" ++ "-" ++ ("spill" ++ "-" ++ n)) ++ "-" ++ q := by
    rw [str_eq_iff]; simp [String.toList_append]
  have h1 : pyEndsWith "spill" "evs" = false := by decide +kernel
  have h2 : pyEndsWith "charger" "evs" = false := by decide +kernel
  have h3 : pyStartsWith ("charger" ++ "-" ++ ("spill" ++ "-" ++ n)) "charger" = true := by
    simp only [pyStartsWith, decide_eq_true_eq, String.toList_append]
    exact ⟨_, by rw [List.append_assoc]⟩
  rw [e, Bool.eq_iff_iff, pyIn_evsCharger, pyIn_evsCharger, pyIn_evsCharger, pyIn_evsCharger, evsCharger_word hq, hn,
    evsCharger_word (b := "charger") (by decide), evsCharger_word (b := "spill") (by decide), hs, h1, h2, h3]
  simp

/-! ### Losses -/

theorem loss_word (u q : String) : pyIn "electric_loss_mwh" (u ++ "-" ++ q) = (pyIn "electric_loss_mwh" u || pyIn "electric_loss_mwh" q) :=
  pyIn_word (by decide)

theorem plain_loss {n : String} (h1 : pyIn "electric_loss_mwh" n = false) {qs : List String} (hq : ∀ q ∈ qs, pyIn "electric_loss_mwh" q = false) :
    (qs.map (fun q => n ++ "-" ++ q)).filter isTotalLossColumn = [] := by
  apply unit_filter_none
  intro q hm
  rw [isTotalLossColumn, loss_word, h1, hq q hm]
  rfl

theorem word_charger (u : String) {w : String} (hw : NoDash w) (hc : pyIn w "charger" = false) (hd : ∃ c ∈ w.toList, c.isDigit = false) (k : Nat) :
    pyIn w (u ++ "-charger-" ++ toString k) = pyIn w u := by
  have e : u ++ "-charger-" ++ toString k = u ++ "-" ++ "charger" ++ "-" ++ toString k := by
    rw [str_eq_iff]; simp [String.toList_append]
  rw [e, pyIn_word hw, pyIn_word hw, hc, digits_word w hd]
  simp

theorem word_event (u : String) {w : String} (hw : NoDash w) (hc : pyIn w "charge" = false) (he : pyIn w "event" = false)
    (hd : ∃ c ∈ w.toList, c.isDigit = false) (k : Nat) : pyIn w (u ++ "-charge-event-" ++ toString k) = pyIn w u := by
  have e : u ++ "-charge-event-" ++ toString k = u ++ "-" ++ "charge" ++ "-" ++ "event" ++ "-" ++ toString k := by
    rw [str_eq_iff]; simp [String.toList_append]
  rw [e, pyIn_word hw, pyIn_word hw, pyIn_word hw, hc, he, digits_word w hd]
  simp

theorem word_spill (u : String) {w : String} (hw : NoDash w) (hc : pyIn w "charger" = false) :
    pyIn w (u ++ "-charger-spill-" ++ u) = (pyIn w u || pyIn w "spill") := by
  have e : u ++ "-charger-spill-" ++ u = u ++ "-" ++ "charger" ++ "-" ++ "spill" ++ "-" ++ u := by
    rw [str_eq_iff]; simp [String.toList_append]
  rw [e, pyIn_word hw, pyIn_word hw, pyIn_word hw, hc]
  cases pyIn w u <;> simp

theorem flatMap_filter_one {n : Nat} {g : Nat → List String} {f : Nat → String} {P : String → Bool} (h : ∀ k, (g k).filter P = [f k]) :
    ((List.range n).flatMap g).filter P = (List.range n).map f := by
  rw [List.filter_flatMap, List.map_eq_flatMap]
  exact List.flatMap_congr (fun k _ => h k)

theorem flatMap_filter_none {n : Nat} {g : Nat → List String} {P : String → Bool} (h : ∀ k, (g k).filter P = []) :
    ((List.range n).flatMap g).filter P = [] := by
  rw [List.filter_flatMap, List.flatMap_eq_nil_iff]
  exact fun k _ => h k

/-- The columns of an asset that count as losses. -/
theorem keys_loss {a : Asset} (hw : a.WellNamed) (h1 : pyIn "electric_loss_mwh" a.name = false) (h2 : pyIn "evs-charger" a.name = false) :
    a.keys.filter isTotalLossColumn = a.lossColumns := by
  cases a with
  | battery c =>
    refine (unit_filter (P := isTotalLossColumn) (u := c.name) (qs := batteryCols) (q0 := "electric_loss_mwh") ?_ (by decide +kernel)).trans
      (by rw [← dashed]; rfl)
    intro q hq
    have h3 : ∀ q ∈ batteryCols, NoDash q ∧ pyStartsWith q "charger" = false ∧ pyIn "electric_loss_mwh" q = decide (q = "electric_loss_mwh") := by
      decide +kernel
    obtain ⟨d1, d2, d3⟩ := h3 q hq
    have : pyIn "evs-charger" (c.name ++ "-" ++ q) = false := by
      rw [← Bool.not_eq_true, pyIn_evsCharger, evsCharger_word d1, d2]
      have : pyIn "evs-charger" c.name = false := h2
      simp [this]
    have h1' : pyIn "electric_loss_mwh" c.name = false := h1
    rw [isTotalLossColumn, loss_word, h1', this, d3]
    simp
  | boiler c => exact plain_loss h1 (by decide +kernel)
  | chp c => exact plain_loss h1 (by decide +kernel)
  | heatPump c => exact plain_loss h1 (by decide +kernel)
  | renewable c => exact plain_loss h1 (by decide +kernel)
  | spill c => exact plain_loss h1 (by decide +kernel)
  | valve c => exact plain_loss h1 (by decide +kernel)
  | evs c =>
    have h1' : pyIn "electric_loss_mwh" c.name = false := h1
    have h2' : pyIn "evs-charger" c.name = false := h2
    have q5 : ∀ q ∈ ["electric_charge_mwh", "electric_charge_binary", "electric_discharge_mwh", "electric_discharge_binary", "electric_loss_mwh"],
        NoDash q ∧ pyStartsWith q "charger" = false ∧ pyIn "electric_loss_mwh" q = decide (q = "electric_loss_mwh") := by decide +kernel
    have q3 : ∀ q ∈ ["electric_charge_mwh", "electric_discharge_mwh", "electric_loss_mwh"],
        NoDash q ∧ pyStartsWith q "charger" = false ∧ pyIn "electric_loss_mwh" q = decide (q = "electric_loss_mwh") := by decide +kernel
    have dw : NoDash "electric_loss_mwh" := by decide
    have dd : ∃ c ∈ "electric_loss_mwh".toList, c.isDigit = false := ⟨'e', by decide, by decide⟩
    have n1 : pyIn "electric_loss_mwh" "charger" = false := by decide +kernel
    have n2 : pyIn "electric_loss_mwh" "charge" = false := by decide +kernel
    have n3 : pyIn "electric_loss_mwh" "event" = false := by decide +kernel
    have n4 : pyIn "electric_loss_mwh" "spill" = false := by decide +kernel
    have f5 : (["electric_charge_mwh", "electric_charge_binary", "electric_discharge_mwh", "electric_discharge_binary", "electric_loss_mwh"] :
      List String).filter (fun q => decide (q = "electric_loss_mwh")) = ["electric_loss_mwh"] := by decide +kernel
    have f3 : (["electric_charge_mwh", "electric_discharge_mwh", "electric_loss_mwh"] :
      List String).filter (fun q => decide (q = "electric_loss_mwh")) = ["electric_loss_mwh"] := by decide +kernel
    have e1 : c.chargerColumns.filter isTotalLossColumn = if pyEndsWith c.name "evs" then [] else
        (List.range c.chargers.length).map (fun k => c.name ++ "-charger-" ++ toString k ++ "-electric_loss_mwh") := by
      have key : ∀ (k : Nat) (q : String), q ∈ ["electric_charge_mwh", "electric_charge_binary", "electric_discharge_mwh", "electric_discharge_binary",
          "electric_loss_mwh"] → isTotalLossColumn (c.name ++ "-charger-" ++ toString k ++ "-" ++ q) =
          (decide (q = "electric_loss_mwh") && !pyEndsWith c.name "evs") := by
        intro k q hq
        obtain ⟨d1, d2, d3⟩ := q5 q hq
        rw [isTotalLossColumn, charger_evsCharger h2' k d1 d2, loss_word, d3, word_charger _ dw n1 dd, h1']
        simp
      unfold EvsCfg.chargerColumns
      split
      · rename_i he
        refine flatMap_filter_none (fun k => unit_filter_none (fun q hq => ?_))
        rw [key k q hq, he]; simp
      · rename_i he
        refine flatMap_filter_one (fun k => (unit_filter (q0 := "electric_loss_mwh") (fun q hq => ?_) f5).trans ?_)
        · rw [key k q hq, eq_false_of_ne_true he]; simp
        · rw [← dashed]; rfl
    have e2 : c.eventColumns.filter isTotalLossColumn = c.eventUnits.map (fun u => u ++ "-electric_loss_mwh") := by
      unfold EvsCfg.eventColumns EvsCfg.eventUnits
      rw [List.map_map]
      refine flatMap_filter_one (fun k => (unit_filter (q0 := "electric_loss_mwh") (fun q hq => ?_) f3).trans ?_)
      · obtain ⟨d1, d2, d3⟩ := q3 q hq
        rw [isTotalLossColumn, event_evsCharger h2' k d1 d2, loss_word, d3, word_event _ dw n2 n3 dd, h1']
        simp
      · rw [← dashed]; rfl
    have e3 : c.socColumns.filter isTotalLossColumn = [] := by
      rw [List.filter_eq_nil_iff]
      intro x hx
      have hs : ∀ q ∈ ["initial_soc_mwh", "final_soc_mwh"], pyIn "electric_loss_mwh" q = false := by decide +kernel
      have key : ∀ (k : Nat) (q : String), q ∈ ["initial_soc_mwh", "final_soc_mwh"] → isTotalLossColumn (c.name ++ "-charge-event-" ++ toString k ++ "-" ++ q) = false := by
        intro k q hq
        rw [isTotalLossColumn, loss_word, word_event _ dw n2 n3 dd, h1', hs q hq]
        rfl
      rcases List.mem_append.1 hx with hx | hx <;> obtain ⟨k, _, rfl⟩ := List.mem_map.1 hx
      · have := key k "initial_soc_mwh" (by simp)
        rw [← dashed] at this
        rw [Bool.not_eq_true]; exact this
      · have := key k "final_soc_mwh" (by simp)
        rw [← dashed] at this
        rw [Bool.not_eq_true]; exact this
    have e4 : c.spillColumns.filter isTotalLossColumn = if pyEndsWith c.name "evs" then [] else
        [c.name ++ "-charger-spill-" ++ c.name ++ "-electric_loss_mwh"] := by
      have key : ∀ q, q ∈ ["electric_charge_mwh", "electric_charge_binary", "electric_discharge_mwh", "electric_discharge_binary",
          "electric_loss_mwh"] → isTotalLossColumn (c.name ++ "-charger-spill-" ++ c.name ++ "-" ++ q) =
          (decide (q = "electric_loss_mwh") && !pyEndsWith c.name "evs") := by
        intro q hq
        obtain ⟨d1, d2, d3⟩ := q5 q hq
        rw [isTotalLossColumn, spill_evsCharger h2' d1 d2, loss_word, d3, word_spill _ dw n1, h1', n4]
        simp
      unfold EvsCfg.spillColumns
      split
      · rename_i he
        refine unit_filter_none (fun q hq => ?_)
        rw [key q hq, he]; simp
      · rename_i he
        refine (unit_filter (q0 := "electric_loss_mwh") (fun q hq => ?_) f5).trans ?_
        · rw [key q hq, eq_false_of_ne_true he]; simp
        · rw [← dashed]; rfl
    rw [evs_keys hw, List.filter_append, List.filter_append, List.filter_append, e1, e2, e3, e4, List.append_nil]
    rfl

/-! ### EV spills -/

theorem plain_spill {k : String} (h : pyIn "charger" k = false) : isTotalSpillColumn k = false := by
  rw [isTotalSpillColumn, in_less (p := "charger") (q := "charger-") (by decide +kernel) h]
  simp

/-- The columns of an asset that count as EV spills. -/
theorem keys_spill {a : Asset} (hw : a.WellNamed) (h1 : pyIn "charger" a.name = false)
    (h2 : ∀ c, a = .evs c → pyIn "spill" c.name = false ∧ pyIn "binary" c.name = false) :
    a.keys.filter isTotalSpillColumn = a.evSpillColumns := by
  have plain : ∀ (qs : List String), (∀ q ∈ qs, pyIn "charger" q = false) → (qs.map (fun q => a.name ++ "-" ++ q)).filter isTotalSpillColumn = [] := by
    intro qs hq
    apply unit_filter_none
    intro q hm
    apply plain_spill
    rw [pyIn_word (by decide), h1, hq q hm]
    rfl
  cases a with
  | battery c => exact plain batteryCols (by decide +kernel)
  | boiler c => exact plain boilerCols (by decide +kernel)
  | chp c => exact plain chpCols (by decide +kernel)
  | heatPump c => exact plain heatPumpCols (by decide +kernel)
  | renewable c => exact plain renewableCols (by decide +kernel)
  | spill c => exact plain spillCols (by decide +kernel)
  | valve c => exact plain valveCols (by decide +kernel)
  | evs c =>
    obtain ⟨h3, h4⟩ := h2 c rfl
    have h1' : pyIn "charger" c.name = false := h1
    have q5 : ∀ q ∈ ["electric_charge_mwh", "electric_charge_binary", "electric_discharge_mwh", "electric_discharge_binary", "electric_loss_mwh"],
        pyIn "spill" q = false := by decide +kernel
    have q3 : ∀ q ∈ ["electric_charge_mwh", "electric_discharge_mwh", "electric_loss_mwh", "initial_soc_mwh", "final_soc_mwh"],
        pyIn "charger" q = false := by decide +kernel
    have ev : ∀ (k : Nat) (q : String), q ∈ ["electric_charge_mwh", "electric_discharge_mwh", "electric_loss_mwh", "initial_soc_mwh", "final_soc_mwh"] →
        isTotalSpillColumn (c.name ++ "-charge-event-" ++ toString k ++ "-" ++ q) = false := by
      intro k q hq
      apply plain_spill
      rw [pyIn_word (by decide), word_event _ (by decide) (by decide +kernel) (by decide +kernel) ⟨'c', by decide, by decide⟩, h1', q3 q hq]
      rfl
    have e1 : c.chargerColumns.filter isTotalSpillColumn = [] := by
      refine flatMap_filter_none (fun k => unit_filter_none (fun q hq => ?_))
      have : pyIn "spill" (c.name ++ "-charger-" ++ toString k ++ "-" ++ q) = false := by
        rw [pyIn_word (by decide), word_charger _ (by decide) (by decide +kernel) ⟨'s', by decide, by decide⟩, h3, q5 q hq]
        rfl
      rw [isTotalSpillColumn, this]
      rfl
    have e2 : c.eventColumns.filter isTotalSpillColumn = [] :=
      flatMap_filter_none (fun k => unit_filter_none (fun q hq => ev k q (by
        simp only [List.mem_cons, List.not_mem_nil, or_false] at hq ⊢; tauto)))
    have e3 : c.socColumns.filter isTotalSpillColumn = [] := by
      rw [List.filter_eq_nil_iff]
      intro x hx
      rcases List.mem_append.1 hx with hx | hx <;> obtain ⟨k, _, rfl⟩ := List.mem_map.1 hx
      · have := ev k "initial_soc_mwh" (by simp)
        rw [← dashed] at this
        rw [Bool.not_eq_true]; exact this
      · have := ev k "final_soc_mwh" (by simp)
        rw [← dashed] at this
        rw [Bool.not_eq_true]; exact this
    have e4 : c.spillColumns.filter isTotalSpillColumn = (Asset.evs c).evSpillColumns := by
      unfold EvsCfg.spillColumns
      rw [List.filter_map]
      have hb : ∀ q ∈ ["electric_charge_mwh", "electric_charge_binary", "electric_discharge_mwh", "electric_discharge_binary", "electric_loss_mwh"],
          (isTotalSpillColumn ∘ fun q => c.name ++ "-charger-spill-" ++ c.name ++ "-" ++ q) q = !pyIn "binary" q := by
        intro q hq
        have s1 : pyIn "spill" (c.name ++ "-charger-spill-" ++ c.name ++ "-" ++ q) = true := by
          rw [pyIn_word (by decide), word_spill _ (by decide) (by decide +kernel)]
          have : pyIn "spill" "spill" = true := by decide +kernel
          simp [this]
        have s2 : pyIn "binary" (c.name ++ "-charger-spill-" ++ c.name ++ "-" ++ q) = pyIn "binary" q := by
          rw [pyIn_word (by decide), word_spill _ (by decide) (by decide +kernel), h4]
          have : pyIn "binary" "spill" = false := by decide +kernel
          simp [this]
        rw [Function.comp_apply, isTotalSpillColumn, s1, s2, spill_in]
        simp
      rw [List.filter_congr hb]
      have : (["electric_charge_mwh", "electric_charge_binary", "electric_discharge_mwh", "electric_discharge_binary", "electric_loss_mwh"] :
        List String).filter (fun q => !pyIn "binary" q) = ["electric_charge_mwh", "electric_discharge_mwh", "electric_loss_mwh"] := by decide +kernel
      rw [this]
      rfl
    rw [evs_keys hw, List.filter_append, List.filter_append, List.filter_append, e1, e2, e3, e4]
    rfl

end EPL
