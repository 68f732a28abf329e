/-
C69: the EVs plot.
-/
import Verif.Props.Plot
import Verif.Proofs.Order

namespace EPL

/-! ### Words in column names -/

theorem list_ends_word {α : Type} {d : α} {q a b : List α} (hq : d ∉ q) : q <:+ a ++ d :: b ↔ q <:+ b := by
  constructor
  · rintro ⟨x, h⟩
    rw [List.append_eq_append_iff] at h
    rcases h with ⟨c, h1, h2⟩ | ⟨c, h1, h2⟩
    · exact absurd (by rw [h2]; simp) hq
    · cases c with
      | nil =>
        simp only [List.nil_append] at h2
        exact absurd (by rw [← h2]; simp) hq
      | cons y c =>
        simp only [List.cons_append, List.cons.injEq] at h2
        exact ⟨c, h2.2.symm⟩
  · rintro ⟨x, rfl⟩
    exact ⟨a ++ d :: x, by simp⟩

theorem ends_word {u attr q : String} (hq : NoDash q) : pyEndsWith (u ++ "-" ++ attr) q = pyEndsWith attr q := by
  rw [Bool.eq_iff_iff]
  simp only [pyEndsWith, decide_eq_true_eq, toList_dash]
  exact list_ends_word hq

/-- A part that ends with a dash does not reach into the last word. -/
theorem list_infix_tail {α : Type} {d : α} {p u b : List α} (hb : d ∉ b) (h : p ++ [d] <:+: u ++ b) : p ++ [d] <:+: u := by
  obtain ⟨x, y, h⟩ := h
  rw [List.append_eq_append_iff] at h
  rcases h with ⟨c, h1, h2⟩ | ⟨c, h1, h2⟩
  · exact ⟨x, c, h1.symm⟩
  · rcases List.eq_nil_or_concat c with rfl | ⟨c', z, rfl⟩
    · exact ⟨x, [], by simpa using h1⟩
    · rw [← List.append_assoc, List.concat_eq_append, ← List.append_assoc] at h1
      have := List.append_inj_right' h1 rfl
      simp only [List.cons.injEq, and_true] at this
      exact absurd (by rw [h2, ← this]; simp) hb

theorem in_tail {p u attr : String} (ha : NoDash attr) (h : pyIn (p ++ "-") (u ++ "-") = false) : pyIn (p ++ "-") (u ++ "-" ++ attr) = false := by
  rw [← Bool.not_eq_true, pyIn_iff] at h ⊢
  intro h'
  apply h
  rw [String.toList_append, String.toList_append] at h' ⊢
  rw [String.toList_append] at h'
  exact list_infix_tail ha h'

theorem in_less {p q k : String} (h : pyIn p q = true) (hk : pyIn p k = false) : pyIn q k = false := by
  rw [← Bool.not_eq_true] at hk ⊢
  rw [pyIn_iff] at h hk ⊢
  exact fun h' => hk (h.trans h')

theorem in_site {p f : String} (hp : ∃ c l, p.toList = c :: l ∧ c ∉ "site-".toList) (h : pyIn p f = false) : pyIn p ("site-" ++ f) = false := by
  rw [← Bool.not_eq_true, pyIn_iff] at h ⊢
  obtain ⟨c, l, hc, hn⟩ := hp
  rintro ⟨x, y, he⟩
  apply h
  rw [hc, String.toList_append, List.append_assoc, List.append_eq_append_iff] at he
  rcases he with ⟨z, h1, h2⟩ | ⟨z, h1, h2⟩
  · cases z with
    | nil =>
      rw [hc]
      simp only [List.nil_append] at h2
      exact ⟨[], y, by simpa using h2⟩
    | cons w z =>
      simp only [List.cons_append, List.cons.injEq] at h2
      exact absurd (by rw [h1, ← h2.1]; simp) hn
  · rw [hc]
    exact ⟨z, y, by rw [h2]; simp⟩

theorem digits_word (w : String) (hw : ∃ c ∈ w.toList, c.isDigit = false) (n : Nat) : pyIn w (toString n) = false := by
  rw [← Bool.not_eq_true, pyIn_iff]
  rintro ⟨x, y, h⟩
  obtain ⟨c, hc, hd⟩ := hw
  have := toString_digits n c (by rw [← h]; simp [hc])
  rw [hd] at this
  cases this

/-! ### The columns the plot selects -/

theorem selected_eq {t : Table} {n : Nat} {V : String → Nat → ℚ} (hf : t.Frame n V) (hn : t.columns.Nodup) (part stop : String) :
    t.selected part stop = (t.columns.filter (fun c => pyIn part c && pyEndsWith c stop)).map (fun k => (List.range n).map (V k)) := by
  unfold Table.selected Table.columns
  rw [List.filter_map, List.map_map]
  apply List.map_congr_left
  intro c hc
  have hm := (List.mem_filter.1 hc).1
  have h1 := mem_lookup hn (k := c.1) (col := c.2) hm
  have h2 := frame_lookup hf (k := c.1) (List.mem_map_of_mem hm)
  rw [h1, Option.some.injEq] at h2
  exact h2

theorem unit_filter {u q0 : String} {qs : List String} {P : String → Bool} (h : ∀ q ∈ qs, P (u ++ "-" ++ q) = decide (q = q0))
    (hq : qs.filter (fun q => decide (q = q0)) = [q0]) : (qs.map (fun q => u ++ "-" ++ q)).filter P = [u ++ "-" ++ q0] := by
  rw [List.filter_map, List.filter_congr (p := P ∘ fun q => u ++ "-" ++ q) (q := fun q => decide (q = q0)) (fun q hm => h q hm), hq]
  rfl

theorem unit_filter_none {u : String} {qs : List String} {P : String → Bool} (h : ∀ q ∈ qs, P (u ++ "-" ++ q) = false) :
    (qs.map (fun q => u ++ "-" ++ q)).filter P = [] := by
  rw [List.filter_eq_nil_iff]
  intro k hk
  obtain ⟨q, hq, rfl⟩ := List.mem_map.1 hk
  simp [h q hq]

section
variable {s : Site} {objective : Objective} {flags : Flags} {S : Solver} {r : SimResult} {c : EvsCfg}

/-- What is selected comes from the EVs asset, in the order of its columns. -/
theorem fleet_filter (hc : s.Constructed) (h : s.optimize objective flags S = .ok r) (hw : ∀ a ∈ s.assets, a.WellNamed)
    (hp : s.OneFleet c) {P : String → Bool}
    (h1 : ∀ k ∈ siteColumns ++ totalColumns, P k = false) (h2 : ∀ f ∈ s.data.custom, P ("site-" ++ f.1) = false)
    (h3 : ∀ a ∈ s.assets, (∀ c, a ≠ .evs c) → ∀ k ∈ a.documentedColumns, P k = false) :
    r.results.columns.filter P = c.chargerColumns.filter P ++ c.eventColumns.filter P ++ c.socColumns.filter P ++ c.spillColumns.filter P := by
  have n1 : ∀ p : Asset → Bool, (∀ c, p (.evs c) = false) → (s.columnsOf p).filter P = [] := by
    intro p hpe
    rw [List.filter_eq_nil_iff]
    intro k hk
    obtain ⟨a, ha, hk⟩ := List.mem_flatMap.1 hk
    obtain ⟨ha, hpa⟩ := List.mem_filter.1 ha
    have : ∀ c, a ≠ .evs c := by
      rintro c rfl
      rw [hpe] at hpa; cases hpa
    simp [h3 a ha this k hk]
  have n2 : ∀ l : List String, (∀ k ∈ l, k ∈ siteColumns ++ totalColumns) → l.filter P = [] := by
    intro l hl
    rw [List.filter_eq_nil_iff]
    intro k hk
    simp [h1 k (hl k hk)]
  have n3 : (s.data.custom.map (fun f => "site-" ++ f.1)).filter P = [] := by
    rw [List.filter_eq_nil_iff]
    intro k hk
    obtain ⟨f, hf, rfl⟩ := List.mem_map.1 hk
    simp [h2 f hf]
  have n4 : ∀ b : Prop, ∀ _ : Decidable b, (if b then [] else ["site-electricity_balance_mwh"] : List String).filter P = [] := by
    intro b _
    apply n2
    split <;> decide +kernel
  have n5 := n2 ["site-import_power_mwh", "site-export_power_mwh", "site-electricity_prices", "site-export_electricity_prices",
    "site-electricity_carbon_intensities", "site-gas_prices", "site-electric_load_mwh", "site-high_temperature_load_mwh",
    "site-low_temperature_load_mwh", "site-low_temperature_generation_mwh"] (by decide +kernel)
  rw [results_columns hc h hw, Site.columnOrder]
  simp only [List.filter_append]
  rw [n3, n1 Asset.isSpill (fun _ => rfl), n1 Asset.isBattery (fun _ => rfl), n1 Asset.isChp (fun _ => rfl), n1 Asset.isBoiler (fun _ => rfl),
    n1 Asset.isValve (fun _ => rfl), n1 Asset.isHeatPump (fun _ => rfl), n1 Asset.isRenewable (fun _ => rfl), n2 totalColumns (by simp +contextual),
    n4, n5, hp.fleet]
  simp only [List.flatMap_cons, List.flatMap_nil, List.append_nil, List.nil_append, List.filter_append]

/-- The words the plot looks for at the end of a column. -/
def plotWords : List String := ["electric_charge_mwh", "electric_discharge_mwh", "initial_soc_mwh", "final_soc_mwh"]

theorem other_false {a : Asset} (he : ∀ c, a ≠ .evs c) {p w : String} (hw : w ∈ plotWords)
    (hb : ∀ b, a = .battery b → pyIn (p ++ "-") (b.name ++ "-") = false) {k : String} (hk : k ∈ a.documentedColumns) :
    (pyIn (p ++ "-") k && pyEndsWith k w) = false := by
  obtain ⟨pre, q, rfl, hq, h⟩ := documented_quantity hk
  have hwd : NoDash w := by
    have : ∀ w ∈ plotWords, NoDash w := by decide +kernel
    exact this w hw
  rw [ends_word hwd]
  rcases h with ⟨rfl, -⟩ | ⟨c, rfl, -⟩
  · cases a with
    | battery b => rw [show (Asset.battery b).name = b.name from rfl, in_tail (quantityNames_noDash hq) (hb b rfl)]; rfl
    | evs c => exact absurd rfl (he c)
    | _ =>
      simp only [Asset.quantityNames] at hq
      rw [Bool.and_eq_false_iff]
      right
      clear hwd hk
      revert q w
      decide +kernel
  · exact absurd rfl (he c)

theorem dashed (u q : String) : u ++ ("-" ++ q) = u ++ "-" ++ q := (String.append_assoc (s₁ := u)).symm

theorem charger_in (n x q : String) : pyIn "charger-" (n ++ "-charger-" ++ x ++ "-" ++ q) = true := by
  rw [pyIn_iff]
  exact ⟨n.toList ++ ['-'], x.toList ++ '-' :: q.toList, by simp [String.toList_append]⟩

theorem event_in (n x q : String) : pyIn "charge-event-" (n ++ "-charge-event-" ++ x ++ "-" ++ q) = true := by
  rw [pyIn_iff]
  exact ⟨n.toList ++ ['-'], x.toList ++ '-' :: q.toList, by simp [String.toList_append]⟩

theorem spill_in (n x q : String) : pyIn "charger-" (n ++ "-charger-spill-" ++ x ++ "-" ++ q) = true := by
  rw [pyIn_iff]
  exact ⟨n.toList ++ ['-'], "spill-".toList ++ x.toList ++ '-' :: q.toList, by simp [String.toList_append]⟩

theorem charger_no_event (hn : c.name = "evs") (k : Nat) {q : String} (hq : pyIn "event" q = false) :
    pyIn "charge-event-" (c.name ++ "-charger-" ++ toString k ++ "-" ++ q) = false := by
  have hw : NoDash "event" := by decide
  apply in_less (p := "event") (by decide +kernel)
  have e : c.name ++ "-charger-" ++ toString k ++ "-" ++ q = "evs" ++ "-" ++ ("charger" ++ "-" ++ (toString k ++ "-" ++ q)) := by
    rw [hn, str_eq_iff]; simp [String.toList_append]
  rw [e, pyIn_word hw, pyIn_word hw, pyIn_word hw, hq, digits_word "event" ⟨'e', by decide, by decide⟩]
  decide +kernel

theorem spill_no_event (hn : c.name = "evs") {q : String} (hq : pyIn "event" q = false) :
    pyIn "charge-event-" (c.name ++ "-charger-spill-" ++ c.name ++ "-" ++ q) = false := by
  have hw : NoDash "event" := by decide
  apply in_less (p := "event") (by decide +kernel)
  have e : c.name ++ "-charger-spill-" ++ c.name ++ "-" ++ q = "evs-charger-spill-evs" ++ "-" ++ q := by
    rw [hn]; rfl
  rw [e, pyIn_word hw, hq]
  decide +kernel

theorem event_no_charger (hn : c.name = "evs") (k : Nat) {q : String} (hq : pyIn "charger" q = false) :
    pyIn "charger-" (c.name ++ "-charge-event-" ++ toString k ++ "-" ++ q) = false := by
  have hw : NoDash "charger" := by decide
  apply in_less (p := "charger") (by decide +kernel)
  have e : c.name ++ "-charge-event-" ++ toString k ++ "-" ++ q = "evs-charge-event" ++ "-" ++ (toString k ++ "-" ++ q) := by
    rw [hn, str_eq_iff]; simp [String.toList_append]
  rw [e, pyIn_word hw, pyIn_word hw, hq, digits_word "charger" ⟨'c', by decide, by decide⟩]
  decide +kernel

/-- The columns of the chargers the plot selects. -/
theorem charger_columns (hc : s.Constructed) (h : s.optimize objective flags S = .ok r) (hw : ∀ a ∈ s.assets, a.WellNamed)
    (hp : s.OneFleet c) (hn : c.name = "evs") {w : String} (hq : w = "electric_charge_mwh" ∨ w = "electric_discharge_mwh") :
    r.results.columns.filter (fun k => pyIn "charger-" k && pyEndsWith k ("-" ++ w)) = c.chargerUnits.map (fun u => u ++ "-" ++ w) := by
  have hwd : NoDash w := by rcases hq with rfl | rfl <;> decide
  have hwp : w ∈ plotWords := by rcases hq with rfl | rfl <;> decide
  have hend : ∀ k, pyEndsWith k w = false → pyEndsWith k ("-" ++ w) = false := by
    intro k hk
    rw [← Bool.not_eq_true] at hk ⊢
    simp only [pyEndsWith, decide_eq_true_eq] at hk ⊢
    intro h'
    exact hk (List.IsSuffix.trans ⟨['-'], by simp [String.toList_append]⟩ h')
  have hev : ∀ u q, NoDash q → pyEndsWith (u ++ "-" ++ q) ("-" ++ w) = decide (q = w) := by
    intro u q hqd
    rw [Bool.eq_iff_iff, decide_eq_true_eq]
    exact ends_exact hwd hqd
  have q5 : ["electric_charge_mwh", "electric_charge_binary", "electric_discharge_mwh", "electric_discharge_binary", "electric_loss_mwh"].filter
      (fun q => decide (q = w)) = [w] := by rcases hq with rfl | rfl <;> decide +kernel
  have d5 : ∀ q ∈ ["electric_charge_mwh", "electric_charge_binary", "electric_discharge_mwh", "electric_discharge_binary", "electric_loss_mwh"],
      NoDash q := by decide +kernel
  have d3 : ∀ q ∈ ["electric_charge_mwh", "electric_discharge_mwh", "electric_loss_mwh"], pyIn "charger" q = false := by decide +kernel
  rw [fleet_filter hc h hw hp]
  · have e1 : c.chargerColumns.filter (fun k => pyIn "charger-" k && pyEndsWith k ("-" ++ w)) =
        (List.range c.chargers.length).map (fun k => c.name ++ "-charger-" ++ toString k ++ "-" ++ w) := by
      unfold EvsCfg.chargerColumns
      rw [List.filter_flatMap, ← List.flatMap_singleton' (List.map _ _), List.flatMap_map]
      apply List.flatMap_congr
      intro k _
      refine unit_filter ?_ q5
      intro q hm
      rw [charger_in, hev _ _ (d5 q hm), Bool.true_and]
    have e2 : c.eventColumns.filter (fun k => pyIn "charger-" k && pyEndsWith k ("-" ++ w)) = [] := by
      rw [List.filter_eq_nil_iff]
      intro k hk
      obtain ⟨e, -, hk⟩ := List.mem_flatMap.1 hk
      obtain ⟨q, hm, rfl⟩ := List.mem_map.1 hk
      rw [event_no_charger hn e (d3 q hm)]
      simp
    have e3 : c.socColumns.filter (fun k => pyIn "charger-" k && pyEndsWith k ("-" ++ w)) = [] := by
      rw [List.filter_eq_nil_iff]
      intro k hk
      unfold EvsCfg.socColumns at hk
      rw [List.mem_append] at hk
      rcases hk with hk | hk
      · obtain ⟨e, -, rfl⟩ := List.mem_map.1 hk
        rw [show c.name ++ "-charge-event-" ++ toString e ++ "-initial_soc_mwh" = c.name ++ "-charge-event-" ++ toString e ++ "-" ++ "initial_soc_mwh" from
          dashed _ "initial_soc_mwh", event_no_charger hn e (by decide +kernel)]
        simp
      · obtain ⟨e, -, rfl⟩ := List.mem_map.1 hk
        rw [show c.name ++ "-charge-event-" ++ toString e ++ "-final_soc_mwh" = c.name ++ "-charge-event-" ++ toString e ++ "-" ++ "final_soc_mwh" from
          dashed _ "final_soc_mwh", event_no_charger hn e (by decide +kernel)]
        simp
    have e4 : c.spillColumns.filter (fun k => pyIn "charger-" k && pyEndsWith k ("-" ++ w)) = [c.name ++ "-charger-spill-" ++ c.name ++ "-" ++ w] := by
      refine unit_filter ?_ q5
      intro q hm
      rw [spill_in, hev _ _ (d5 q hm), Bool.true_and]
    rw [e1, e2, e3, e4]
    simp [EvsCfg.chargerUnits]
  · intro k hk
    rcases hq with rfl | rfl <;> revert k <;> decide +kernel
  · intro f hf
    rw [in_site ⟨'c', "harger-".toList, by decide +kernel, by decide⟩ (hp.custom f hf).1]
    rfl
  · intro a ha hne k hk
    have := other_false (p := "charger") hne hwp (fun b hb => (hp.batteries b (hb ▸ ha)).1) hk
    rw [show "charger" ++ "-" = "charger-" from rfl] at this
    rw [Bool.and_eq_false_iff] at this ⊢
    exact this.imp id (hend k)

/-- The columns of the charge events the plot selects. -/
theorem event_columns (hc : s.Constructed) (h : s.optimize objective flags S = .ok r) (hw : ∀ a ∈ s.assets, a.WellNamed)
    (hp : s.OneFleet c) (hn : c.name = "evs") {w : String} (hq : w ∈ plotWords) :
    r.results.columns.filter (fun k => pyIn "charge-event-" k && pyEndsWith k w) = c.eventUnits.map (fun u => u ++ "-" ++ w) := by
  have hwd : NoDash w := by
    have : ∀ w ∈ plotWords, NoDash w := by decide +kernel
    exact this w hq
  have d5 : ∀ q ∈ ["electric_charge_mwh", "electric_charge_binary", "electric_discharge_mwh", "electric_discharge_binary", "electric_loss_mwh"],
      pyIn "event" q = false := by decide +kernel
  have hsoc : ∀ (x : String) (e : Nat), c.name ++ "-charge-event-" ++ toString e ++ ("-" ++ x) = c.name ++ "-charge-event-" ++ toString e ++ "-" ++ x := by
    intro x e
    exact (String.append_assoc (s₁ := c.name ++ "-charge-event-" ++ toString e)).symm
  rw [fleet_filter hc h hw hp]
  · have e1 : c.chargerColumns.filter (fun k => pyIn "charge-event-" k && pyEndsWith k w) = [] := by
      rw [List.filter_eq_nil_iff]
      intro k hk
      obtain ⟨e, -, hk⟩ := List.mem_flatMap.1 hk
      obtain ⟨q, hm, rfl⟩ := List.mem_map.1 hk
      rw [charger_no_event hn e (d5 q hm)]
      simp
    have e4 : c.spillColumns.filter (fun k => pyIn "charge-event-" k && pyEndsWith k w) = [] := by
      rw [List.filter_eq_nil_iff]
      intro k hk
      obtain ⟨q, hm, rfl⟩ := List.mem_map.1 hk
      rw [spill_no_event hn (d5 q hm)]
      simp
    have e2 : c.eventColumns.filter (fun k => pyIn "charge-event-" k && pyEndsWith k w) =
        if w = "electric_charge_mwh" ∨ w = "electric_discharge_mwh" then c.eventUnits.map (fun u => u ++ "-" ++ w) else [] := by
      unfold EvsCfg.eventColumns EvsCfg.eventUnits
      rw [List.filter_flatMap]
      split
      · rename_i hw2
        rw [List.map_map, ← List.flatMap_singleton' (List.map _ _), List.flatMap_map]
        apply List.flatMap_congr
        intro e _
        refine unit_filter (q0 := w) ?_ ?_
        · intro q hm
          rw [event_in, ends_word hwd, Bool.true_and]
          rcases hw2 with rfl | rfl <;> revert q <;> decide +kernel
        · rcases hw2 with rfl | rfl <;> decide +kernel
      · rename_i hw2
        rw [List.flatMap_eq_nil_iff]
        intro e _
        refine unit_filter_none ?_
        intro q hm
        rw [event_in, ends_word hwd, Bool.true_and]
        have : w = "initial_soc_mwh" ∨ w = "final_soc_mwh" := by
          simp only [plotWords, List.mem_cons, List.not_mem_nil, or_false] at hq
          tauto
        rcases this with rfl | rfl <;> revert q <;> decide +kernel
    have e3 : c.socColumns.filter (fun k => pyIn "charge-event-" k && pyEndsWith k w) =
        if w = "electric_charge_mwh" ∨ w = "electric_discharge_mwh" then [] else c.eventUnits.map (fun u => u ++ "-" ++ w) := by
      unfold EvsCfg.socColumns EvsCfg.eventUnits
      have part : ∀ x ∈ ["initial_soc_mwh", "final_soc_mwh"], ((List.range c.events.length).map (fun e => c.name ++ "-charge-event-" ++ toString e ++ ("-" ++ x))).filter
          (fun k => pyIn "charge-event-" k && pyEndsWith k w) = if w = x then
            (List.range c.events.length).map (fun e => c.name ++ "-charge-event-" ++ toString e ++ "-" ++ w) else [] := by
        intro x hx
        have hxw : pyEndsWith x w = decide (w = x) := by
          have : ∀ w ∈ plotWords, ∀ x ∈ ["initial_soc_mwh", "final_soc_mwh"], pyEndsWith x w = decide (w = x) := by decide +kernel
          exact this w hq x hx
        split
        · rename_i hwx
          subst hwx
          rw [List.filter_eq_self.2]
          · apply List.map_congr_left
            intro e _
            exact hsoc _ _
          · intro k hk
            obtain ⟨e, -, rfl⟩ := List.mem_map.1 hk
            rw [hsoc, event_in, ends_word hwd, hxw]
            simp
        · rename_i hwx
          rw [List.filter_eq_nil_iff]
          intro k hk
          obtain ⟨e, -, rfl⟩ := List.mem_map.1 hk
          rw [hsoc, ends_word hwd, hxw]
          simp [hwx]
      have p1 := part "initial_soc_mwh" (by simp)
      have p2 := part "final_soc_mwh" (by simp)
      rw [show ("-" ++ "initial_soc_mwh" : String) = "-initial_soc_mwh" from rfl] at p1
      rw [show ("-" ++ "final_soc_mwh" : String) = "-final_soc_mwh" from rfl] at p2
      rw [List.filter_append, p1, p2, List.map_map]
      simp only [plotWords, List.mem_cons, List.not_mem_nil, or_false] at hq
      rcases hq with rfl | rfl | rfl | rfl <;> simp [Function.comp_def]
    rw [e1, e2, e3, e4]
    split <;> simp
  · intro k hk
    simp only [plotWords, List.mem_cons, List.not_mem_nil, or_false] at hq
    rcases hq with rfl | rfl | rfl | rfl <;> revert k <;> decide +kernel
  · intro f hf
    rw [in_site ⟨'c', "harge-event-".toList, by decide +kernel, by decide⟩ (hp.custom f hf).2]
    rfl
  · intro a ha hne k hk
    exact other_false (p := "charge-event") hne hq (fun b hb => (hp.batteries b (hb ▸ ha)).2) hk

theorem filter_unique {α β : Type} [DecidableEq β] {f : α → β} {l : List α} (hn : (l.map f).Nodup) {a : α} (ha : a ∈ l) :
    l.filter (fun b => f b == f a) = [a] := by
  induction l with
  | nil => simp at ha
  | cons b l ih =>
    rw [List.map_cons, List.nodup_cons] at hn
    rcases List.mem_cons.1 ha with rfl | hm
    · rw [List.filter_cons_of_pos (by simp), List.filter_eq_nil_iff.2]
      intro b hb
      simp only [beq_iff_eq]
      intro he
      exact hn.1 (he ▸ List.mem_map_of_mem hb)
    · rw [List.filter_cons_of_neg, ih hn.2 hm]
      simp only [beq_iff_eq]
      intro he
      exact hn.1 (he ▸ List.mem_map_of_mem hm)

theorem names_nodup (h : s.optimize objective flags S = .ok r) : (s.assets.map Asset.name).Nodup := by
  obtain ⟨p, hr⟩ := optimize_ran h
  have := hr.program
  simp only [Site.program, bind_ok, pyAssert_ok] at this
  obtain ⟨_, h1, -⟩ := this
  simpa [noDup] using h1

/-- The hard-coded column of the spill charger exists only for an EVs asset called "evs". -/
theorem spill_column (hc : s.Constructed) (h : s.optimize objective flags S = .ok r) (hw : ∀ a ∈ s.assets, a.WellNamed)
    (hp : s.OneFleet c) (hk : c.name ++ "-charger-spill-evs-electric_charge_mwh" ∈ r.results.columns) : c.name = "evs" := by
  have hcm : Asset.evs c ∈ s.assets := mem_fleets.1 (by rw [hp.fleet]; simp)
  have ek : c.name ++ "-charger-spill-evs-electric_charge_mwh" = c.name ++ "-charger-" ++ "spill-evs" ++ "-" ++ "electric_charge_mwh" := by
    rw [str_eq_iff]; simp [String.toList_append]
  have key := fleet_filter hc h hw hp (P := fun k => pyIn "charger-" k && pyEndsWith k "electric_charge_mwh") (by decide +kernel)
    (fun f hf => by
      rw [in_site ⟨'c', "harger-".toList, by decide +kernel, by decide⟩ (hp.custom f hf).1]; rfl)
    (fun a ha hne k hk => other_false (p := "charger") hne (by decide) (fun b hb => (hp.batteries b (hb ▸ ha)).1) hk)
  have hm : c.name ++ "-charger-spill-evs-electric_charge_mwh" ∈ r.results.columns.filter
      (fun k => pyIn "charger-" k && pyEndsWith k "electric_charge_mwh") := by
    rw [List.mem_filter]
    refine ⟨hk, ?_⟩
    rw [ek, charger_in, ends_word (by decide)]
    decide +kernel
  rw [key] at hm
  simp only [List.mem_append, List.mem_filter] at hm
  rcases hm with ((⟨hm, -⟩ | ⟨hm, -⟩) | ⟨hm, -⟩) | ⟨hm, -⟩
  · obtain ⟨k, -, hm⟩ := List.mem_flatMap.1 hm
    obtain ⟨q, hq, he⟩ := List.mem_map.1 hm
    have hqd : NoDash q := by
      clear he; revert q; decide +kernel
    rw [ek] at he
    have := (dash_inj hqd (by decide) he).1
    rw [str_eq_iff] at this
    simp only [String.toList_append, List.append_cancel_left_eq] at this
    have hd := toString_digits k 's' (by rw [this]; decide +kernel)
    exact absurd hd (by decide)
  · obtain ⟨k, -, hm⟩ := List.mem_flatMap.1 hm
    obtain ⟨q, hq, he⟩ := List.mem_map.1 hm
    rw [str_eq_iff] at he
    simp [String.toList_append] at he
  · unfold EvsCfg.socColumns at hm
    rw [List.mem_append] at hm
    rcases hm with hm | hm
    · obtain ⟨k, -, he⟩ := List.mem_map.1 hm
      rw [str_eq_iff] at he
      simp [String.toList_append] at he
    · obtain ⟨k, -, he⟩ := List.mem_map.1 hm
      rw [str_eq_iff] at he
      simp [String.toList_append] at he
  · obtain ⟨q, hq, he⟩ := List.mem_map.1 hm
    have hqd : NoDash q := by
      clear he; revert q; decide +kernel
    rw [ek] at he
    have := (dash_inj hqd (by decide) he).1
    rw [str_eq_iff] at this ⊢
    simpa [String.toList_append] using this

variable {V : String → Nat → ℚ}

/-- The EVs plot: it is drawn exactly for an EVs asset called "evs" with a row of charge events per interval, and it shows the net charge of
every charger (the spill charger last) and of every charge event in their order, with the states of charge. -/
theorem C69_evs (hc : s.Constructed) (h : s.optimize objective flags S = .ok r) (hw : ∀ a ∈ s.assets, a.WellNamed)
    (hV : r.results.Reads s.data.n V) (hp : s.OneFleet c) :
    (c.name = "evs" ∧ c.chargeEvents.length = s.data.n → plotEvs r.results c.name s.assets = .ok (evsPicture c V s.data.n)) ∧
    ((∃ picture, plotEvs r.results c.name s.assets = .ok picture) → c.name = "evs" ∧ c.chargeEvents.length = s.data.n) := by
  have H := C23_columns hc h hw
  obtain ⟨hf, hs⟩ := result_frame hc h hw hV
  have hcm : Asset.evs c ∈ s.assets := mem_fleets.1 (by rw [hp.fleet]; simp)
  have hfil : s.assets.filter (fun a => a.name == c.name) = [.evs c] := filter_unique (f := Asset.name) (names_nodup h) hcm
  have hrows : r.results.rows = s.data.n := plotted_rows hf (hs "site-import_power_mwh" (by decide))
  constructor
  · rintro ⟨hn, hl⟩
    have sel1 : ∀ w, w = "electric_charge_mwh" ∨ w = "electric_discharge_mwh" → r.results.selected "charger-" ("-" ++ w) =
        c.chargerUnits.map (fun u => (List.range s.data.n).map (V (u ++ "-" ++ w))) := by
      intro w hq
      rw [selected_eq hf H.2.2.1, charger_columns hc h hw hp hn hq, List.map_map]; rfl
    have sel2 : ∀ w ∈ plotWords, r.results.selected "charge-event-" w =
        c.eventUnits.map (fun u => (List.range s.data.n).map (V (u ++ "-" ++ w))) := by
      intro w hq
      rw [selected_eq hf H.2.2.1, event_columns hc h hw hp hn hq, List.map_map]; rfl
    have minus : ∀ (us : List String), minusArrays (us.map (fun u => (List.range s.data.n).map (V (u ++ "-" ++ "electric_charge_mwh"))))
        (us.map (fun u => (List.range s.data.n).map (V (u ++ "-" ++ "electric_discharge_mwh")))) =
        .ok (us.map (fun u => (List.range s.data.n).map (netCharge V u))) := by
      intro us
      unfold minusArrays
      rw [if_pos (by simp), List.zipWith_map, List.zipWith_self]
      congr 1
      apply List.map_congr_left
      intro u _
      rw [zipWith_maps]
      apply List.map_congr_left
      intro i _
      unfold netCharge
      rw [← dashed, ← dashed]
      rfl
    have hspill : c.name ++ "-charger-spill-" ++ c.name ++ "-electric_charge_mwh" ∈ r.results.columns := by
      rw [H.2.2.2]
      refine .inr (.inr (.inr ⟨_, hcm, ?_⟩))
      simp only [Asset.documentedColumns, List.mem_append, List.mem_flatMap, List.mem_map]
      exact .inl ⟨c.name ++ "-charger-spill-" ++ c.name, .inr (by simp), "electric_charge_mwh", by simp, (dashed _ _).symm⟩
    have hsname : c.name ++ "-charger-spill-evs-electric_charge_mwh" = c.name ++ "-charger-spill-" ++ c.name ++ "-electric_charge_mwh" := by
      rw [hn]; rfl
    have hne : (((c.chargerUnits.map (fun u => (List.range s.data.n).map (netCharge V u))).flatten ++
        (c.eventUnits.map (fun u => (List.range s.data.n).map (netCharge V u))).flatten)).isEmpty = false := by
      have h0 := H.1
      rw [List.isEmpty_eq_false_iff]
      intro he
      rw [List.append_eq_nil_iff, List.flatten_eq_nil_iff] at he
      have := he.1 ((List.range s.data.n).map (netCharge V (c.name ++ "-charger-spill-" ++ c.name)))
        (List.mem_map.2 ⟨_, by simp [EvsCfg.chargerUnits], rfl⟩)
      rw [List.map_eq_nil_iff, List.range_eq_nil] at this
      omega
    have hul : c.eventUnits.length = c.events.length := by simp [EvsCfg.eventUnits]
    unfold plotEvs
    rw [show "-electric_charge_mwh" = "-" ++ "electric_charge_mwh" from rfl, show "-electric_discharge_mwh" = "-" ++ "electric_discharge_mwh" from rfl,
      sel1 _ (.inl rfl), sel1 _ (.inr rfl), sel2 _ (by decide), sel2 _ (by decide), sel2 _ (by decide), sel2 _ (by decide), minus, minus]
    simp only [ok_bind, hfil, hne, Bool.false_eq_true, if_false, List.length_map, List.length_range, hul, hrows, hl, ne_eq, not_true_eq_false, or_self]
    rw [hsname, get_ok.2 (frame_lookup hf hspill), get_ok.2 (frame_lookup hf (hs "site-electricity_prices" (by decide)))]
    simp only [ok_bind]
    congr 1
    unfold evsPicture
    congr 1
    rw [List.zipWith_map, List.zipWith_self, List.zipWith_map, List.zipWith_self]
    apply List.map_congr_left
    intro u _
    rw [List.zip_eq_zipWith, zipWith_maps, List.zipWith_map, List.zipWith_self]
    apply List.map_congr_left
    intro i _
    rw [← dashed, ← dashed]
    rfl
  · rintro ⟨pic, hpic⟩
    unfold plotEvs at hpic
    simp only [bind_ok, hfil] at hpic
    obtain ⟨chargers, -, events, -, hpic⟩ := hpic
    split at hpic
    · cases hpic
    · split at hpic
      · cases hpic
      · rename_i hl
        simp only [bind_ok] at hpic
        obtain ⟨spill, hsp, -⟩ := hpic
        rw [get_ok] at hsp
        refine ⟨spill_column hc h hw hp ((lookup_isSome_iff _ _).1 (by rw [hsp]; rfl)), ?_⟩
        rw [← hrows]
        by_contra hne
        exact hl (.inr (.inr hne))

/-- `EVs.plot` after a stand-alone optimisation: it draws exactly if the asset is called "evs". -/
theorem C69_alone_evs {args : SiteArgs} {withSpill : Bool} (hs : standaloneEvs c args withSpill = .ok (some s)) (hn : (Asset.evs c).WellNamed)
    (h : optimizeStandalone (some s) objective flags S = .ok r)
    (hcu : ∀ f ∈ s.data.custom, pyIn "charger-" f.1 = false ∧ pyIn "charge-event-" f.1 = false) (hV : r.results.Reads s.data.n V) :
    (c.name = "evs" → plotEvs r.results c.name s.assets = .ok (evsPicture c V s.data.n)) ∧
    ((∃ picture, plotEvs r.results c.name s.assets = .ok picture) → c.name = "evs") := by
  obtain ⟨hh, hv⟩ := C58_evs hs
  obtain ⟨hc, hp, hw⟩ := holds_plain hh (by simp) hn (by cases withSpill <;> decide +kernel)
  have hlen : c.chargeEvents.length = s.data.n := by
    exact hv.1.symm
  have hfl : s.fleets.Perm [c] := by
    unfold Site.fleets
    have := hp.filterMap (fun a => match a with | .evs c => some c | _ => none)
    refine this.trans (List.Perm.of_eq ?_)
    cases withSpill <;> simp
  have hone : s.OneFleet c := by
    refine ⟨List.perm_singleton.1 hfl, ?_, hcu⟩
    intro b hb
    have := hp.mem_iff.1 hb
    cases withSpill <;> simp at this
  have hE := C69_evs hc h hw hV hone
  exact ⟨fun hn => hE.1 ⟨hn, hlen⟩, fun h => (hE.2 h).1⟩

end

/-! ### The hypotheses are met -/

/-- The EVs of `demoEvs` are drawn. -/
example : ∃ (s : Site) (r : SimResult) (V : String → Nat → ℚ), Run s (.str "price") {} (checkSolver (tab demoEvs.answer)) r V ∧
    s.OneFleet demoEvsCfg ∧ plotEvs r.results "evs" s.assets = .ok (evsPicture demoEvsCfg V 2) := by
  obtain ⟨s, r, V, hs, h, ht⟩ := Demo.run demoEvs_test
  simp only [Bool.and_eq_true, decide_eq_true_eq] at ht
  obtain ⟨⟨h1, h2⟩, -⟩ := ht
  have hc : s.Constructed := ⟨_, _, _, _, _, _, _, hs⟩
  have hw : ∀ a ∈ s.assets, a.WellNamed := by rw [h1]; decide +kernel
  have hcu : s.data.custom = [] := by
    have := (site_new hs).custom
    simpa [customData, demoEvs, eq_comm] using this
  have hone : s.OneFleet demoEvsCfg := by
    refine ⟨by rw [Site.fleets, h1]; rfl, ?_, by rw [hcu]; simp⟩
    intro b hb
    rw [h1] at hb
    simp at hb
  have := (C69_evs hc h.returned hw h.reads hone).1 ⟨rfl, by rw [h2]; rfl⟩
  exact ⟨s, r, V, h, hone, h2 ▸ this⟩

end EPL
