/-
Which columns a total collects.
-/
import Verif.Proofs.Flows

namespace EPL

/-- An occurrence of `u-v` (no other dashes) in `a-b` lies in `a`, across the dash, or in `b`. -/
theorem infix_mid {α : Type} {d : α} {u v a b : List α} (hu : d ∉ u) (hv : d ∉ v) :
    (u ++ d :: v) <:+: a ++ d :: b ↔ (u ++ d :: v) <:+: a ∨ (u <:+ a ∧ v <+: b) ∨ (u ++ d :: v) <:+: b := by
  constructor
  · rintro ⟨s, t, h⟩
    have h' : (s ++ u) ++ d :: (v ++ t) = a ++ d :: b := by rw [← h]; simp
    rw [List.append_eq_append_iff] at h'
    rcases h' with ⟨c, h1, h2⟩ | ⟨c, h1, h2⟩
    · -- a = (s ++ u) ++ c
      cases c with
      | nil =>
        simp only [List.nil_append, List.cons.injEq, true_and] at h2
        exact .inr (.inl ⟨⟨s, by simpa using h1.symm⟩, ⟨t, h2⟩⟩)
      | cons x c =>
        simp only [List.cons_append, List.cons.injEq] at h2
        obtain ⟨rfl, h2⟩ := h2
        rw [List.append_eq_append_iff] at h2
        rcases h2 with ⟨e, h3, h4⟩ | ⟨e, h3, h4⟩
        · refine .inl ⟨s, e, ?_⟩
          rw [h1, h3]
          simp
        · cases e with
          | nil =>
            refine .inl ⟨s, [], ?_⟩
            rw [h1, h3]; simp
          | cons y e =>
            simp only [List.cons_append, List.cons.injEq] at h4
            exact absurd (by rw [h3, h4.1]; simp) hv
    · cases c with
      | nil =>
        simp only [List.nil_append, List.cons.injEq, true_and] at h2
        exact .inr (.inl ⟨⟨s, by simpa using h1⟩, ⟨t, h2.symm⟩⟩)
      | cons x c =>
        simp only [List.cons_append, List.cons.injEq] at h2
        obtain ⟨rfl, h2⟩ := h2
        -- s ++ u = a ++ d :: c
        rw [List.append_eq_append_iff] at h1
        rcases h1 with ⟨e, h3, h4⟩ | ⟨e, h3, h4⟩
        · exact absurd (by rw [h4]; simp) hu
        · cases e with
          | nil =>
            simp only [List.nil_append] at h4
            exact absurd (by rw [← h4]; simp) hu
          | cons y e =>
            simp only [List.cons_append, List.cons.injEq] at h4
            obtain ⟨rfl, h4⟩ := h4
            refine .inr (.inr ⟨e, t, ?_⟩)
            rw [h2, h4]; simp
  · rintro (⟨s, t, h⟩ | ⟨⟨s, h1⟩, ⟨t, h2⟩⟩ | ⟨s, t, h⟩)
    · exact ⟨s, t ++ d :: b, by rw [← h]; simp⟩
    · exact ⟨s, t, by rw [← h1, ← h2]; simp⟩
    · exact ⟨a ++ d :: s, t, by rw [← h]; simp⟩

/-- A word without dashes in `a-b` lies in `a` or in `b`. -/
theorem infix_word {α : Type} {d : α} {w a b : List α} (hw : d ∉ w) : w <:+: a ++ d :: b ↔ w <:+: a ∨ w <:+: b := by
  constructor
  · rintro ⟨s, t, h⟩
    rw [List.append_assoc, List.append_eq_append_iff] at h
    rcases h with ⟨c, h1, h2⟩ | ⟨c, h1, h2⟩
    · rw [List.append_eq_append_iff] at h2
      rcases h2 with ⟨e, h3, h4⟩ | ⟨e, h3, h4⟩
      · exact .inl ⟨s, e, by rw [h1, h3]; simp⟩
      · cases e with
        | nil => exact .inl ⟨s, [], by rw [h1, h3]; simp⟩
        | cons y e =>
          simp only [List.cons_append, List.cons.injEq] at h4
          exact absurd (by rw [h3, h4.1]; simp) hw
    · cases c with
      | nil =>
        simp only [List.nil_append] at h2
        cases w with
        | nil => exact .inl ⟨[], a, by simp⟩
        | cons y w =>
          simp only [List.cons_append, List.cons.injEq] at h2
          exact absurd (by rw [h2.1]; simp) hw
      | cons x c =>
        simp only [List.cons_append, List.cons.injEq] at h2
        exact .inr ⟨c, t, by rw [h2.2]; simp⟩
  · rintro (⟨s, t, h⟩ | ⟨s, t, h⟩)
    · exact ⟨s, t ++ d :: b, by rw [← h]; simp⟩
    · exact ⟨a ++ d :: s, t, by rw [← h]; simp⟩

theorem pyIn_word {w a b : String} (hw : NoDash w) : pyIn w (a ++ "-" ++ b) = (pyIn w a || pyIn w b) := by
  rw [Bool.eq_iff_iff, Bool.or_eq_true, pyIn_iff, pyIn_iff, pyIn_iff, toList_dash]
  exact infix_word hw

/-- `"charge-event" in a-b` -/
theorem pyIn_chargeEvent {a b : String} :
    pyIn "charge-event" (a ++ "-" ++ b) = true ↔
      pyIn "charge-event" a = true ∨ ("charge".toList <:+ a.toList ∧ "event".toList <+: b.toList) ∨ pyIn "charge-event" b = true := by
  have h : "charge-event".toList = "charge".toList ++ '-' :: "event".toList := by decide
  rw [pyIn_iff, pyIn_iff, pyIn_iff, toList_dash, h]
  exact infix_mid (by decide) (by decide)

theorem pyIn_chargeEvent_noDash {b : String} (hb : NoDash b) : pyIn "charge-event" b = false := by
  rw [← Bool.not_eq_true, pyIn_iff]
  rintro ⟨s, t, h⟩
  apply hb
  rw [← h]
  simp

theorem toString_digits (n : Nat) : ∀ ch ∈ (toString n).toList, ch.isDigit = true := by
  intro ch h
  have : toString n = n.repr := rfl
  rw [this, Nat.toList_repr] at h
  exact Nat.isDigit_of_mem_toDigits (by decide) (by decide) h

theorem toString_noDash (n : Nat) : NoDash (toString n) := by
  intro h
  have := toString_digits n _ h
  revert this
  decide

theorem attr_prefix {attr q : String} (ha : attr ∈ allAttrs) (hq : q ∈ quantities) : q.toList <+: attr.toList ↔ attr = q := by
  have h : ∀ attr ∈ allAttrs, ∀ q ∈ quantities, (q.toList <+: attr.toList ↔ attr = q) := by decide +kernel
  exact h attr ha q hq

theorem attr_noEvent {attr : String} (ha : attr ∈ allAttrs) : ¬ "event".toList <+: attr.toList ∧ NoDash attr := by
  have h : ∀ attr ∈ allAttrs, ¬ "event".toList <+: attr.toList ∧ NoDash attr := by decide +kernel
  exact h attr ha

theorem PlainName.dash {name : String} (h : PlainName name) {q : String} (hq : q ∈ quantities) : pyIn ("-" ++ q) name = false := by
  have := h.quantity q hq
  rw [← Bool.not_eq_true, pyIn_iff] at this ⊢
  intro hi
  refine this (List.IsInfix.trans ?_ hi)
  exact ⟨['-'], [], by simp [String.toList_append]⟩

/-- Whether a column `unit-attr` counts towards a total. -/
theorem isTotal_unit {u attr q : String} (hu : PlainName u) (ha : attr ∈ allAttrs) (hq : q ∈ quantities) :
    isTotalColumn q (u ++ "-" ++ attr) = decide (attr = q) := by
  have h1 : pyIn ("-" ++ q) (u ++ "-" ++ attr) = decide (attr = q) := by
    rw [Bool.eq_iff_iff, pyIn_dash (quantities_noDash hq), hu.dash hq, attr_prefix ha hq, pyIn_noDash (attr_noEvent ha).2]
    simp
  have h2 : pyIn "charge-event" (u ++ "-" ++ attr) = false := by
    rw [← Bool.not_eq_true, pyIn_chargeEvent, hu.event, pyIn_chargeEvent_noDash (attr_noEvent ha).2]
    simp only [Bool.false_eq_true, or_false, false_or, not_and]
    intro _
    exact (attr_noEvent ha).1
  simp [isTotalColumn, h1, h2]

/-- Joining plain names with a dash. -/
theorem PlainName.join {a b : String} (ha : PlainName a) (hb : PlainName b)
    (he : ¬ ("charge".toList <:+ a.toList ∧ "event".toList <+: b.toList)) : PlainName (a ++ "-" ++ b) := by
  refine ⟨?_, ?_⟩
  · intro q hq'
    rw [pyIn_word (quantities_noDash hq'), ha.quantity q hq', hb.quantity q hq']
    rfl
  · rw [← Bool.not_eq_true, pyIn_chargeEvent, ha.event, hb.event]
    simpa using he

theorem plain_noDash {b : String} (hb : NoDash b) (hq : ∀ q ∈ quantities, pyIn q b = false) : PlainName b :=
  ⟨hq, pyIn_chargeEvent_noDash hb⟩

theorem toString_plain (n : Nat) : PlainName (toString n) := by
  refine plain_noDash (toString_noDash n) ?_
  intro q hq
  rw [← Bool.not_eq_true, pyIn_iff]
  intro h
  have hc : ∃ ch ∈ q.toList, ch.isDigit = false := by
    have : ∀ q ∈ quantities, ∃ ch ∈ q.toList, ch.isDigit = false := by decide +kernel
    exact this q hq
  obtain ⟨ch, hch, hd⟩ := hc
  rw [toString_digits n ch (h.subset hch)] at hd
  simp at hd

theorem toString_noEvent (n : Nat) : ¬ "event".toList <+: (toString n).toList := by
  intro h
  have := toString_digits n 'e' (h.subset (by decide))
  revert this
  decide

theorem charger_plain {name : String} (h : PlainName name) (k : Nat) : PlainName (name ++ "-" ++ ("charger-" ++ toString k)) := by
  have e : name ++ "-" ++ ("charger-" ++ toString k) = name ++ "-" ++ "charger" ++ "-" ++ toString k := by
    rw [str_eq_iff]; simp [String.toList_append]
  rw [e]
  refine (h.join (by decide +kernel) (fun hh => ?_)).join (toString_plain k) (fun hh => toString_noEvent k hh.2)
  exact absurd hh.2 (by decide +kernel)

theorem charger_spill_plain {name : String} (h : PlainName name) : PlainName (name ++ "-" ++ ("charger-spill-" ++ name)) := by
  have e : name ++ "-" ++ ("charger-spill-" ++ name) = name ++ "-" ++ "charger" ++ "-" ++ "spill" ++ "-" ++ name := by
    rw [str_eq_iff]; simp [String.toList_append]
  rw [e]
  refine ((h.join (b := "charger") (by decide +kernel) (fun hh => ?_)).join (b := "spill") (by decide +kernel) (fun hh => ?_)).join h (fun hh => ?_)
  · exact absurd hh.2 (by decide +kernel)
  · exact absurd hh.2 (by decide +kernel)
  · obtain ⟨⟨t, ht⟩, _⟩ := hh
    have := congrArg List.reverse ht
    simp [String.toList_append] at this

theorem event_column (name rest attr : String) : pyIn "charge-event" (name ++ "-" ++ ("charge-event-" ++ rest) ++ "-" ++ attr) = true := by
  rw [pyIn_iff]
  exact ⟨(name ++ "-").toList, ("-" ++ rest ++ "-" ++ attr).toList, by simp [String.toList_append]⟩

theorem filter_attrs {u q : String} (hu : PlainName u) (hq : q ∈ quantities) {attrs : List String} (ha : ∀ a ∈ attrs, a ∈ allAttrs)
    (hn : attrs.Nodup) :
    (attrs.map (fun attr => u ++ "-" ++ attr)).filter (isTotalColumn q) = if q ∈ attrs then [u ++ "-" ++ q] else [] := by
  rw [List.filter_map]
  have : attrs.filter (isTotalColumn q ∘ fun attr => u ++ "-" ++ attr) = attrs.filter (fun a => decide (a = q)) := by
    apply List.filter_congr
    intro a h
    exact isTotal_unit hu (ha a h) hq
  rw [this]
  split
  · rename_i hm
    have : attrs.filter (fun a => decide (a = q)) = [q] := by
      have h1 := List.filter_beq (l := attrs) q
      have h2 : attrs.filter (fun a => decide (a = q)) = attrs.filter (fun a => a == q) := by
        apply List.filter_congr; intro a _; simp [beq_eq_decide]
      rw [h2, h1, List.count_eq_one_of_mem hn hm]
      rfl
    rw [this]; rfl
  · rename_i hm
    have : attrs.filter (fun a => decide (a = q)) = [] := by
      rw [List.filter_eq_nil_iff]
      rintro a h1 h2
      simp only [decide_eq_true_eq] at h2
      subst h2
      exact hm h1
    rw [this]; rfl

/-- The columns of an asset that count towards a total. -/
theorem keys_total {a : Asset} (hw : a.WellNamed) (hp : PlainName a.name) {q : String} (hq : q ∈ quantities) :
    a.keys.filter (isTotalColumn q) = a.reports q := by
  have single : ∀ (attrs : List String), (∀ a ∈ attrs, a ∈ allAttrs) → attrs.Nodup → ∀ (flows : List String),
      (∀ q ∈ quantities, (q ∈ attrs ↔ q ∈ flows)) → (attrs.map (fun attr => a.name ++ "-" ++ attr)).filter (isTotalColumn q) =
        if q ∈ flows then [a.name ++ "-" ++ q] else [] := by
    intro attrs h1 h2 flows h3
    rw [filter_attrs hp hq h1 h2]
    simp only [h3 q hq]
  cases a with
  | battery c => exact single batteryCols (by decide +kernel) (by decide +kernel) _ (by simp only [Asset.flows]; decide +kernel)
  | boiler c => exact single boilerCols (by decide +kernel) (by decide +kernel) _ (by simp only [Asset.flows]; decide +kernel)
  | chp c => exact single chpCols (by decide +kernel) (by decide +kernel) _ (by simp only [Asset.flows]; decide +kernel)
  | heatPump c => exact single heatPumpCols (by decide +kernel) (by decide +kernel) _ (by simp only [Asset.flows]; decide +kernel)
  | renewable c => exact single renewableCols (by decide +kernel) (by decide +kernel) _ (by simp only [Asset.flows]; decide +kernel)
  | spill c => exact single spillCols (by decide +kernel) (by decide +kernel) _ (by simp only [Asset.flows]; decide +kernel)
  | valve c => exact single valveCols (by decide +kernel) (by decide +kernel) _ (by simp only [Asset.flows]; decide +kernel)
  | evs c =>
    obtain ⟨hname, hch, hsp, hev⟩ := hw
    have hattr : ∀ a ∈ evCols, a ∈ allAttrs := by decide +kernel
    have hnod : evCols.Nodup := by decide +kernel
    have hmem : q ∈ evCols ↔ q ∈ (Asset.evs c).flows := by
      have : ∀ q ∈ quantities, (q ∈ evCols ↔ q ∈ ["electric_charge_mwh", "electric_discharge_mwh"]) := by decide +kernel
      exact this q hq
    have hchp : ∀ ch ∈ c.chargers, PlainName (c.name ++ "-" ++ ch.name) := by
      intro ch h
      have : ch.name ∈ c.chargers.map ChargerCfg.name := List.mem_map_of_mem h
      rw [hch] at this
      obtain ⟨k, _, hk⟩ := List.mem_map.1 this
      rw [← hk]
      exact charger_plain hp k
    have hspp : ∀ ch ∈ c.spillChargers, PlainName (c.name ++ "-" ++ ch.name) := by
      intro ch h
      have : ch.name ∈ c.spillChargers.map ChargerCfg.name := List.mem_map_of_mem h
      rw [hsp, List.mem_singleton] at this
      rw [this]
      exact charger_spill_plain hp
    have hflat : ∀ (chs : List ChargerCfg), (∀ ch ∈ chs, PlainName (c.name ++ "-" ++ ch.name)) →
        (chs.flatMap (fun ch => evCols.map (fun attr => c.name ++ "-" ++ ch.name ++ "-" ++ attr))).filter (isTotalColumn q) =
          if q ∈ (Asset.evs c).flows then chs.map (fun ch => c.name ++ "-" ++ ch.name ++ "-" ++ q) else [] := by
      intro chs h
      rw [List.filter_flatMap]
      have : chs.flatMap (fun ch => (evCols.map (fun attr => c.name ++ "-" ++ ch.name ++ "-" ++ attr)).filter (isTotalColumn q)) =
          chs.flatMap (fun ch => if q ∈ (Asset.evs c).flows then [c.name ++ "-" ++ ch.name ++ "-" ++ q] else []) := by
        apply List.flatMap_congr
        intro ch hc
        rw [filter_attrs (h ch hc) hq hattr hnod]
        simp only [hmem]
      rw [this]
      split
      · rw [List.map_eq_flatMap]
      · simp
    have hevent : ∀ (l : List String), (∀ x ∈ l, pyIn "charge-event" x = true) → l.filter (isTotalColumn q) = [] := by
      intro l h
      rw [List.filter_eq_nil_iff]
      intro x hx
      simp [isTotalColumn, h x hx]
    have hpos : pyIn "evs" c.name = true := hname
    simp only [Asset.keys, hpos, if_true, List.filter_append, hflat _ hchp, hflat _ hspp]
    rw [hevent (c.events.flatMap _) (by
        intro x hx
        obtain ⟨ev, he, hx⟩ := List.mem_flatMap.1 hx
        obtain ⟨attr, _, rfl⟩ := List.mem_map.1 hx
        have : ev.name ∈ c.events.map ChargeEventCfg.name := List.mem_map_of_mem he
        rw [hev] at this
        obtain ⟨k, _, hk⟩ := List.mem_map.1 this
        rw [← hk]
        exact event_column _ _ _),
      hevent ((List.range _).map _) (by
        intro x hx
        obtain ⟨e, _, rfl⟩ := List.mem_map.1 hx
        have e2 : c.name ++ "-charge-event-" ++ toString e ++ "-" ++ "initial_soc_mwh" =
          c.name ++ "-" ++ ("charge-event-" ++ toString e) ++ "-" ++ "initial_soc_mwh" := by
          rw [str_eq_iff]; simp [String.toList_append]
        rw [e2]
        exact event_column _ _ _),
      hevent ((List.range _).map _) (by
        intro x hx
        obtain ⟨e, _, rfl⟩ := List.mem_map.1 hx
        have e2 : c.name ++ "-charge-event-" ++ toString e ++ "-" ++ "final_soc_mwh" =
          c.name ++ "-" ++ ("charge-event-" ++ toString e) ++ "-" ++ "final_soc_mwh" := by
          rw [str_eq_iff]; simp [String.toList_append]
        rw [e2]
        exact event_column _ _ _)]
    simp only [List.append_nil, Asset.reports, Asset.units]
    split <;> simp [Function.comp_def]

/-- The quantities the site itself reports. -/
theorem dump_total {d : SiteData} (hc : ∀ c ∈ d.custom, ∀ q ∈ quantities, pyIn q c.1 = false) {q : String} (hq : q ∈ quantities) :
    ("site-import_power_mwh" :: "site-export_power_mwh" :: d.dump.map (fun f => "site-" ++ f.1)).filter (isTotalColumn q) =
      if q ∈ siteFlows then ["site-" ++ q] else [] := by
  have hcus : (d.custom.map (fun f => "site-" ++ f.1)).filter (isTotalColumn q) = [] := by
    rw [List.filter_eq_nil_iff]
    intro x hx
    obtain ⟨f, hf, rfl⟩ := List.mem_map.1 hx
    have hno : pyIn q f.1 = false := hc f hf q hq
    have e : "site-" ++ f.1 = "site" ++ "-" ++ f.1 := by rw [str_eq_iff]; simp [String.toList_append]
    have : pyIn ("-" ++ q) ("site-" ++ f.1) = false := by
      rw [← Bool.not_eq_true, e, pyIn_dash (quantities_noDash hq)]
      rw [← Bool.not_eq_true, pyIn_iff] at hno
      rintro (h | h | h)
      · rw [pyIn_noDash (by decide)] at h; simp at h
      · exact hno h.isInfix
      · rw [pyIn_iff] at h
        refine hno (List.IsInfix.trans ?_ h)
        exact ⟨['-'], [], by simp [String.toList_append]⟩
    simp [isTotalColumn, this]
  simp only [SiteData.dump, List.map_append, List.map_cons, List.map_nil, List.cons_append, List.nil_append]
  have h8 : ∀ q ∈ quantities, ["site-import_power_mwh", "site-export_power_mwh", "site-" ++ "electricity_prices",
      "site-" ++ "export_electricity_prices", "site-" ++ "electricity_carbon_intensities", "site-" ++ "gas_prices",
      "site-" ++ "electric_load_mwh", "site-" ++ "high_temperature_load_mwh", "site-" ++ "low_temperature_load_mwh",
      "site-" ++ "low_temperature_generation_mwh"].filter (isTotalColumn q) = if q ∈ siteFlows then ["site-" ++ q] else [] := by
    decide +kernel
  have := h8 q hq
  rw [← this]
  have h9 := List.filter_append (p := isTotalColumn q) ["site-import_power_mwh", "site-export_power_mwh", "site-" ++ "electricity_prices",
      "site-" ++ "export_electricity_prices", "site-" ++ "electricity_carbon_intensities", "site-" ++ "gas_prices",
      "site-" ++ "electric_load_mwh", "site-" ++ "high_temperature_load_mwh", "site-" ++ "low_temperature_load_mwh",
      "site-" ++ "low_temperature_generation_mwh"] (d.custom.map (fun f => "site-" ++ f.1))
  rw [hcus, List.append_nil] at h9
  exact h9

end EPL
