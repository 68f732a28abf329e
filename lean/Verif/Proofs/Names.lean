/-
The names of the variables the solver sees are distinct when the names of the assets are clear.
-/
import Verif.Proofs.Vars
import Verif.Proofs.Totals
import Verif.Spec.Names

namespace EPL

/-- A list of characters as the solver sees it. -/
def san (l : List Char) : List Char := l.map sanitizeChar

theorem san_append (a b : List Char) : san (a ++ b) = san a ++ san b := List.map_append

theorem solverChars_eq (name : String) : solverChars name = san name.toList := by
  have : "-+[] >/".toList = ['-', '+', '[', ']', ' ', '>', '/'] := by decide
  unfold solverChars san sanitizeChar
  rw [this]

theorem san_comma {l : List Char} (h : ',' ∉ l) : ',' ∉ san l := by
  intro hm
  obtain ⟨c, hc, he⟩ := List.mem_map.1 hm
  unfold sanitizeChar at he
  split at he
  · exact absurd he (by decide)
  · exact h (he ▸ hc)

/-- The digits of a number. -/
abbrev digits (n : Nat) : List Char := (toString n).toList

theorem san_digits (n : Nat) : san (digits n) = digits n := by
  have h : ∀ c : Char, c.isDigit = true → sanitizeChar c = c := by
    intro c hc
    unfold sanitizeChar
    rw [if_neg]
    intro hm
    simp only [List.mem_cons, List.not_mem_nil, or_false] at hm
    rcases hm with rfl | rfl | rfl | rfl | rfl | rfl | rfl <;> revert hc <;> decide
  unfold san
  conv_rhs => rw [← List.map_id (digits n)]
  exact List.map_congr_left fun c hc => h c (toString_digits n c hc)

theorem digits_inj {i j : Nat} (h : digits i = digits j) : i = j := Nat.repr_inj.1 (String.toList_injective h)

theorem digits_not {c : Char} (hc : c.isDigit = false) (n : Nat) : c ∉ digits n := by
  intro h
  rw [toString_digits n c h] at hc
  simp at hc

/-- Splitting at the first comma. -/
theorem comma_inj {a b a' b' : List Char} (ha : ',' ∉ a) (ha' : ',' ∉ a') (h : a ++ ',' :: b = a' ++ ',' :: b') : a = a' ∧ b = b' := by
  rw [List.append_eq_append_iff] at h
  rcases h with ⟨c, h1, h2⟩ | ⟨c, h1, h2⟩
  · cases c with
    | nil => simp at h1 h2; exact ⟨h1.symm, h2⟩
    | cons x c =>
      simp only [List.cons_append, List.cons.injEq] at h2
      exact absurd (by rw [h1, ← h2.1]; simp) ha'
  · cases c with
    | nil => simp at h1 h2; exact ⟨h1, h2.symm⟩
    | cons x c =>
      simp only [List.cons_append, List.cons.injEq] at h2
      exact absurd (by rw [h1, ← h2.1]; simp) ha

theorem comma_ne {a b c : List Char} (hc : ',' ∉ c) : a ++ ',' :: b ≠ c := by
  rintro rfl
  exact hc (by simp)

/-- The name of a variable as the solver sees it. -/
def VarId.solverList (v : VarId) : List Char := san v.pyName.toList

theorem solverList_site (attr : String) (i : Nat) : (VarId.site attr i).solverList = san attr.toList ++ '_' :: digits i := by
  simp only [VarId.solverList, VarId.pyName, String.toList_append, san_append, san_digits]
  have : san "-".toList = ['_'] := by decide
  rw [this]; simp

theorem solverList_asset (name attr : String) (i : Nat) :
    (VarId.asset name attr i).solverList = (san name.toList ++ '_' :: san attr.toList) ++ '_' :: digits i := by
  simp only [VarId.solverList, VarId.pyName, String.toList_append, san_append, san_digits]
  have : san "-".toList = ['_'] := by decide
  rw [this]; simp

theorem tail_i : san ",i:".toList = ',' :: ['i', ':'] := by decide
theorem tail_asset : san ",asset:".toList = ',' :: "asset:".toList := by decide

theorem solverList_tagged (attr : String) (i : Nat) (name : String) :
    (VarId.tagged attr i name).solverList = san attr.toList ++ ',' :: ((['i', ':'] ++ digits i) ++ ',' :: ("asset:".toList ++ san name.toList)) := by
  simp only [VarId.solverList, VarId.pyName, String.toList_append, san_append, san_digits, tail_i, tail_asset]
  simp

theorem solverList_evSoc (attr : String) (i : Nat) (name event : String) :
    (VarId.evSoc attr i name event).solverList = san attr.toList ++ ',' :: ((['i', ':'] ++ digits i) ++
      ',' :: (("asset:".toList ++ san name.toList) ++ ',' :: ("charge_event:".toList ++ san event.toList))) := by
  simp only [VarId.solverList, VarId.pyName, String.toList_append, san_append, san_digits, tail_i, tail_asset]
  have : san ",charge_event:".toList = ',' :: "charge_event:".toList := by decide
  rw [this]
  simp

theorem solverList_evFlow (attr : String) (i : Nat) (name : String) (event : Nat) (charger : String) (b : Bool) :
    (VarId.evFlow attr i name event charger b).solverList = san attr.toList ++ ',' :: ((['i', ':'] ++ digits i) ++
      ',' :: (("asset:".toList ++ san name.toList) ++ ',' :: (("charge_event:".toList ++ digits event) ++
        ',' :: ("charger:".toList ++ san charger.toList ++ san (",is_spill:" ++ pyBool b).toList)))) := by
  simp only [VarId.solverList, VarId.pyName, String.toList_append, san_append, san_digits, tail_i, tail_asset]
  have h1 : san ",charge-event:".toList = ',' :: "charge_event:".toList := by decide
  have h2 : san ",charger:".toList = ',' :: "charger:".toList := by decide
  rw [h1, h2]
  simp

theorem solverName_iff {v w : VarId} : v.solverName = w.solverName ↔ v.solverList = w.solverList :=
  ⟨fun h => String.ofList_injective h, fun h => congrArg String.ofList h⟩

section
variable {s : Site} {flags : Flags}

/-- All attributes of variables with commas in their names. -/
def commaAttrs : List String := taggedAttrs ++ ["initial_soc_mwh", "final_soc_mwh"] ++ flowAttrs

theorem commaAttrs_inj : ∀ a ∈ commaAttrs, ∀ b ∈ commaAttrs, san a.toList = san b.toList → a = b := by decide +kernel
theorem commaAttrs_no : ∀ a ∈ commaAttrs, ',' ∉ san a.toList := by decide +kernel
theorem plainAttrs_no : ∀ a ∈ plainAttrs, ',' ∉ san a.toList := by decide +kernel
theorem plainAttrs_suffix : ∀ a ∈ plainAttrs, ∀ b ∈ plainAttrs, ('_' :: san a.toList) <:+ (san b.toList) → False := by decide +kernel
theorem plainAttrs_inj : ∀ a ∈ plainAttrs, ∀ b ∈ plainAttrs, san a.toList = san b.toList → a = b := by decide +kernel

def siteAttrs : List String := ["import_power_mw", "export_power_mw", "import_power_bin", "export_power_bin"]

theorem siteAttrs_suffix : ∀ a ∈ plainAttrs, ∀ b ∈ siteAttrs, ('_' :: san a.toList) <:+ (san b.toList) → False := by decide +kernel
theorem siteAttrs_inj : ∀ a ∈ siteAttrs, ∀ b ∈ siteAttrs, san a.toList = san b.toList → a = b := by decide +kernel
theorem siteAttrs_no : ∀ a ∈ siteAttrs, ',' ∉ san a.toList := by decide +kernel

/-- The last part of a name decides the name. -/
theorem suffix_cases {a b a' b' : List Char} (h : a ++ '_' :: b = a' ++ '_' :: b') :
    (a = a' ∧ b = b') ∨ ('_' :: b) <:+ b' ∨ ('_' :: b') <:+ b := by
  rw [List.append_eq_append_iff] at h
  rcases h with ⟨c, h1, h2⟩ | ⟨c, h1, h2⟩
  · cases c with
    | nil => simp at h1 h2; exact .inl ⟨h1.symm, h2⟩
    | cons x c =>
      simp only [List.cons_append, List.cons.injEq] at h2
      exact .inr (.inr ⟨c, by rw [h2.2]⟩)
  · cases c with
    | nil => simp at h1 h2; exact .inl ⟨h1, h2.symm⟩
    | cons x c =>
      simp only [List.cons_append, List.cons.injEq] at h2
      exact .inr (.inl ⟨c, by rw [h2.2]⟩)

/-- The shapes of the variables of a site. -/
inductive Site.Shape (s : Site) : VarId → Prop
  | site {attr i} : attr ∈ siteAttrs → s.Shape (.site attr i)
  | asset {a attr i} : a ∈ s.assets → attr ∈ plainAttrs → s.Shape (.asset a.name attr i)
  | tagged {a attr i} : a ∈ s.assets → attr ∈ taggedAttrs → s.Shape (.tagged attr i a.name)
  | evSoc {a attr i} {k : Nat} : a ∈ s.assets → attr ∈ ["initial_soc_mwh", "final_soc_mwh"] →
      s.Shape (.evSoc attr i a.name ("charge-event-" ++ toString k))
  | evFlow {a attr i e} {k : Nat} : a ∈ s.assets → attr ∈ flowAttrs → s.Shape (.evFlow attr i a.name e ("charger-" ++ toString k) false)
  | evSpill {a attr i e} : a ∈ s.assets → attr ∈ flowAttrs → s.Shape (.evFlow attr i a.name e ("charger-spill-" ++ a.name) true)

theorem shape_of_holds (hw : ∀ a ∈ s.assets, a.WellNamed) {v : LpVar} (h : s.Holds flags v) : s.Shape v.id := by
  rcases h with ⟨attr, h1, i, h2⟩ | ⟨a, ha, h⟩
  · rw [h2]; exact .site h1
  · have hwa := hw a ha
    cases a with
    | evs c =>
      obtain ⟨-, hc, hsp, hev⟩ := hwa
      have h : c.Mine flags v.id := h
      revert h
      cases v.id with
      | evSoc attr i n event =>
        rintro ⟨rfl, hat, e, he, rfl⟩
        have : e.name ∈ c.events.map ChargeEventCfg.name := List.mem_map_of_mem he
        rw [hev, List.mem_map] at this
        obtain ⟨k, -, hk⟩ := this
        rw [← hk]
        exact .evSoc (a := .evs c) ha hat
      | evFlow attr i n e charger isSpill =>
        rintro ⟨rfl, hat, -, ⟨ch, hch, rfl⟩, -⟩
        cases isSpill with
        | true =>
          have : ch.name ∈ c.spillChargers.map ChargerCfg.name := List.mem_map_of_mem (by simpa using hch)
          rw [hsp, List.mem_singleton] at this
          rw [this]
          exact .evSpill (a := .evs c) ha hat
        | false =>
          have : ch.name ∈ c.chargers.map ChargerCfg.name := List.mem_map_of_mem (by simpa using hch)
          rw [hc, List.mem_map] at this
          obtain ⟨k, -, hk⟩ := this
          rw [← hk]
          exact .evFlow (a := .evs c) ha hat
      | _ => intro h; exact h.elim
    | heatPump c => obtain ⟨attr, h1, i, h2⟩ := h; rw [h2]; exact .tagged (a := .heatPump c) ha h1
    | renewable c => obtain ⟨attr, h1, i, h2⟩ := h; rw [h2]; exact .tagged (a := .renewable c) ha h1
    | battery c => obtain ⟨attr, h1, i, h2⟩ := h; rw [h2]; exact .asset (a := .battery c) ha h1
    | boiler c => obtain ⟨attr, h1, i, h2⟩ := h; rw [h2]; exact .asset (a := .boiler c) ha h1
    | chp c => obtain ⟨attr, h1, i, h2⟩ := h; rw [h2]; exact .asset (a := .chp c) ha h1
    | spill c => obtain ⟨attr, h1, i, h2⟩ := h; rw [h2]; exact .asset (a := .spill c) ha h1
    | valve c => obtain ⟨attr, h1, i, h2⟩ := h; rw [h2]; exact .asset (a := .valve c) ha h1

/-- The part of a name after the attribute, of variables with commas in their names. -/
inductive Site.Tail (s : Site) : VarId → String → Nat → List Char → Prop
  | tagged {a attr i} : a ∈ s.assets → attr ∈ taggedAttrs → s.Tail (.tagged attr i a.name) attr i ("asset:".toList ++ san a.name.toList)
  | evSoc {a attr i} {k : Nat} : a ∈ s.assets → attr ∈ ["initial_soc_mwh", "final_soc_mwh"] →
      s.Tail (.evSoc attr i a.name ("charge-event-" ++ toString k)) attr i
        (("asset:".toList ++ san a.name.toList) ++ ',' :: ("charge_event:".toList ++ san ("charge-event-" ++ toString k).toList))
  | evFlow {a attr i e charger b} : a ∈ s.assets → attr ∈ flowAttrs →
      ((b = false ∧ ∃ k : Nat, charger = "charger-" ++ toString k) ∨ (b = true ∧ charger = "charger-spill-" ++ a.name)) →
      s.Tail (.evFlow attr i a.name e charger b) attr i
        (("asset:".toList ++ san a.name.toList) ++ ',' :: (("charge_event:".toList ++ digits e) ++
          ',' :: ("charger:".toList ++ san charger.toList ++ san (",is_spill:" ++ pyBool b).toList)))

theorem Site.Tail.attr {id : VarId} {attr : String} {i : Nat} {l : List Char} (h : s.Tail id attr i l) : attr ∈ commaAttrs := by
  cases h <;> simp only [commaAttrs, List.mem_append] <;> tauto

theorem Site.Tail.name {id : VarId} {attr : String} {i : Nat} {l : List Char} (h : s.Tail id attr i l) :
    id.solverList = san attr.toList ++ ',' :: ((['i', ':'] ++ digits i) ++ ',' :: l) := by
  cases h with
  | tagged => exact solverList_tagged ..
  | evSoc => exact solverList_evSoc ..
  | evFlow => exact solverList_evFlow ..

theorem shape_cases (hc : s.ClearNames) {id : VarId} (h : s.Shape id) : (',' ∉ id.solverList ∧
    ((∃ attr i, attr ∈ siteAttrs ∧ id = .site attr i) ∨ (∃ a ∈ s.assets, ∃ attr i, attr ∈ plainAttrs ∧ id = .asset a.name attr i))) ∨
    ∃ attr i l, s.Tail id attr i l := by
  have hd : ∀ i, ',' ∉ digits i := digits_not (by decide)
  cases h with
  | @site attr i h =>
    left
    refine ⟨?_, .inl ⟨_, _, h, rfl⟩⟩
    rw [solverList_site, List.mem_append, List.mem_cons, not_or, not_or]
    exact ⟨siteAttrs_no _ h, by decide, hd _⟩
  | @asset a attr i ha h =>
    left
    refine ⟨?_, .inr ⟨a, ha, _, _, h, rfl⟩⟩
    rw [solverList_asset, List.mem_append, List.mem_cons, List.mem_append, List.mem_cons]
    simp only [not_or]
    exact ⟨⟨san_comma (hc.comma a ha), by decide, plainAttrs_no _ h⟩, by decide, hd _⟩
  | tagged ha h => exact .inr ⟨_, _, _, .tagged ha h⟩
  | evSoc ha h => exact .inr ⟨_, _, _, .evSoc ha h⟩
  | evFlow ha h => exact .inr ⟨_, _, _, .evFlow ha h (.inl ⟨rfl, _, rfl⟩)⟩
  | evSpill ha h => exact .inr ⟨_, _, _, .evFlow ha h (.inr ⟨rfl, rfl⟩)⟩

theorem clear_name (hc : s.ClearNames) {a b : Asset} (ha : a ∈ s.assets) (hb : b ∈ s.assets) (h : san a.name.toList = san b.name.toList) :
    a.name = b.name := by
  rw [← solverChars_eq, ← solverChars_eq] at h
  rw [List.inj_on_of_nodup_map hc.solver ha hb h]

theorem name_comma (hc : s.ClearNames) {a : Asset} (ha : a ∈ s.assets) : ',' ∉ "asset:".toList ++ san a.name.toList := by
  rw [List.mem_append, not_or]
  exact ⟨by decide, san_comma (hc.comma a ha)⟩

theorem soc_flow_disjoint {attr : String} (h1 : attr ∈ ["initial_soc_mwh", "final_soc_mwh"]) (h2 : attr ∈ flowAttrs) : False := by
  revert attr
  decide

theorem tail_inj (hc : s.ClearNames) {v w : VarId} {attr : String} {i : Nat} {l : List Char} (h : s.Tail v attr i l) (h' : s.Tail w attr i l) :
    v = w := by
  cases h with
  | @tagged a _ _ ha hat =>
    generalize hl : "asset:".toList ++ san a.name.toList = l at h'
    have hno : ',' ∉ l := hl ▸ name_comma hc ha
    cases h' with
    | @tagged b _ _ hb =>
      rw [clear_name hc ha hb (List.append_cancel_left hl)]
    | evSoc => exact absurd (by simp) hno
    | evFlow => exact absurd (by simp) hno
  | @evSoc a _ _ k ha hat =>
    generalize hl : ("asset:".toList ++ san a.name.toList) ++ ',' :: ("charge_event:".toList ++ san ("charge-event-" ++ toString k).toList) = l at h'
    cases h' with
    | tagged hb => exact absurd hl (comma_ne (name_comma hc hb))
    | @evSoc b _ _ k' hb hat' =>
      obtain ⟨h1, h2⟩ := comma_inj (name_comma hc ha) (name_comma hc hb) hl
      rw [clear_name hc ha hb (List.append_cancel_left h1)]
      have h3 := List.append_cancel_left h2
      rw [String.toList_append, String.toList_append, san_append, san_append] at h3
      have h4 := List.append_cancel_left h3
      have : digits k = digits k' := (san_digits k).symm.trans (h4.trans (san_digits k'))
      rw [digits_inj this]
    | evFlow _ hat' => exact (soc_flow_disjoint hat hat').elim
  | @evFlow a _ _ e charger b ha hat hb =>
    generalize hl : ("asset:".toList ++ san a.name.toList) ++ ',' :: (("charge_event:".toList ++ digits e) ++
          ',' :: ("charger:".toList ++ san charger.toList ++ san (",is_spill:" ++ pyBool b).toList)) = l at h'
    cases h' with
    | tagged hb => exact absurd hl (comma_ne (name_comma hc hb))
    | evSoc _ hat' => exact (soc_flow_disjoint hat' hat).elim
    | @evFlow a' _ _ e' charger' b' ha' hat' hb' =>
      obtain ⟨h1, h2⟩ := comma_inj (name_comma hc ha) (name_comma hc ha') hl
      have hn := clear_name hc ha ha' (List.append_cancel_left h1)
      have hd : ∀ e, ',' ∉ "charge_event:".toList ++ digits e := by
        intro e
        rw [List.mem_append, not_or]
        exact ⟨by decide, digits_not (by decide) e⟩
      obtain ⟨h3, h4⟩ := comma_inj (hd e) (hd e') h2
      have he := digits_inj (List.append_cancel_left h3)
      rw [List.append_assoc, List.append_assoc] at h4
      have h5 := List.append_cancel_left h4
      have hbb : ∀ b, san (",is_spill:" ++ pyBool b).toList = ',' :: "is_spill:".toList ++ san (pyBool b).toList := by decide
      rw [hbb, hbb] at h5
      have hch : ∀ {a : Asset} {charger : String} {b : Bool}, a ∈ s.assets →
          ((b = false ∧ ∃ k : Nat, charger = "charger-" ++ toString k) ∨ (b = true ∧ charger = "charger-spill-" ++ a.name)) →
          ',' ∉ san charger.toList := by
        intro a charger b ha h
        apply san_comma
        rcases h with ⟨-, k, rfl⟩ | ⟨-, rfl⟩ <;> rw [String.toList_append, List.mem_append, not_or]
        · exact ⟨by decide, digits_not (by decide) k⟩
        · exact ⟨by decide, hc.comma a ha⟩
      obtain ⟨h6, h7⟩ := comma_inj (hch ha hb) (hch ha' hb') h5
      have hbe : b = b' := by
        cases b <;> cases b' <;> first | rfl | (exfalso; revert h7; decide)
      subst hbe
      subst he
      rw [hn]
      congr 1
      rcases hb with ⟨rfl, k, rfl⟩ | ⟨rfl, rfl⟩
      · obtain ⟨k', rfl⟩ : ∃ k' : Nat, charger' = "charger-" ++ toString k' := by
          rcases hb' with ⟨-, h⟩ | ⟨h, -⟩
          · exact h
          · cases h
        rw [String.toList_append, String.toList_append, san_append, san_append] at h6
        have h8 := List.append_cancel_left h6
        have : digits k = digits k' := (san_digits k).symm.trans (h8.trans (san_digits k'))
        rw [digits_inj this]
      · rcases hb' with ⟨h, -⟩ | ⟨-, h⟩
        · cases h
        · rw [h, hn]

/-- With clear names the solver sees different names for different variables. -/
theorem names_distinct (hc : s.ClearNames) (hw : ∀ a ∈ s.assets, a.WellNamed) {v w : LpVar} (hv : s.Holds flags v) (hw' : s.Holds flags w)
    (h : v.id.solverName = w.id.solverName) : v.id = w.id := by
  rw [solverName_iff] at h
  have hd : ∀ i, '_' ∉ digits i := digits_not (by decide)
  rcases shape_cases hc (shape_of_holds hw hv) with ⟨hnv, hsv⟩ | ⟨attr, i, l, hv⟩ <;>
    rcases shape_cases hc (shape_of_holds hw hw') with ⟨hnw, hsw⟩ | ⟨attr', i', l', hw⟩
  · rcases hsv with ⟨attr, i, hat, e⟩ | ⟨a, ha, attr, i, hat, e⟩ <;> rcases hsw with ⟨attr', i', hat', e'⟩ | ⟨a', ha', attr', i', hat', e'⟩ <;>
      rw [e, e'] at h ⊢
    · rw [solverList_site, solverList_site] at h
      obtain ⟨h1, h2⟩ := list_dash_inj (hd _) (hd _) h
      rw [siteAttrs_inj _ hat _ hat' h1, digits_inj h2]
    · rw [solverList_site, solverList_asset] at h
      obtain ⟨h1, h2⟩ := list_dash_inj (hd _) (hd _) h
      exact (siteAttrs_suffix _ hat' _ hat ⟨_, h1.symm⟩).elim
    · rw [solverList_site, solverList_asset] at h
      obtain ⟨h1, h2⟩ := list_dash_inj (hd _) (hd _) h
      exact (siteAttrs_suffix _ hat _ hat' ⟨_, h1⟩).elim
    · rw [solverList_asset, solverList_asset] at h
      obtain ⟨h1, h2⟩ := list_dash_inj (hd _) (hd _) h
      rcases suffix_cases h1 with ⟨h3, h4⟩ | h3 | h3
      · rw [clear_name hc ha ha' h3, plainAttrs_inj _ hat _ hat' h4, digits_inj h2]
      · exact (plainAttrs_suffix _ hat _ hat' h3).elim
      · exact (plainAttrs_suffix _ hat' _ hat h3).elim
  · rw [hw.name] at h
    exact absurd h.symm (comma_ne hnv)
  · rw [hv.name] at h
    exact absurd h (comma_ne hnw)
  · rw [hv.name, hw.name] at h
    obtain ⟨h1, h2⟩ := comma_inj (commaAttrs_no _ hv.attr) (commaAttrs_no _ hw.attr) h
    have hi : ∀ i, ',' ∉ ['i', ':'] ++ digits i := by
      intro i
      rw [List.mem_append, not_or]
      exact ⟨by decide, digits_not (by decide) i⟩
    obtain ⟨h3, h4⟩ := comma_inj (hi _) (hi _) h2
    obtain rfl := commaAttrs_inj _ hv.attr _ hw.attr h1
    obtain rfl := digits_inj (List.append_cancel_left h3)
    subst h4
    exact tail_inj hc hv hw

end

end EPL
