/-
Selected objects against columns.
-/
import Verif.Proofs.Flows
import Verif.Proofs.Terms
import Verif.Spec.Reads

namespace EPL

theorem filter_const {α : Type} {l : List α} {P : α → Prop} [DecidablePred P] {Q : Prop} [Decidable Q]
    (h : ∀ a ∈ l, P a ↔ Q) : l.filter (fun a => decide (P a)) = if Q then l else [] := by
  split
  · rename_i hq
    rw [List.filter_eq_self]
    intro a ha
    simpa using (h a ha).2 hq
  · rename_i hq
    rw [List.filter_eq_nil_iff]
    intro a ha
    simpa using fun hp => hq ((h a ha).1 hp)

/-- In an asset other than electric vehicles there is only one class of objects. -/
theorem kind_types {a : Asset} (he : ∀ c, a ≠ .evs c) {k : Kind} (hk : k ∈ a.kinds) (type : Option String) :
    (type = none ∨ type = some "*" ∨ k.typeName = type) ↔ (type = none ∨ type = some "*" ∨ type ∈ a.typeNames.map some) := by
  cases a with
  | evs c => exact absurd rfl (he c)
  | _ =>
    simp only [Asset.kinds, List.mem_singleton] at hk
    subst hk
    simp only [Asset.typeNames, Kind.typeName, @eq_comm _ type, List.map_cons, List.map_nil, List.mem_cons, List.not_mem_nil, or_false]
    try tauto

theorem flow_attrValue {σ : Assign} {o : OneInterval} {q : String} (hq : q ∈ quantities) : o.attrValue σ q = o.flow σ q := by
  have : ∃ v, o.base.get? q = some v := by
    simp only [quantities, List.mem_cons, List.not_mem_nil, or_false] at hq
    rcases hq with rfl | rfl | rfl | rfl | rfl | rfl | rfl | rfl | rfl <;> exact ⟨_, rfl⟩
  obtain ⟨v, hv⟩ := this
  simp [OneInterval.attrValue, OneInterval.getattr, OneInterval.flow, hv]

/-- An assignment has the flows of a table. -/
structure Site.Shows (s : Site) (flags : Flags) (V : String → Nat → ℚ) (σ : Assign) : Prop where
  vars : VarsOk s flags s.data.n
  buildable : ∀ i < s.data.n, ∀ a ∈ s.assets, a.Buildable i
  flow : ∀ a ∈ s.assets, ∀ i < s.data.n, ∀ q ∈ quantities, rowSum V (a.reports q) i = ((a.ois i s.freq flags).map (OneInterval.flow σ q)).sum
  evs : ∀ c, Asset.evs c ∈ s.assets → ∀ i < s.data.n, ∀ q ∈ quantities,
    rowSum V (c.reportsOf c.chargers q) i = (((c.objs c.chargers i s.freq flags true true false).map .ev).map (OneInterval.flow σ q)).sum ∧
    rowSum V (c.reportsOf c.spillChargers q) i =
      (((c.objs c.spillChargers i s.freq flags false false true).map .evSpill).map (OneInterval.flow σ q)).sum
  imports : ∀ i < s.data.n, V "site-import_power_mwh" i = σ (.site "import_power_mw" i)
  exports : ∀ i < s.data.n, V "site-export_power_mwh" i = σ (.site "export_power_mw" i)

section
variable {s : Site} {objective : Objective} {flags : Flags} {S : Solver} {r : SimResult} {V : String → Nat → ℚ} {p : Prob}
  {σ : Assign}

theorem core_shows (h : Core s objective flags S r V p σ) (hw : ∀ a ∈ s.assets, a.WellNamed) : s.Shows flags V σ :=
  ⟨h.prog.vars, fun _ hi _ ha => h.prog.buildable hi ha, fun a ha _ hi _ hq => asset_flow h ha (hw a ha) hi hq,
    fun _ hc _ hi _ hq => ev_flow h hc (hw _ hc).1 hi hq, fun _ hi => h.import_cell hi, fun _ hi => h.export_cell hi⟩

/-- The selected objects of an asset against its columns. -/
theorem asset_read (h : s.Shows flags V σ) {a : Asset} (ha : a ∈ s.assets) {i : Nat}
    (hi : i < s.data.n) {q : String} (hq : q ∈ quantities) (type name : Option String) :
    (((a.ois i s.freq flags).filter (fun o => Selected type name o)).map (OneInterval.flow σ q)).sum =
      a.read V type name q i := by
  have hf := h.flow a ha i hi q hq
  by_cases hn : name = none ∨ name = some a.name
  swap
  · have : (a.ois i s.freq flags).filter (fun o => Selected type name o) = [] := by
      rw [List.filter_eq_nil_iff]
      intro o ho
      have := (ois_name_kind ho).1
      simp only [decide_eq_true_eq]
      rintro ⟨_, h2⟩
      rw [this] at h2
      exact hn h2
    rw [this]
    simp [Asset.read, hn]
  by_cases he : ∀ c, a ≠ .evs c
  ·
    have hsel : (a.ois i s.freq flags).filter (fun o => Selected type name o) =
        if (type = none ∨ type = some "*" ∨ type ∈ a.typeNames.map some) then a.ois i s.freq flags else [] := by
      apply filter_const
      intro o ho
      obtain ⟨h1, h2⟩ := ois_name_kind ho
      unfold Selected
      rw [kind_types he h2, h1]
      simp only [hn, and_true]
    have hu : a.units = [a.name] := by
      cases a with
      | evs c => exact absurd rfl (he c)
      | _ => rfl
    have hut : a.unitsOf type = if (type = none ∨ type = some "*" ∨ type ∈ a.typeNames.map some) then [a.name] else [] := by
      cases a with
      | evs c => exact absurd rfl (he c)
      | _ => rfl
    rw [hsel]
    unfold Asset.read
    rw [hut]
    unfold Asset.reports at hf
    rw [hu] at hf
    simp only [hn, true_and]
    split
    · rw [← hf]
      split <;> simp [rowSum]
    · split <;> simp [rowSum]
  · obtain ⟨c, rfl⟩ : ∃ c, a = .evs c := by
      by_contra hx
      exact he (fun c hc => hx ⟨c, hc⟩)
    obtain ⟨_, hrow⟩ := (h.buildable i hi _ ha : c.Shape ∧ c.HasRow i)
    have ho : (Asset.evs c).ois i s.freq flags = (c.objs c.chargers i s.freq flags true true false).map .ev ++
        (c.objs c.spillChargers i s.freq flags false false true).map .evSpill := by
      simp only [Asset.ois, ois_evs (hrow.matOk _)]
    obtain ⟨e1, e2⟩ := h.evs c ha i hi q hq
    have hname : ∀ o ∈ (Asset.evs c).ois i s.freq flags, o.name = c.name := fun o ho => (ois_name_kind ho).1
    rw [ho] at hname ⊢
    have s1 : ((c.objs c.chargers i s.freq flags true true false).map OneInterval.ev).filter (fun o => Selected type name o) =
        if (type = none ∨ type = some "*" ∨ type = some "evs") then (c.objs c.chargers i s.freq flags true true false).map .ev else [] := by
      apply filter_const
      intro o ho
      have hnm := hname o (List.mem_append_left _ ho)
      obtain ⟨e, _, rfl⟩ := List.mem_map.1 ho
      unfold Selected
      rw [hnm]
      simp only [OneInterval.kind, Kind.typeName]
      have : name = none ∨ name = some c.name := hn
      simp only [this, and_true, eq_comm]
    have s2 : ((c.objs c.spillChargers i s.freq flags false false true).map OneInterval.evSpill).filter (fun o => Selected type name o) =
        if (type = none ∨ type = some "*" ∨ type = some "spill_evs") then
          (c.objs c.spillChargers i s.freq flags false false true).map .evSpill else [] := by
      apply filter_const
      intro o ho
      have hnm := hname o (List.mem_append_right _ ho)
      obtain ⟨e, _, rfl⟩ := List.mem_map.1 ho
      unfold Selected
      rw [hnm]
      simp only [OneInterval.kind, Kind.typeName]
      have : name = none ∨ name = some c.name := hn
      simp only [this, and_true, eq_comm]
    rw [List.filter_append, s1, s2, List.map_append, List.sum_append]
    unfold Asset.read
    unfold EvsCfg.reportsOf at e1 e2
    by_cases hm : q ∈ ["electric_charge_mwh", "electric_discharge_mwh"]
    · rw [if_pos hm] at e1 e2
      rw [if_pos (c := (name = none ∨ name = some (Asset.evs c).name) ∧ q ∈ (Asset.evs c).flows) ⟨hn, hm⟩]
      simp only [rowSum, Asset.unitsOf, List.map_append, List.sum_append]
      congr 1
      · split
        · rw [← e1]; simp [rowSum, Function.comp_def]
        · simp
      · split
        · rw [← e2]; simp [rowSum, Function.comp_def]
        · simp
    · rw [if_neg hm] at e1 e2
      rw [if_neg (c := (name = none ∨ name = some (Asset.evs c).name) ∧ q ∈ (Asset.evs c).flows) (fun h => hm h.2)]
      simp only [rowSum, List.map_nil, List.sum_nil] at e1 e2
      split <;> split <;> simp only [← e1, ← e2, List.map_nil, List.sum_nil, add_zero]

/-- A term of a custom constraint against the columns. -/
theorem term_shows (h : s.Shows flags V σ) {i : Nat} (hi : i < s.data.n)
    {attr : String} (ha : attr ∈ readable) (type name data : Option String) (k : ℚ) :
    termSum σ s.data i attr data k ((s.ones flags i).filter (fun o => Selected type name o)) =
      s.read V type name attr i * s.data.value data i * k := by
  unfold termSum
  have e1 : ∀ l : List OneInterval, (l.map (fun o => o.attrValue σ attr * s.data.value data i * k)).sum =
      (l.map (fun o => o.attrValue σ attr)).sum * s.data.value data i * k := by
    intro l
    rw [← List.sum_map_mul_right, ← List.sum_map_mul_right]
  rw [e1]
  congr 2
  rw [ones_eq h.vars hi, List.filter_cons]
  have hrest : ∀ (g : OneInterval → ℚ), (((s.assets.flatMap (fun a => a.ois i s.freq flags)).filter (fun o => decide (Selected type name o))).map g).sum =
      (s.assets.map (fun a => (((a.ois i s.freq flags).filter (fun o => Selected type name o)).map g).sum)).sum := by
    intro g
    rw [List.filter_flatMap, list_sum_flatMap]
  simp only [readable, List.mem_cons] at ha
  by_cases hx : attr = "import_power_mwh" ∨ attr = "export_power_mwh"
  · have z : ((((s.assets.flatMap (fun a => a.ois i s.freq flags)).filter (fun o => decide (Selected type name o))).map
        (fun o => o.attrValue σ attr))).sum = 0 := by
      apply list_sum_zero
      intro o ho
      obtain ⟨a, ha', ho⟩ := List.mem_flatMap.1 (List.mem_filter.1 ho).1
      have hk := kinds_ne_site (ois_name_kind ho).2
      rcases hx with rfl | rfl <;> cases o <;>
        simp_all [OneInterval.attrValue, OneInterval.getattr, Base.get?, OneInterval.extra?, OneInterval.kind]
    have hs : (OneInterval.site (s.oneInterval i)).attrValue σ attr = V ("site-" ++ attr) i := by
      rcases hx with rfl | rfl
      · exact (h.imports i hi).symm
      · exact (h.exports i hi).symm
    have hsel : Selected type name (OneInterval.site (s.oneInterval i)) ↔
        (type = none ∨ type = some "*" ∨ type = some "site") ∧ (name = none ∨ name = some "site") := by
      simp only [Selected, OneInterval.kind, Kind.typeName, OneInterval.name, eq_comm]
    unfold Site.read
    rw [if_pos hx]
    by_cases hc : Selected type name (OneInterval.site (s.oneInterval i))
    · rw [if_pos (hsel.1 hc), if_pos (by simpa using hc), List.map_cons, List.sum_cons, z, add_zero, hs]
    · rw [if_neg (fun h => hc (hsel.2 h)), if_neg (by simpa using hc), z]
  · have hq : attr ∈ quantities := by tauto
    have z : (OneInterval.site (s.oneInterval i)).attrValue σ attr = 0 := by
      rw [flow_attrValue hq]
      simp only [quantities, List.mem_cons, List.not_mem_nil, or_false] at hq
      rcases hq with rfl | rfl | rfl | rfl | rfl | rfl | rfl | rfl | rfl <;>
        simp [OneInterval.flow, OneInterval.base, Base.get?, Val.eval]
    have e2 : ((if decide (Selected type name (OneInterval.site (s.oneInterval i))) = true then
        OneInterval.site (s.oneInterval i) :: (s.assets.flatMap (fun a => a.ois i s.freq flags)).filter (fun o => decide (Selected type name o))
        else (s.assets.flatMap (fun a => a.ois i s.freq flags)).filter (fun o => decide (Selected type name o))).map
          (fun o => o.attrValue σ attr)).sum =
        (((s.assets.flatMap (fun a => a.ois i s.freq flags)).filter (fun o => decide (Selected type name o))).map
          (fun o => o.attrValue σ attr)).sum := by
      split
      · rw [List.map_cons, List.sum_cons, z, zero_add]
      · rfl
    rw [e2, hrest]
    unfold Site.read
    rw [if_neg hx]
    apply list_sum_congr
    intro a ha'
    rw [← asset_read h ha' hi hq]
    apply list_sum_congr
    intro o _
    exact flow_attrValue hq

theorem term_read (h : Core s objective flags S r V p σ) (hw : ∀ a ∈ s.assets, a.WellNamed) {i : Nat} (hi : i < s.data.n)
    {attr : String} (ha : attr ∈ readable) (type name data : Option String) (k : ℚ) :
    termSum σ s.data i attr data k ((s.ones flags i).filter (fun o => Selected type name o)) =
      s.read V type name attr i * s.data.value data i * k := term_shows (core_shows h hw) hi ha ..

/-- A side of a custom constraint against the columns. -/
theorem side_read (h : s.Shows flags V σ) {i : Nat} (hi : i < s.data.n) {side : CSide} (hr : ∀ t, CEntry.term t ∈ side.entries → t.attr ∈ readable) :
    side.value σ s.data ((s.ivarsTo flags s.data.n).getD i []) i = side.read s V i := by
  have e : (s.ivarsTo flags s.data.n).getD i [] = s.ones flags i := by
    rw [List.getD_eq_getElem?_getD, ivarsTo_get s flags hi]; rfl
  rw [e]
  unfold CSide.value CSide.read
  apply list_sum_congr
  intro x hx
  cases x with
  | num q => rfl
  | term t => exact term_shows h hi (hr t hx) ..

theorem side_total_read (h : s.Shows flags V σ) {side : CSide} (hr : ∀ t, CEntry.term t ∈ side.entries → t.attr ∈ readable) :
    side.total σ s.data (s.ivarsTo flags s.data.n) s.data.n = side.readTotal s V := by
  unfold CSide.total CSide.readTotal
  apply list_sum_congr
  intro x hx
  cases x with
  | num q => rfl
  | term t =>
    simp only [CEntry.total, CEntry.readTotal]
    apply list_sum_congr
    intro i hi
    rw [List.mem_range] at hi
    have e : (s.ivarsTo flags s.data.n).getD i [] = s.ones flags i := by
      rw [List.getD_eq_getElem?_getD, ivarsTo_get s flags hi]; rfl
    rw [e]
    exact term_shows h hi (hr t hx) ..

end

end EPL
