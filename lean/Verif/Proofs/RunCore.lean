/-
From a run to the values of the variables.
-/
import Verif.Proofs.SiteNew
import Verif.Spec.Run

namespace EPL

theorem Site.Constructed.wf {s : Site} (h : s.Constructed) : s.data.WF := by
  obtain ⟨_, _, _, _, _, _, _, h⟩ := h
  exact (site_new h).wf

/-- Everything a run tells about the values behind the table. -/
structure Core (s : Site) (objective : Objective) (flags : Flags) (S : Solver) (r : SimResult) (V : String → Nat → ℚ) (p : Prob)
    (σ : Assign) : Prop where
  prog : Prog s objective flags (s.ivarsTo flags s.data.n) p
  program : s.program objective flags = .ok (s.ivarsTo flags s.data.n, p)
  feas : p.Feasible σ
  status : (S p).status = "Optimal"
  objectiveValue : r.status.objective = p.obj.value (p.valuesOf (S p))
  outcome : Outcome s flags σ r.results
  values : ∀ v ∈ p.vars, (S p).value v.id = some (σ v.id)
  cell : ∀ i < s.data.n, ∀ c ∈ s.row flags σ i, c.1 ∉ totalKeys → V c.1 i = c.2
  keys : ∀ i < s.data.n, (s.row flags σ i).map Prod.fst = s.keys

theorem Run.core {s : Site} {objective : Objective} {flags : Flags} {S : Solver} {r : SimResult} {V : String → Nat → ℚ}
    (h : Run s objective flags S r V) : ∃ p σ, Core s objective flags S r V p σ := by
  obtain ⟨p, σ, hr, hp, hf, hv, ho⟩ := optimize_feasible h.sound h.constructed.wf h.returned h.feasible
  have hkeys : ∀ i < s.data.n, (s.row flags σ i).map Prod.fst = s.keys := fun i hi => row_keys (fun a ha => hp.buildable hi ha)
  have hst : (S p).status = "Optimal" := by
    have := hr.feasible
    rw [h.feasible] at this
    simpa using this.symm
  refine ⟨p, σ, hp, hr.program, hf, hst, hr.objective, ho, hv, ?_, hkeys⟩
  intro i hi c hc hk
  have h1 := ho.cell i hi c hc hk
  have hm : c.1 ∈ r.results.columns := (ho.columns c.1).2 (.inl (by
    rw [← hkeys i hi]; exact List.mem_map_of_mem hc))
  rw [h.reads _ hm i hi] at h1
  simpa using h1

/-- Every table can be read. -/
theorem exists_reads {t : Table} {n : Nat} (h : ∀ c ∈ t, c.2.length = n) (hn : t.columns.Nodup) : ∃ V, t.Reads n V := by
  refine ⟨fun k i => (t.cell k i).getD 0, ?_⟩
  intro k hk i hi
  obtain ⟨c, hc, rfl⟩ := List.mem_map.1 hk
  have hl := mem_lookup hn (k := c.1) (col := c.2) hc
  have := h c hc
  simp [Table.cell, hl, this, hi]

section
variable {s : Site} {objective : Objective} {flags : Flags} {S : Solver} {r : SimResult} {V : String → Nat → ℚ} {p : Prob}
  {σ : Assign} (h : Core s objective flags S r V p σ)
include h

theorem Core.holds {c : Con} (hc : c ∈ p.cons) : c.Holds σ := h.feas.1 c hc

theorem Core.bounds {c : Con} {v : LpVar} (hc : c ∈ p.cons) (hv : v ∈ c.e.vars) : v.InBounds σ := h.feas.bounds hc hv

theorem Core.asset_cell {i : Nat} (hi : i < s.data.n) {a : Asset} (ha : a ∈ s.assets) {c : String × ℚ}
    (hc : c ∈ a.cells i s.freq flags σ) (hk : c.1 ∉ totalKeys) : V c.1 i = c.2 :=
  h.cell i hi c (List.mem_append_right _ (List.mem_flatMap.2 ⟨a, ha, hc⟩)) hk

theorem Core.import_cell {i : Nat} (hi : i < s.data.n) : V "site-import_power_mwh" i = σ (s.oneInterval i).importPower.id :=
  h.cell i hi ("site-import_power_mwh", _) (List.mem_append_left _ (by simp [Site.cells])) (by decide : "site-import_power_mwh" ∉ totalKeys)

theorem Core.export_cell {i : Nat} (hi : i < s.data.n) : V "site-export_power_mwh" i = σ (s.oneInterval i).exportPower.id :=
  h.cell i hi ("site-export_power_mwh", _) (List.mem_append_left _ (by simp [Site.cells])) (by decide : "site-export_power_mwh" ∉ totalKeys)

theorem Core.data_cell {i : Nat} (hi : i < s.data.n) {f : String × List ℚ} (hf : f ∈ s.data.dump)
    (hk : "site-" ++ f.1 ∉ totalKeys) : V ("site-" ++ f.1) i = f.2.getD i 0 :=
  h.cell i hi ("site-" ++ f.1, f.2.getD i 0)
    (List.mem_append_left _ (by
      simp only [Site.cells, List.mem_cons]
      exact .inr (.inr (List.mem_map.2 ⟨f, hf, rfl⟩)))) hk

omit h in
theorem single_key {name attr : String} (hn : name ≠ "total") (hd : NoDash attr) (ha : attr ≠ "electricity_balance_mwh") :
    name ++ "-" ++ attr ∉ totalKeys := by
  intro hm
  have hk : ∀ k ∈ totalKeys, ∃ pre at', k = pre ++ "-" ++ at' ∧ NoDash at' ∧
      (pre = "total" ∨ (pre = "site" ∧ at' = "electricity_balance_mwh")) := by
    intro k hk
    simp only [totalKeys, List.mem_append, List.mem_map, List.mem_cons, List.not_mem_nil, or_false] at hk
    rcases hk with ⟨q, hq, rfl⟩ | rfl | rfl | rfl
    · refine ⟨"total", q, ?_, quantities_noDash hq, .inl rfl⟩
      rw [str_eq_iff]; simp [String.toList_append]
    · exact ⟨"total", "spills_mwh", by decide, by decide, .inl rfl⟩
    · exact ⟨"total", "electric_loss_mwh", by decide, by decide, .inl rfl⟩
    · exact ⟨"site", "electricity_balance_mwh", by decide, by decide, .inr ⟨rfl, rfl⟩⟩
  obtain ⟨pre, at', he, hd', hcase⟩ := hk _ hm
  obtain ⟨rfl, rfl⟩ := dash_inj hd hd' he
  rcases hcase with rfl | ⟨_, rfl⟩
  · exact hn rfl
  · exact ha rfl

omit h in
theorem double_key {name mid attr : String} (hd : NoDash attr) : name ++ "-" ++ mid ++ "-" ++ attr ∉ totalKeys := by
  intro hm
  have hk : ∀ k ∈ totalKeys, ∃ pre at', k = pre ++ "-" ++ at' ∧ NoDash at' ∧ NoDash pre := by
    intro k hk
    simp only [totalKeys, List.mem_append, List.mem_map, List.mem_cons, List.not_mem_nil, or_false] at hk
    rcases hk with ⟨q, hq, rfl⟩ | rfl | rfl | rfl
    · refine ⟨"total", q, ?_, quantities_noDash hq, by decide⟩
      rw [str_eq_iff]; simp [String.toList_append]
    · exact ⟨"total", "spills_mwh", by decide, by decide, by decide⟩
    · exact ⟨"total", "electric_loss_mwh", by decide, by decide, by decide⟩
    · exact ⟨"site", "electricity_balance_mwh", by decide, by decide, by decide⟩
  obtain ⟨pre, at', he, hd', hp⟩ := hk _ hm
  obtain ⟨rfl, _⟩ := dash_inj hd hd' he
  apply hp
  simp [String.toList_append]

omit h in
theorem attr_ne_balance {attr : String} (ha : attr ∈ allAttrs) : attr ≠ "electricity_balance_mwh" := by
  rintro rfl
  revert ha
  decide +kernel

/-- The value of an attribute of an asset with a single object. -/
theorem Core.attr {i : Nat} (hi : i < s.data.n) {a : Asset} (ha : a ∈ s.assets) {x : OneInterval}
    (hx : a.ois i s.freq flags = [x]) (he : a.evs? = none) (hn : x.name ≠ "total") {at' : String} (hat : at' ∈ x.kind.cols) :
    V (x.name ++ "-" ++ at') i = x.kind.adjust (x.attrValue σ at') := by
  refine h.asset_cell hi ha (c := (x.name ++ "-" ++ at', _)) ?_
    (single_key hn (cols_noDash hat) (attr_ne_balance (cols_allAttrs hat)))
  rw [cells_single hx he]
  exact List.mem_map.2 ⟨at', hat, rfl⟩

end

theorem pyIn_ne {a b c : String} (h : pyIn a b = true) (hc : pyIn a c = false) : b ≠ c := by
  rintro rfl
  simp_all

theorem Asset.WellNamed.ne_total {a : Asset} (h : a.WellNamed) : a.name ≠ "total" := by
  cases a with
  | battery c => exact pyIn_ne h (by decide +kernel)
  | boiler c => exact pyIn_ne h (by decide +kernel)
  | chp c => exact pyIn_ne h (by decide +kernel)
  | evs c => exact pyIn_ne h.1 (by decide +kernel)
  | heatPump c => exact h
  | renewable c =>
    rcases h with h | h | h
    · exact pyIn_ne h (by decide +kernel)
    · exact pyIn_ne h (by decide +kernel)
    · exact pyIn_ne h (by decide +kernel)
  | spill c => exact pyIn_ne h (by decide +kernel)
  | valve c => exact pyIn_ne h (by decide +kernel)

end EPL
