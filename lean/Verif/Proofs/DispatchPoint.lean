/-
From a valid dispatch of a site to a feasible point of its program with the same cost.
-/
import Verif.Proofs.DispatchPlan
import Verif.Proofs.Point
import Verif.Proofs.Added
import Verif.Props.Objectives
import Verif.Props.Custom

namespace EPL

section
variable {s : Site} {flags : Flags} {W : String → Nat → ℚ}

theorem asset_played (hn : 0 < s.data.n) (hp : s.Plugs) (hb : ∀ i < s.data.n, ∀ a ∈ s.assets, a.Buildable i) {a : Asset} (ha : a ∈ s.assets)
    (h : a.Plays s flags W) : ∃ σ, a.Played s flags W σ := by
  cases a with
  | battery c => exact battery_played hn h
  | boiler c => exact boiler_played (hb 0 hn _ ha) h
  | chp c => exact chp_played h
  | evs c =>
    obtain ⟨a, x, hm, hx⟩ := h
    exact evs_played hn hp ha (fun i hi => hb i hi _ ha) hm hx
  | heatPump c => exact heatPump_played h
  | renewable c => exact renewable_played (fun i hi => hb i hi _ ha) h
  | spill c => exact spill_played h
  | valve c => exact valve_played h

theorem planned_sum {plan : Asset → Assign} (hpl : ∀ a ∈ s.assets, a.Played s flags W (plan a)) {i : Nat} (hi : i < s.data.n) {q : String}
    (hq : q ∈ quantities) {sel : Base → Val} (hsel : ∀ b : Base, b.get? q = some (sel b)) : s.planned flags plan sel i = s.assetSum W q i := by
  unfold Site.planned Site.assetSum
  refine list_sum_congr fun a ha => ?_
  rw [← (hpl a ha).flow i hi q hq]
  refine list_sum_congr fun o _ => ?_
  simp [OneInterval.flow, hsel]

theorem flow_congr {σ τ : Assign} {q : String} {o : OneInterval} (h : o.base.AllOver (fun v => σ v.id = τ v.id)) :
    OneInterval.flow σ q o = OneInterval.flow τ q o := by
  unfold OneInterval.flow
  cases hg : o.base.get? q with
  | none => rfl
  | some v => exact val_eval_congr (h.get hg)

/-- A valid dispatch fulfils the program, with its flows, cost, emissions and penalised energy. -/
theorem dispatch_fulfils (hrow : ∀ i < s.data.n, s.data.HasRow i) (hnd : (s.assets.map Asset.name).Nodup) (hn : 0 < s.data.n)
    (hb : ∀ i < s.data.n, ∀ a ∈ s.assets, a.Buildable i) (hp : s.Plugs) (hW : s.Dispatch flags W) :
    ∃ σ, s.Fulfils flags σ ∧ s.Shows flags W σ ∧ s.costOf σ = s.readCost W ∧ s.emissionsOf σ = s.readEmissions W ∧
      s.spillOf flags σ = s.readSpill W := by
  have hex : ∀ a : Asset, ∃ σ : Assign, a ∈ s.assets → a.Played s flags W σ := fun a => by
    by_cases ha : a ∈ s.assets
    · obtain ⟨σ, hσ⟩ := asset_played hn hp hb ha (hW.assets a ha)
      exact ⟨σ, fun _ => hσ⟩
    · exact ⟨fun _ => 0, fun h => absurd h ha⟩
  choose plan hpl using hex
  let grid : Nat → ℚ := fun i => W "site-import_power_mwh" i - W "site-export_power_mwh" i
  have hil : 0 ≤ s.mwh s.importLimit := (hW.imports 0 hn).1.trans (hW.imports 0 hn).2
  have hel : 0 ≤ s.mwh s.exportLimit := (hW.exports 0 hn).1.trans (hW.exports 0 hn).2
  have sums := fun {i : Nat} (hi : i < s.data.n) {q : String} (hq : q ∈ quantities) {sel : Base → Val} hsel =>
    planned_sum (plan := plan) hpl hi hq (sel := sel) hsel
  have F := point_fulfils (flags := flags) (grid := grid) (plan := plan) hrow hnd hn hb (fun a ha => (hpl a ha).fits) hil hel
    (fun i hi => by
      have h1 := hW.imports i hi
      have h2 := hW.exports i hi
      simp only [grid, Site.mwh]
      constructor <;> linarith [h1.1, h1.2, h2.1, h2.2])
    (fun i hi => by
      rw [sums hi (q := "electric_generation_mwh") (by decide) (fun _ => rfl), sums hi (q := "electric_load_mwh") (by decide) (fun _ => rfl),
        sums hi (q := "electric_charge_mwh") (by decide) (fun _ => rfl), sums hi (q := "electric_discharge_mwh") (by decide) (fun _ => rfl)]
      have := hW.electricity i hi
      rw [(hW.inputs.loads i hi).1] at this
      simp only [grid]
      linarith)
    (fun i hi => by
      rw [sums hi (q := "high_temperature_generation_mwh") (by decide) (fun _ => rfl), sums hi (q := "high_temperature_load_mwh") (by decide) (fun _ => rfl)]
      have := hW.high i hi
      rw [(hW.inputs.loads i hi).2.1] at this
      linarith)
    (fun i hi => by
      rw [sums hi (q := "low_temperature_generation_mwh") (by decide) (fun _ => rfl), sums hi (q := "low_temperature_load_mwh") (by decide) (fun _ => rfl)]
      have := hW.low i hi
      rw [(hW.inputs.loads i hi).2.2.1, (hW.inputs.loads i hi).2.2.2] at this
      linarith)
  have him : ∀ i < s.data.n, importOf (s.point grid plan) i = W "site-import_power_mwh" i := by
    intro i hi
    show max (grid i) 0 = _
    rcases hW.oneWay i hi with h0 | h0
    · rw [max_eq_right (by simp only [grid]; linarith [(hW.exports i hi).1]), h0]
    · rw [max_eq_left (by simp only [grid]; linarith [(hW.imports i hi).1])]
      simp only [grid]
      linarith
  have hex : ∀ i < s.data.n, exportOf (s.point grid plan) i = W "site-export_power_mwh" i := by
    intro i hi
    show max (-grid i) 0 = _
    rcases hW.oneWay i hi with h0 | h0
    · rw [max_eq_left (by simp only [grid]; linarith [(hW.exports i hi).1])]
      simp only [grid]
      linarith
    · rw [max_eq_right (by simp only [grid]; linarith [(hW.imports i hi).1]), h0]
  have hgas : ∀ i < s.data.n, s.gasOf (s.point grid plan) i = s.assetSum W "gas_consumption_mwh" i := fun i hi =>
    list_sum_congr fun a ha => (gasOf_congr fun v hv => point_asset hnd ha hv).trans ((hpl a ha).gas i hi)
  have hsp : ∀ i < s.data.n, s.spilledOf flags (s.point grid plan) i = (s.assets.map (fun a => rowSum W a.penalised i)).sum := fun i hi =>
    list_sum_congr fun a ha => (spilledOf_congr fun v hv => point_asset hnd ha hv).trans ((hpl a ha).spilled i hi)
  obtain ⟨cs, hcs⟩ := build_ok (flags := flags) hnd hn hrow hb
  have hvars := (built_of_build hnd hcs).vars
  have hcell : ∀ a ∈ s.assets, ∀ i < s.data.n, ∀ o ∈ a.ois i s.freq flags, ∀ q : String,
      OneInterval.flow (s.point grid plan) q o = OneInterval.flow (plan a) q o := fun a ha i hi o ho q =>
    flow_congr (allOver_mono (ois_over (hb i hi a ha) ho).1 fun v hv => point_asset hnd ha hv)
  refine ⟨s.point grid plan, F, ⟨hvars, hb, fun a ha i hi q hq => ?_, fun c hc i hi q hq => ?_, fun i hi => (him i hi).symm,
    fun i hi => (hex i hi).symm⟩, ?_, ?_, ?_⟩
  · rw [← (hpl a ha).flow i hi q hq]
    exact list_sum_congr fun o ho => (hcell a ha i hi o ho q).symm
  · have hrow := (hb i hi _ hc : c.Shape ∧ c.HasRow i).2
    have ho : (Asset.evs c).ois i s.freq flags = (c.objs c.chargers i s.freq flags true true false).map .ev ++
        (c.objs c.spillChargers i s.freq flags false false true).map .evSpill := by
      simp only [Asset.ois, ois_evs (hrow.matOk _)]
    obtain ⟨e1, e2⟩ := (hpl _ hc).evs c rfl i hi q hq
    rw [e1, e2]
    exact ⟨list_sum_congr fun o h => (hcell _ hc i hi o (by rw [ho]; exact List.mem_append_left _ h) q).symm,
      list_sum_congr fun o h => (hcell _ hc i hi o (by rw [ho]; exact List.mem_append_right _ h) q).symm⟩
  · refine list_sum_congr fun i hi => ?_
    rw [List.mem_range] at hi
    obtain ⟨e1, e2, e3, e4⟩ := hW.inputs.prices i hi
    rw [him i hi, hex i hi, hgas i hi, e1, e2, e4]
  · refine list_sum_congr fun i hi => ?_
    rw [List.mem_range] at hi
    obtain ⟨e1, e2, e3, e4⟩ := hW.inputs.prices i hi
    rw [him i hi, hex i hi, hgas i hi, e3]
  · refine list_sum_congr fun i hi => ?_
    rw [List.mem_range] at hi
    exact hsp i hi

/-- The readable attributes of the objects of a fulfilled program are within their bounds. -/
theorem fulfils_has {σ : Assign} (h : s.Fulfils flags σ) (hv : VarsOk s flags s.data.n) :
    (s.ivarsTo flags s.data.n).Has (· ∈ readable) (fun v => v.InBounds σ) := by
  intro l hl o ho attr v hA hg
  simp only [Site.ivarsTo, List.mem_map, List.mem_range] at hl
  obtain ⟨i, hi, rfl⟩ := hl
  have hb := h.ones i hi o ho
  by_cases hq : attr ∈ quantities
  · have hg' : o.base.get? attr = some v := by
      unfold OneInterval.getattr at hg
      simp only [quantities, List.mem_cons, List.not_mem_nil, or_false] at hq
      rcases hq with rfl | rfl | rfl | rfl | rfl | rfl | rfl | rfl | rfl <;> simpa [Base.get?] using hg
    exact hb.get hg'
  · have hs : attr = "import_power_mwh" ∨ attr = "export_power_mwh" := by
      simp only [readable, List.mem_cons] at hA
      tauto
    rw [ones_eq hv hi, List.mem_cons, List.mem_flatMap] at ho
    rcases ho with rfl | ⟨a, ha, ho⟩
    · rcases hs with rfl | rfl
      · simp only [OneInterval.getattr, Base.get?, OneInterval.extra?] at hg
        simp at hg
        subst hg
        exact h.imports i hi
      · simp only [OneInterval.getattr, Base.get?, OneInterval.extra?] at hg
        simp at hg
        subst hg
        exact h.exports i hi
    · have hk := kinds_ne_site (ois_name_kind ho).2
      rcases hs with rfl | rfl <;> cases o <;>
        simp_all [OneInterval.getattr, Base.get?, OneInterval.extra?, OneInterval.kind]

/-- A valid dispatch that respects the custom constraints is a feasible point of the program, with its cost, emissions and penalised energy. -/
theorem dispatch_answer {name : String} {iv : IVars} {p : Prob} (hprog : s.program (.str name) flags = .ok (iv, p)) (hn : 0 < s.data.n) (hp : s.Plugs)
    (hr : ∀ c ∈ s.constraints, c.Readable) (hW : s.Dispatch flags W) (hob : s.Obeys W) :
    ∃ σ, p.Feasible σ ∧ s.costOf σ = s.readCost W ∧ s.emissionsOf σ = s.readEmissions W ∧ s.spillOf flags σ = s.readSpill W := by
  have hP := program_spec hprog
  obtain ⟨σ, F, hsh, h1, h2, h3⟩ := dispatch_fulfils (fun i hi => hP.rows hi) hP.vars.nodup hn (fun i hi a ha => hP.buildable hi ha) hp hW
  refine ⟨σ, ?_, h1, h2, h3⟩
  obtain ⟨base, custom, objCons, hb, hcu, ho, he⟩ := hP.built
  have hiv := hP.iv_eq
  have hgood : ∀ c ∈ p.cons, c.Good σ := by
    intro con hcon
    rw [he, (str_objective ho).1, List.append_nil, List.mem_append] at hcon
    rcases hcon with hcon | hcon
    · exact F.base con ((hb.mem_iff con).1 hcon)
    · obtain ⟨c, hc, cs, hcs, hmem⟩ := (flatMapE_mem hcu).1 hcon
      have hl : c.lhs.On (· ∈ readable) := fun t ht => hr c hc t (List.mem_append_left _ ht)
      have hrr : c.rhs.On (· ∈ readable) := fun t ht => hr c hc t (List.mem_append_right _ ht)
      refine good ?_ (customConstraint_has (hiv ▸ fulfils_has F hP.vars) hl hrr hcs con hmem)
      revert con
      suffices H : ∀ con ∈ cs, con.Holds σ from fun con _ hm => H con hm
      cases ha : c.sumAgg with
      | false =>
        rw [C37_exact ha hcs]
        intro i hi
        rw [hiv, side_read hsh hi hl, side_read hsh hi hrr]
        exact (hob c hc).1 ha i hi
      | true =>
        rw [C38_exact ha hn hcs, hiv, side_total_read hsh hl, side_total_read hsh hrr]
        exact (hob c hc).2 ha
  refine ⟨fun c hc => (hgood c hc).1, fun v hv => ?_⟩
  rcases prob_vars_iff.1 hv with ⟨c, hc, hv⟩ | hv
  · exact (hgood c hc).2 v hv
  · exact fulfils_objective F hP v hv

end

end EPL
