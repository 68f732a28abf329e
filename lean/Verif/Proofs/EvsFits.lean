/-
EVs: the converse of `EvsFacts` - an assignment with these facts respects all constraints and bounds of the asset.
-/
import Verif.Proofs.EvsFacts
import Verif.Proofs.Owner
import Verif.Proofs.Growth

namespace EPL

/-- Everything the constraints and bounds of an EVs asset ask of an assignment. -/
structure EvPlan (c : EvsCfg) (f : Freq) (flags : Flags) (σ : Assign) (n : Nat) : Prop where
  pos : 0 < n
  shape : c.Shape
  rows : ∀ i < n, c.HasRow i
  facts : ∀ i < n, EvFacts c f flags σ i
  present : ∀ i < n, ∀ e < c.events.length, 0 ≤ c.present i e
  power : ∀ ch ∈ c.chargers, 0 ≤ f.mwToMwh ch.powerMax
  spillPower : ∀ ch ∈ c.spillChargers, 0 ≤ f.mwToMwh ch.powerMax
  loss : ∀ i < n, ∀ e < c.events.length, ∀ ch ∈ c.chargers, 0 ≤ c.lossOf σ i e ch.name false
  spillLoss : ∀ i < n, ∀ e < c.events.length, ∀ ch ∈ c.spillChargers, 0 ≤ c.lossOf σ i e ch.name true
  connect : ∀ i, i + 1 < n → ∀ ev ∈ c.events, c.initialSocOf σ (i + 1) ev = c.finalSocOf σ i ev
  ends : ∀ ev ∈ c.events, c.initialSocOf σ 0 ev = 0 ∧ c.finalSocOf σ (n - 1) ev = ev.capacity

theorem arr2_over_of {P : LpVar → Prop} {evs : List ChargeEventCfg} {chs : List ChargerCfg} {g : ChargeEventCfg → Nat → ChargerCfg → Nat → Val}
    (h : ∀ ev e ch k, evs[e]? = some ev → chs[k]? = some ch → (g ev e ch k).Over P) (e k : Nat) : (arr2 evs chs g e k).Over P := by
  unfold arr2
  split
  · exact h _ _ _ _ (by assumption) (by assumption)
  · trivial

theorem arr1_over_of {P : LpVar → Prop} {evs : List ChargeEventCfg} {g : ChargeEventCfg → Nat → Val}
    (h : ∀ ev e, evs[e]? = some ev → (g ev e).Over P) (e : Nat) : (arr1 evs g e).Over P := by
  unfold arr1
  split
  · exact h _ _ (by assumption)
  · trivial

section
variable {c : EvsCfg} {f : Freq} {flags : Flags} {σ : Assign} {n i : Nat}

theorem flowOk_in {id : VarId} {x b lo hi pr : ℚ} (h : FlowOk x b lo hi pr) (hx : σ id = x) (hi0 : 0 ≤ hi) :
    (continuous id (some 0) (some hi)).InBounds σ := by
  refine ⟨?_, ?_, ?_⟩
  · simpa [continuous, hx] using h.nonneg
  · have : x ≤ hi := by
      rcases h with ⟨rfl, _⟩ | ⟨_, _, _, h, _⟩
      · exact hi0
      · exact h
    simpa [continuous, hx] using this
  · simp [continuous]

theorem flowOk_bin {id : VarId} {x b lo hi pr : ℚ} (h : FlowOk x b lo hi pr) (hb : σ id = b) : (binary id).InBounds σ := by
  have : σ id = 0 ∨ σ id = 1 := by
    rcases h with ⟨_, h⟩ | ⟨h, _⟩
    · exact .inl (hb.trans h)
    · exact .inr (hb.trans h)
  refine ⟨?_, ?_, ?_⟩ <;> rcases this with h | h <;> simp [binary, h]

/-- The values of an object of the site's chargers. -/
theorem obj_in (P : EvPlan c f flags σ n) (hi : i < n) {ev : ChargeEventCfg} {e : Nat} {ch : ChargerCfg} {k : Nat}
    (he : c.events[e]? = some ev) (hk : c.chargers[k]? = some ch) :
    let o := c.obj i f flags true true false ev e ch k
    o.charge.Over (fun v => v.InBounds σ) ∧ o.chargeBin.Over (fun v => v.InBounds σ) ∧ o.discharge.Over (fun v => v.InBounds σ) ∧
      o.dischargeBin.Over (fun v => v.InBounds σ) ∧ o.loss.Over (fun v => v.InBounds σ) := by
  have F := P.facts i hi
  have hch := List.mem_of_getElem? hk
  have hp := P.power ch hch
  have a := fun h => (active_iff (flags := flags) (P.rows i hi) (event_lt he)).1 h
  refine ⟨?_, ?_, ?_, ?_, ?_⟩
  · simp only [EvsCfg.obj]
    split
    · rename_i h
      refine flowOk_in (F.charge e ev he ch hch) ?_ hp
      unfold EvsCfg.chargeOf
      rw [if_neg (a h)]
    · trivial
  · simp only [EvsCfg.obj]
    split
    · rename_i h
      refine flowOk_bin (F.charge e ev he ch hch) ?_
      unfold EvsCfg.chargeBinOf
      rw [if_neg (a h)]
    · trivial
  · simp only [EvsCfg.obj, Bool.true_and]
    split
    · rename_i h
      refine flowOk_in (F.discharge e ev he ch hch) ?_ hp
      simp [EvsCfg.dischargeOf, h]
    · trivial
  · simp only [EvsCfg.obj, Bool.true_and]
    split
    · rename_i h
      refine flowOk_bin (F.discharge e ev he ch hch) ?_
      simp [EvsCfg.dischargeBinOf, h]
    · trivial
  · have := P.loss i hi e (event_lt he) ch hch
    refine ⟨?_, ?_, ?_⟩ <;> simp [continuous]
    exact this

/-- The values of an object of the spill charger. -/
theorem obj_in_spill (P : EvPlan c f flags σ n) (hi : i < n) {ev : ChargeEventCfg} {e : Nat} {ch : ChargerCfg} {k : Nat}
    (he : c.events[e]? = some ev) (hk : c.spillChargers[k]? = some ch) :
    let o := c.obj i f flags false false true ev e ch k
    o.charge.Over (fun v => v.InBounds σ) ∧ o.chargeBin.Over (fun v => v.InBounds σ) ∧ o.discharge.Over (fun v => v.InBounds σ) ∧
      o.dischargeBin.Over (fun v => v.InBounds σ) ∧ o.loss.Over (fun v => v.InBounds σ) := by
  have F := P.facts i hi
  have hch := List.mem_of_getElem? hk
  have hp := P.spillPower ch hch
  have a := fun h => (active_iff (flags := flags) (P.rows i hi) (event_lt he)).1 h
  refine ⟨?_, ?_, ?_, ?_, ?_⟩
  · simp only [EvsCfg.obj]
    split
    · rename_i h
      refine flowOk_in (F.spill e ev he ch hch) ?_ hp
      unfold EvsCfg.chargeOf
      rw [if_neg (a h)]
    · trivial
  · simp only [EvsCfg.obj]
    split
    · rename_i h
      refine flowOk_bin (F.spill e ev he ch hch) ?_
      unfold EvsCfg.chargeBinOf
      rw [if_neg (a h)]
    · trivial
  · simp [EvsCfg.obj, Val.Over]
  · simp [EvsCfg.obj, Val.Over]
  · have := P.spillLoss i hi e (event_lt he) ch hch
    refine ⟨?_, ?_, ?_⟩ <;> simp [continuous]
    exact this

theorem array_in (P : EvPlan c f flags σ n) (hi : i < n) : (c.array i f flags).Over (fun v => v.InBounds σ) where
  initialSoc := arr1_over_of fun ev e he => by
    have := (P.facts i hi).soc e ev he
    refine ⟨?_, ?_, ?_⟩ <;> simp [EvsCfg.socVar, continuous]
    · exact this.1
    · exact this.2.1
  finalSoc := arr1_over_of fun ev e he => by
    have := (P.facts i hi).soc e ev he
    refine ⟨?_, ?_, ?_⟩ <;> simp [EvsCfg.socVar, continuous]
    · exact this.2.2.1
    · exact this.2.2.2
  charge := arr2_over_of fun _ _ _ _ he hk => (obj_in P hi he hk).1
  chargeBin := arr2_over_of fun _ _ _ _ he hk => (obj_in P hi he hk).2.1
  discharge := arr2_over_of fun _ _ _ _ he hk => (obj_in P hi he hk).2.2.1
  dischargeBin := arr2_over_of fun _ _ _ _ he hk => (obj_in P hi he hk).2.2.2.1
  loss := arr2_over_of fun _ _ _ _ he hk => (obj_in P hi he hk).2.2.2.2

theorem spillArray_in (P : EvPlan c f flags σ n) (hi : i < n) : (c.spillArray i f flags).Over (fun v => v.InBounds σ) where
  initialSoc := arr1_over fun _ _ => trivial
  finalSoc := arr1_over fun _ _ => trivial
  charge := arr2_over_of fun _ _ _ _ he hk => (obj_in_spill P hi he hk).1
  chargeBin := arr2_over_of fun _ _ _ _ he hk => (obj_in_spill P hi he hk).2.1
  discharge := arr2_over_of fun _ _ _ _ he hk => (obj_in_spill P hi he hk).2.2.1
  dischargeBin := arr2_over_of fun _ _ _ _ he hk => (obj_in_spill P hi he hk).2.2.2.1
  loss := arr2_over_of fun _ _ _ _ he hk => (obj_in_spill P hi he hk).2.2.2.2

/-- The three constraints of one flow. -/
theorem evFlowList_holds {x b : Val} {ce : ℚ} {ch : ChargerCfg} (h : FlowOk (x.eval σ) (b.eval σ) (f.mwToMwh ch.powerMin) (f.mwToMwh ch.powerMax) ce)
    (hce : 0 ≤ ce) : ∀ con ∈ evFlowList x b ce f ch, con.Holds σ := by
  intro con hcon
  unfold evFlowList at hcon
  split at hcon
  · simp only [List.mem_cons, List.not_mem_nil, or_false] at hcon
    rcases hcon with rfl | rfl | rfl
    · simp only [constrainMax_holds, toExpr_eval]
      rcases h with ⟨h1, h2⟩ | ⟨h1, h2, h3, h4, h5⟩
      · rw [h1, h2]; simp
      · rw [h1]; linarith
    · simp only [constrainMin_holds, toExpr_eval]
      rcases h with ⟨h1, h2⟩ | ⟨h1, h2, h3, h4, h5⟩
      · rw [h1, h2]; simp
      · rw [h1]; linarith
    · simp only [leC_holds, toExpr_eval, Expr.eval_num]
      rcases h with ⟨h1, h2⟩ | ⟨h1, h2, h3, h4, h5⟩
      · rw [h2]; exact hce
      · rw [h1]; exact h5
  · simp at hcon

theorem losses_hold {a : EvsArray} {e : Nat} {q : ℚ} (h : ∀ k, (a.charge e k).eval σ * (1 - q) = (a.loss e k).eval σ) :
    ∀ con ∈ constrainEvLosses a e q, con.Holds σ := by
  intro con hcon
  simp only [constrainEvLosses, List.mem_map, List.mem_range] at hcon
  obtain ⟨k, _, rfl⟩ := hcon
  simp only [eqC_holds, Expr.eval_mul, Expr.eval_sum, List.map_cons, List.map_nil, List.sum_cons, List.sum_nil, add_zero, toExpr_eval]
  exact h k

theorem plan_within (P : EvPlan c f flags σ n) (hi : i < n) : ∀ con ∈ c.withinList i f flags, con.Good σ := by
  have hrow := P.rows i hi
  have F := P.facts i hi
  have A := array_in P hi
  have S := spillArray_in P hi
  intro con hcon
  simp only [EvsCfg.withinList, List.mem_append] at hcon
  rcases hcon with (((hcon | hcon) | hcon) | hcon) | hcon
  · refine ⟨?_, evMinMax_over A con hcon⟩
    simp only [evMinMaxList, List.mem_flatMap, List.mem_append] at hcon
    obtain ⟨⟨ev, e⟩, he, ⟨ch, k⟩, hk, hcon⟩ := hcon
    rw [mem_zipIdx_iff] at he hk
    have hch := List.mem_of_getElem? hk
    have hent : 0 ≤ c.entry i e := by rw [hrow.entry_eq (event_lt he)]; exact P.present i hi e (event_lt he)
    rcases hcon with hcon | hcon
    · refine evFlowList_holds (f := f) (ch := ch) ?_ hent con hcon
      simp only [EvsCfg.array]
      rw [arr2_eq he hk, arr2_eq he hk, obj_charge hrow he, obj_chargeBin hrow he, hrow.entry_eq (event_lt he)]
      exact F.charge e ev he ch hch
    · split at hcon
      · refine evFlowList_holds (f := f) (ch := ch) ?_ hent con hcon
        simp only [EvsCfg.array]
        rw [arr2_eq he hk, arr2_eq he hk, obj_discharge, obj_dischargeBin, hrow.entry_eq (event_lt he)]
        exact F.discharge e ev he ch hch
      · simp at hcon
  · refine ⟨?_, evMinMax_over S con hcon⟩
    simp only [evMinMaxList, List.mem_flatMap, List.mem_append] at hcon
    obtain ⟨⟨ev, e⟩, he, ⟨ch, k⟩, hk, hcon⟩ := hcon
    rw [mem_zipIdx_iff] at he hk
    have hch := List.mem_of_getElem? hk
    have hent : 0 ≤ c.entry i e := by rw [hrow.entry_eq (event_lt he)]; exact P.present i hi e (event_lt he)
    rcases hcon with hcon | hcon
    · refine evFlowList_holds (f := f) (ch := ch) ?_ hent con hcon
      simp only [EvsCfg.spillArray]
      rw [arr2_eq he hk, arr2_eq he hk, obj_charge hrow he, obj_chargeBin hrow he, hrow.entry_eq (event_lt he)]
      exact F.spill e ev he ch hch
    · simp at hcon
  · refine ⟨?_, single_over A _ _ con hcon⟩
    simp only [constrainSingleChargerChargeEvent, List.mem_append, List.mem_map, List.mem_range] at hcon
    rcases hcon with ⟨e, he, rfl⟩ | ⟨k, hk, rfl⟩
    · have he' := List.getElem?_eq_getElem he
      simp only [leC_holds, Expr.eval_sum, rowOf, List.map_append, List.sum_append, List.map_map, Function.comp_def, toExpr_eval,
        Expr.eval_num, EvsCfg.array]
      rw [sum_row (val := fun ch => c.chargeBinOf flags σ i e ch.name false) he' (fun ch k => obj_chargeBin hrow he' ..),
        sum_row (val := fun ch => c.dischargeBinOf flags σ i e ch.name) he' (fun ch k => obj_dischargeBin ..)]
      exact F.eventOnce e he
    · have hk' := List.getElem?_eq_getElem hk
      simp only [leC_holds, Expr.eval_sum, colOf, List.map_append, List.sum_append, List.map_map, Function.comp_def, toExpr_eval,
        Expr.eval_num, EvsCfg.array]
      rw [sum_col (val := fun e => c.chargeBinOf flags σ i e (c.chargers[k]).name false) hk' (fun ev e he => obj_chargeBin hrow he ..),
        sum_col (val := fun e => c.dischargeBinOf flags σ i e (c.chargers[k]).name) hk' (fun ev e he => obj_dischargeBin ..)]
      exact F.chargerOnce _ (List.mem_of_getElem? hk')
  · refine ⟨?_, balance_over A S con hcon⟩
    simp only [constrainChargeEventElectricityBalance, List.mem_flatMap, List.mem_cons, List.mem_append] at hcon
    obtain ⟨⟨ev, e⟩, he, hcon⟩ := hcon
    replace he : c.events[e]? = some ev := mem_zipIdx_iff.1 he
    have hloss : ∀ k, ((c.array i f flags).charge e k).eval σ * (1 - ev.efficiency) = ((c.array i f flags).loss e k).eval σ := by
      intro k
      simp only [EvsCfg.array, arr2, he]
      cases hk : c.chargers[k]? with
      | none => simp [Val.eval]
      | some ch =>
        simp only []
        rw [obj_charge hrow he, obj_loss, F.loss e ev he ch (List.mem_of_getElem? hk), mul_comm]
    have hspill : ∀ k, ((c.spillArray i f flags).charge e k).eval σ * (1 - ev.efficiency) = ((c.spillArray i f flags).loss e k).eval σ := by
      intro k
      simp only [EvsCfg.spillArray, arr2, he]
      cases hk : c.spillChargers[k]? with
      | none => simp [Val.eval]
      | some ch =>
        simp only []
        rw [obj_charge hrow he, obj_loss, F.spillLoss e ev he ch (List.mem_of_getElem? hk), mul_comm]
    rcases hcon with rfl | hcon | hcon
    · simp only [eqC_holds, Expr.eval_sub, Expr.eval_add, Expr.eval_sum, rowOf, List.map_map, Function.comp_def, toExpr_eval,
        EvsCfg.array, EvsCfg.spillArray]
      have hpos : 0 < c.chargers.length := List.length_pos_iff.2 P.shape.chargers
      have hsl : c.spillChargers.length ≤ c.chargers.length := by rw [P.shape.spill]; exact hpos
      rw [sum_row (val := fun ch => c.chargeOf flags σ i e ch.name false) he (fun ch k => obj_charge hrow he ..),
        sum_row_spill (val := fun ch => c.chargeOf flags σ i e ch.name true) he (fun ch k => obj_charge hrow he ..) hsl,
        sum_row (val := fun ch => c.dischargeOf flags σ i e ch.name) he (fun ch k => obj_discharge ..),
        sum_row_spill (val := fun _ => 0) he (fun ch k => obj_discharge_spill ..) hsl,
        sum_row (val := fun ch => c.lossOf σ i e ch.name false) he (fun ch k => obj_loss ..)]
      have hl : (c.chargers.map (fun ch => c.lossOf σ i e ch.name false)).sum = (1 - ev.efficiency) * c.eventCharge flags σ i e := by
        unfold EvsCfg.eventCharge
        rw [← list_sum_mul_left]
        congr 1
        apply List.map_congr_left
        intro ch hch
        exact F.loss e ev he ch hch
      have hz : (c.spillChargers.map (fun _ => (0:ℚ))).sum = 0 := by simp
      rw [hl, hz]
      simp only [arr1, he]
      change c.initialSocOf σ i ev + c.eventCharge flags σ i e + c.eventSpill flags σ i e - c.eventDischarge flags σ i e - 0 -
        (1 - ev.efficiency) * c.eventCharge flags σ i e = c.finalSocOf σ i ev
      have := F.balance e ev he
      linarith
    · exact losses_hold hloss con hcon
    · exact losses_hold hspill con hcon
  · split at hcon
    · simp at hcon
    · rename_i h0
      obtain ⟨j, rfl⟩ := Nat.exists_eq_succ_of_ne_zero h0
      simp only [Nat.succ_eq_add_one, Nat.add_sub_cancel] at hcon
      refine ⟨?_, connection_over (array_in P (by omega)) A con hcon⟩
      simp only [constrainConnectionChargeEvents, List.mem_flatMap, List.mem_range] at hcon
      obtain ⟨e, he, hcon⟩ := hcon
      have he' := List.getElem?_eq_getElem (l := c.events) he
      simp only [EvsCfg.array, arr1, he', Val.isVar, Bool.and_true, if_true, List.mem_singleton] at hcon
      subst hcon
      simp only [eqC_holds, toExpr_eval]
      exact P.connect j hi _ (List.mem_of_getElem? he')

theorem plan_after (P : EvPlan c f flags σ n) : ∀ con ∈ c.afterList n f flags, con.Good σ := by
  intro con hcon
  simp only [EvsCfg.afterList, List.mem_flatMap, List.mem_cons, List.not_mem_nil, or_false] at hcon
  obtain ⟨⟨ev, e⟩, he, hcon⟩ := hcon
  have he' : c.events[e]? = some ev := mem_zipIdx_iff.1 he
  have h := P.ends ev (List.mem_of_getElem? he')
  rcases hcon with rfl | rfl
  · refine ⟨?_, Expr.Over.eqC ((array_in P P.pos).initialSoc _).toExpr (.num _)⟩
    simp only [eqC_holds, toExpr_eval, EvsCfg.array, arr1, he', Expr.eval_num]
    exact h.1
  · refine ⟨?_, Expr.Over.eqC ((array_in P (i := n - 1) (by have := P.pos; omega)).finalSoc _).toExpr (.num _)⟩
    simp only [eqC_holds, toExpr_eval, EvsCfg.array, arr1, he', Expr.eval_num]
    exact h.2

theorem plan_base (P : EvPlan c f flags σ n) (hi : i < n) :
    ∀ o ∈ (Asset.evs c).ois i f flags, o.base.AllOver (fun v => v.InBounds σ) := by
  intro o ho
  have h : (Asset.evs c).ois i f flags = (c.objs c.chargers i f flags true true false).map .ev ++
      (c.objs c.spillChargers i f flags false false true).map .evSpill := by
    simp only [Asset.ois, ois_evs ((P.rows i hi).matOk _)]
  rw [h, List.mem_append, List.mem_map, List.mem_map] at ho
  rcases ho with ⟨x, hx, rfl⟩ | ⟨x, hx, rfl⟩
  · obtain ⟨e, ev, k, ch, he, hk, rfl⟩ := objs_mem.1 hx
    obtain ⟨h1, h2, h3, h4, h5⟩ := obj_in P hi he hk
    exact ⟨trivial, trivial, trivial, trivial, trivial, trivial, h1, h3, trivial, trivial⟩
  · obtain ⟨e, ev, k, ch, he, hk, rfl⟩ := objs_mem.1 hx
    obtain ⟨h1, h2, h3, h4, h5⟩ := obj_in_spill P hi he hk
    exact ⟨trivial, trivial, trivial, trivial, trivial, trivial, h1, h3, trivial, trivial⟩

end

end EPL
