/-
EVs under a feasible assignment.
-/
import Verif.Proofs.Units
import Verif.Spec.EvVars

namespace EPL

/-- A flow with its binary: off, or on within bounds while the vehicle is there. -/
def FlowOk (x b lo hi present : ℚ) : Prop :=
  (x = 0 ∧ b = 0) ∨ (b = 1 ∧ 0 ≤ x ∧ lo ≤ x ∧ x ≤ hi ∧ 1 ≤ present)

theorem FlowOk.nonneg {x b lo hi pr : ℚ} (h : FlowOk x b lo hi pr) : 0 ≤ x := by
  rcases h with ⟨rfl, _⟩ | ⟨_, h, _⟩
  · exact le_refl _
  · exact h

theorem FlowOk.bin_nonneg {x b lo hi pr : ℚ} (h : FlowOk x b lo hi pr) : 0 ≤ b := by
  rcases h with ⟨_, rfl⟩ | ⟨rfl, _⟩ <;> norm_num

theorem FlowOk.absent {x b lo hi pr : ℚ} (h : FlowOk x b lo hi pr) (hp : pr < 1) : x = 0 ∧ b = 0 := by
  rcases h with h | ⟨_, _, _, _, h⟩
  · exact h
  · linarith

theorem matIndex_present {c : EvsCfg} {i e : Nat} {q : ℚ} (h : matIndex c.chargeEvents i e = .ok q) : c.present i e = q := by
  simp only [matIndex, bind_ok, pyIndex_nat] at h
  obtain ⟨row, h1, h2⟩ := h
  simp [EvsCfg.present, List.getD_eq_getElem?_getD, h1, h2]

theorem EvsCfg.HasRow.entry_eq {c : EvsCfg} {i e : Nat} (h : c.HasRow i) (he : e < c.events.length) : c.entry i e = c.present i e :=
  (matIndex_present (h e he)).symm

theorem active_iff {c : EvsCfg} {flags : Flags} {i e : Nat} (h : c.HasRow i) (he : e < c.events.length) :
    c.active flags i e = true ↔ ¬ (flags.limitChargeVariables = true ∧ c.present i e ≠ 1) := by
  unfold EvsCfg.active
  rw [h e he]
  simp only [Bool.or_eq_true, Bool.not_eq_true', decide_eq_true_eq, not_and, not_not, h.entry_eq he]
  cases flags.limitChargeVariables <;> simp

theorem event_lt {c : EvsCfg} {e : Nat} {ev : ChargeEventCfg} (h : c.events[e]? = some ev) : e < c.events.length :=
  (List.getElem?_eq_some_iff.1 h).1

section
variable {c : EvsCfg} {flags : Flags} {σ : Assign} {i e k : Nat} {f : Freq} {ev : ChargeEventCfg} {ch : ChargerCfg}

theorem arr2_eq {chs : List ChargerCfg} {g : ChargeEventCfg → Nat → ChargerCfg → Nat → Val} (he : c.events[e]? = some ev)
    (hk : chs[k]? = some ch) : arr2 c.events chs g e k = g ev e ch k := by
  simp [arr2, he, hk]

/-- The value of a flow of `obj`. -/
theorem obj_charge (h : c.HasRow i) (he : c.events[e]? = some ev) (cs cd isp : Bool) :
    (c.obj i f flags cs cd isp ev e ch k).charge.eval σ = c.chargeOf flags σ i e ch.name isp := by
  unfold EvsCfg.obj EvsCfg.chargeOf
  by_cases ha : c.active flags i e = true
  · have := (active_iff h (event_lt he)).1 ha
    simp only [ha, if_true]
    rw [if_neg this]
    rfl
  · have := (active_iff (flags := flags) h (event_lt he)).not.1 ha
    rw [not_not] at this
    simp only [ha]
    rw [if_pos this]
    rfl

theorem obj_chargeBin (h : c.HasRow i) (he : c.events[e]? = some ev) (cs cd isp : Bool) :
    (c.obj i f flags cs cd isp ev e ch k).chargeBin.eval σ = c.chargeBinOf flags σ i e ch.name isp := by
  unfold EvsCfg.obj EvsCfg.chargeBinOf
  by_cases ha : c.active flags i e = true
  · have := (active_iff h (event_lt he)).1 ha
    simp only [ha, if_true]
    rw [if_neg this]
    rfl
  · have := (active_iff (flags := flags) h (event_lt he)).not.1 ha
    rw [not_not] at this
    simp only [ha]
    rw [if_pos this]
    simp [Val.eval]

theorem obj_discharge (cs : Bool) :
    (c.obj i f flags cs true false ev e ch k).discharge.eval σ = c.dischargeOf flags σ i e ch.name := by
  unfold EvsCfg.obj EvsCfg.dischargeOf
  cases hd : flags.allowEvsDischarge <;> simp [Val.eval, continuous]

theorem obj_dischargeBin (cs : Bool) :
    (c.obj i f flags cs true false ev e ch k).dischargeBin.eval σ = c.dischargeBinOf flags σ i e ch.name := by
  unfold EvsCfg.obj EvsCfg.dischargeBinOf
  cases hd : flags.allowEvsDischarge <;> simp [Val.eval, binary]

theorem obj_discharge_spill (cs isp : Bool) : (c.obj i f flags cs false isp ev e ch k).discharge.eval σ = 0 := by
  simp [EvsCfg.obj, Val.eval]

theorem obj_dischargeBin_spill (cs isp : Bool) : (c.obj i f flags cs false isp ev e ch k).dischargeBin.eval σ = 0 := by
  simp [EvsCfg.obj, Val.eval]

theorem obj_loss (cs cd isp : Bool) : (c.obj i f flags cs cd isp ev e ch k).loss.eval σ = c.lossOf σ i e ch.name isp := rfl

/-- A row of an array as a sum over the chargers. -/
theorem sum_row {chs : List ChargerCfg} {g : ChargeEventCfg → Nat → ChargerCfg → Nat → Val} {val : ChargerCfg → ℚ}
    (he : c.events[e]? = some ev) (hg : ∀ ch k, (g ev e ch k).eval σ = val ch) :
    ((List.range chs.length).map (fun k => (arr2 c.events chs g e k).eval σ)).sum = (chs.map val).sum := by
  congr 1
  apply List.ext_getElem?
  intro k
  by_cases hk : k < chs.length
  · rw [List.getElem?_map, List.getElem?_range hk, List.getElem?_map, List.getElem?_eq_getElem hk]
    simp only [Option.map_some]
    rw [arr2_eq he (List.getElem?_eq_getElem hk), hg]
  · rw [List.getElem?_eq_none (by simpa using hk), List.getElem?_eq_none (by simpa using hk)]

/-- A row of the spill array, which has a column for every charger but only one that is filled. -/
theorem sum_row_spill {m : Nat} {g : ChargeEventCfg → Nat → ChargerCfg → Nat → Val} {val : ChargerCfg → ℚ} {chs : List ChargerCfg}
    (he : c.events[e]? = some ev) (hg : ∀ ch k, (g ev e ch k).eval σ = val ch) (hm : chs.length ≤ m) :
    ((List.range m).map (fun k => (arr2 c.events chs g e k).eval σ)).sum = (chs.map val).sum := by
  rw [← sum_row (σ := σ) (g := g) he hg]
  obtain ⟨d, rfl⟩ := Nat.exists_eq_add_of_le hm
  rw [List.range_add, List.map_append, List.sum_append]
  have : ((List.map (fun x => chs.length + x) (List.range d)).map (fun k => (arr2 c.events chs g e k).eval σ)).sum = 0 := by
    apply List.sum_eq_zero
    intro x hx
    simp only [List.mem_map, List.mem_range] at hx
    obtain ⟨k, ⟨j, _, rfl⟩, rfl⟩ := hx
    simp [arr2, he, Val.eval]
  rw [this, add_zero]

/-- A column of an array as a sum over the charge events. -/
theorem sum_col {chs : List ChargerCfg} {g : ChargeEventCfg → Nat → ChargerCfg → Nat → Val} {val : Nat → ℚ}
    (hk : chs[k]? = some ch) (hg : ∀ ev e, c.events[e]? = some ev → (g ev e ch k).eval σ = val e) :
    ((List.range c.events.length).map (fun e => (arr2 c.events chs g e k).eval σ)).sum = c.sumEvents val := by
  unfold EvsCfg.sumEvents
  congr 1
  apply List.map_congr_left
  intro e he
  rw [List.mem_range] at he
  have he' := List.getElem?_eq_getElem he
  rw [arr2_eq he' hk, hg _ _ he']

end

theorem list_sum_mul_left {α : Type} (l : List α) (q : ℚ) (g : α → ℚ) : (l.map (fun a => q * g a)).sum = q * (l.map g).sum := by
  induction l with
  | nil => simp
  | cons a l ih => simp only [List.map_cons, List.sum_cons, ih, mul_add]

/-- What a feasible assignment says about EVs in one interval. -/
structure EvFacts (c : EvsCfg) (f : Freq) (flags : Flags) (σ : Assign) (i : Nat) : Prop where
  charge : ∀ (e : Nat) (ev : ChargeEventCfg), c.events[e]? = some ev → ∀ ch ∈ c.chargers,
    FlowOk (c.chargeOf flags σ i e ch.name false) (c.chargeBinOf flags σ i e ch.name false) (f.mwToMwh ch.powerMin)
      (f.mwToMwh ch.powerMax) (c.present i e)
  discharge : ∀ (e : Nat) (ev : ChargeEventCfg), c.events[e]? = some ev → ∀ ch ∈ c.chargers,
    FlowOk (c.dischargeOf flags σ i e ch.name) (c.dischargeBinOf flags σ i e ch.name) (f.mwToMwh ch.powerMin)
      (f.mwToMwh ch.powerMax) (c.present i e)
  spill : ∀ (e : Nat) (ev : ChargeEventCfg), c.events[e]? = some ev → ∀ ch ∈ c.spillChargers,
    FlowOk (c.chargeOf flags σ i e ch.name true) (c.chargeBinOf flags σ i e ch.name true) (f.mwToMwh ch.powerMin)
      (f.mwToMwh ch.powerMax) (c.present i e)
  eventOnce : ∀ e < c.events.length, (c.chargers.map (fun ch => c.chargeBinOf flags σ i e ch.name false)).sum +
    (c.chargers.map (fun ch => c.dischargeBinOf flags σ i e ch.name)).sum ≤ 1
  chargerOnce : ∀ ch ∈ c.chargers, c.sumEvents (fun e => c.chargeBinOf flags σ i e ch.name false) +
    c.sumEvents (fun e => c.dischargeBinOf flags σ i e ch.name) ≤ 1
  balance : ∀ (e : Nat) (ev : ChargeEventCfg), c.events[e]? = some ev → c.finalSocOf σ i ev = c.initialSocOf σ i ev +
    ev.efficiency * c.eventCharge flags σ i e + c.eventSpill flags σ i e - c.eventDischarge flags σ i e
  loss : ∀ (e : Nat) (ev : ChargeEventCfg), c.events[e]? = some ev → ∀ ch ∈ c.chargers,
    c.lossOf σ i e ch.name false = (1 - ev.efficiency) * c.chargeOf flags σ i e ch.name false
  spillLoss : ∀ (e : Nat) (ev : ChargeEventCfg), c.events[e]? = some ev → ∀ ch ∈ c.spillChargers,
    c.lossOf σ i e ch.name true = (1 - ev.efficiency) * c.chargeOf flags σ i e ch.name true
  soc : ∀ (e : Nat) (ev : ChargeEventCfg), c.events[e]? = some ev → 0 ≤ c.initialSocOf σ i ev ∧ c.initialSocOf σ i ev ≤ ev.capacity ∧
    0 ≤ c.finalSocOf σ i ev ∧ c.finalSocOf σ i ev ≤ ev.capacity

section
variable {s : Site} {objective : Objective} {flags : Flags} {p : Prob} {σ : Assign} {c : EvsCfg}

/-- One flow variable with its three constraints. -/
theorem flowOk_var {x b : LpVar} {ce : ℚ} {f : Freq} {ch : ChargerCfg} {id bid : VarId} (hx : x = continuous id (some 0) (some (f.mwToMwh ch.powerMax)))
    (hb : b = binary bid) (hf : p.Feasible σ)
    (hc : ∀ k ∈ evFlowList (.var x) (.var b) ce f ch, k ∈ p.cons) :
    FlowOk (σ id) (σ bid) (f.mwToMwh ch.powerMin) (f.mwToMwh ch.powerMax) ce := by
  subst hx hb
  simp only [evFlowList, Val.isVar, if_true, List.mem_cons, List.not_mem_nil, or_false, forall_eq_or_imp, forall_eq, Val.toExpr] at hc
  obtain ⟨h1, h2, h3⟩ := hc
  have bx := bounds_continuous (hf.bounds h1 (v := continuous id (some 0) (some (f.mwToMwh ch.powerMax))) (by simp))
  have bb := bounds_binary (hf.bounds h3 (v := binary bid) (by simp))
  have c1 := hf.1 _ h1
  have c2 := hf.1 _ h2
  have c3 := hf.1 _ h3
  simp only [constrainMax_holds, constrainMin_holds, leC_holds, Expr.eval_var, Expr.eval_num] at c1 c2 c3
  change σ id ≤ σ bid * _ at c1
  change σ bid * _ ≤ σ id at c2
  change σ bid ≤ ce at c3
  have b0 := bx.1 0 rfl
  have b1 := bx.2 _ rfl
  rcases bb with bb | bb
  · left
    rw [bb] at c1
    exact ⟨by linarith, bb⟩
  · right
    rw [bb] at c2 c3
    exact ⟨bb, b0, by linarith, b1, c3⟩

theorem flowOk_zero {lo hi pr : ℚ} : FlowOk 0 0 lo hi pr := .inl ⟨rfl, rfl⟩

/-- Charge flows of an array with its constraints in the program. -/
theorem flowOk_charge {f : Freq} {i e k : Nat} {ev : ChargeEventCfg} {ch : ChargerCfg} {cs cd isp : Bool} (hrow : c.HasRow i)
    (hf : p.Feasible σ) (he : c.events[e]? = some ev)
    (hc : ∀ con ∈ evFlowList (c.obj i f flags cs cd isp ev e ch k).charge (c.obj i f flags cs cd isp ev e ch k).chargeBin
      (c.entry i e) f ch, con ∈ p.cons) :
    FlowOk (c.chargeOf flags σ i e ch.name isp) (c.chargeBinOf flags σ i e ch.name isp) (f.mwToMwh ch.powerMin)
      (f.mwToMwh ch.powerMax) (c.present i e) := by
  by_cases ha : c.active flags i e = true
  · have hact := (active_iff hrow (event_lt he)).1 ha
    simp only [EvsCfg.obj, ha, if_true] at hc
    unfold EvsCfg.chargeOf EvsCfg.chargeBinOf
    rw [if_neg hact, if_neg hact, ← hrow.entry_eq (event_lt he)]
    exact flowOk_var rfl rfl hf hc
  · have hact := (active_iff (flags := flags) hrow (event_lt he)).not.1 ha
    rw [not_not] at hact
    unfold EvsCfg.chargeOf EvsCfg.chargeBinOf
    rw [if_pos hact, if_pos hact]
    exact flowOk_zero

theorem evs_facts (hp : Prog s objective flags (s.ivarsTo flags s.data.n) p) (hf : p.Feasible σ)
    (hc : Asset.evs c ∈ s.assets) {i : Nat} (hi : i < s.data.n) : EvFacts c s.freq flags σ i := by
  obtain ⟨hsh, hrow⟩ := (hp.buildable hi hc : c.Shape ∧ c.HasRow i)
  have hcon : ∀ k ∈ c.withinList i s.freq flags, k ∈ p.cons := fun k hk => hp.asset hi hc hk
  simp only [EvsCfg.withinList, List.mem_append] at hcon
  have hmm : ∀ k ∈ evMinMaxList c (c.array i s.freq flags) s.freq c.chargers i flags.allowEvsDischarge, k ∈ p.cons :=
    fun k hk => hcon k (.inl (.inl (.inl (.inl hk))))
  have hms : ∀ k ∈ evMinMaxList c (c.spillArray i s.freq flags) s.freq c.spillChargers i false, k ∈ p.cons :=
    fun k hk => hcon k (.inl (.inl (.inl (.inr hk))))
  have hone : ∀ k ∈ constrainSingleChargerChargeEvent (c.array i s.freq flags) c.chargers.length c.events.length, k ∈ p.cons :=
    fun k hk => hcon k (.inl (.inl (.inr hk)))
  have hbal : ∀ k ∈ constrainChargeEventElectricityBalance (c.array i s.freq flags) (c.spillArray i s.freq flags), k ∈ p.cons :=
    fun k hk => hcon k (.inl (.inr hk))
  have hcharger : ∀ {chs : List ChargerCfg} {ch : ChargerCfg}, ch ∈ chs → ∃ k, chs[k]? = some ch := fun h => List.mem_iff_getElem?.1 h
  -- losses
  have hloss : ∀ (e : Nat) (ev : ChargeEventCfg), c.events[e]? = some ev → ∀ ch ∈ c.chargers,
      c.lossOf σ i e ch.name false = (1 - ev.efficiency) * c.chargeOf flags σ i e ch.name false := by
    intro e ev he ch hch
    obtain ⟨k, hk⟩ := hcharger hch
    have := hf.1 _ (hbal ((Expr.sum [((c.array i s.freq flags).charge e k).toExpr] * (1 - ev.efficiency)).eqC
      (Expr.sum [((c.array i s.freq flags).loss e k).toExpr])) (by
        simp only [constrainChargeEventElectricityBalance, List.mem_flatMap]
        refine ⟨(ev, e), mem_zipIdx_iff.2 he, ?_⟩
        refine List.mem_cons_of_mem _ (List.mem_append_left _ ?_)
        simp only [constrainEvLosses, List.mem_map, List.mem_range]
        exact ⟨k, (List.getElem?_eq_some_iff.1 hk).1, rfl⟩))
    simp only [eqC_holds, Expr.eval_mul, Expr.eval_sum, List.map_cons, List.map_nil, List.sum_cons, List.sum_nil, add_zero,
      toExpr_eval, EvsCfg.array] at this
    rw [arr2_eq he hk, arr2_eq he hk, obj_charge hrow he, obj_loss] at this
    rw [← this]; ring
  have hspillLoss : ∀ (e : Nat) (ev : ChargeEventCfg), c.events[e]? = some ev → ∀ ch ∈ c.spillChargers,
      c.lossOf σ i e ch.name true = (1 - ev.efficiency) * c.chargeOf flags σ i e ch.name true := by
    intro e ev he ch hch
    obtain ⟨k, hk⟩ := hcharger hch
    have hkl := (List.getElem?_eq_some_iff.1 hk).1
    have hpos : 0 < c.chargers.length := List.length_pos_iff.2 hsh.chargers
    have := hf.1 _ (hbal ((Expr.sum [((c.spillArray i s.freq flags).charge e k).toExpr] * (1 - ev.efficiency)).eqC
      (Expr.sum [((c.spillArray i s.freq flags).loss e k).toExpr])) (by
        simp only [constrainChargeEventElectricityBalance, List.mem_flatMap]
        refine ⟨(ev, e), mem_zipIdx_iff.2 he, ?_⟩
        refine List.mem_cons_of_mem _ (List.mem_append_right _ ?_)
        simp only [constrainEvLosses, List.mem_map, List.mem_range]
        exact ⟨k, by simp only [EvsCfg.spillArray]; have := hsh.spill; omega, rfl⟩))
    simp only [eqC_holds, Expr.eval_mul, Expr.eval_sum, List.map_cons, List.map_nil, List.sum_cons, List.sum_nil, add_zero,
      toExpr_eval, EvsCfg.spillArray] at this
    rw [arr2_eq he hk, arr2_eq he hk, obj_charge hrow he, obj_loss] at this
    rw [← this]; ring
  have hbalcon : ∀ (e : Nat) (ev : ChargeEventCfg), c.events[e]? = some ev → _ := fun e ev he =>
    hbal ((((c.array i s.freq flags).initialSoc e).toExpr
      + Expr.sum (rowOf (c.array i s.freq flags).charge e c.chargers.length)
      + Expr.sum (rowOf (c.spillArray i s.freq flags).charge e c.chargers.length)
      - Expr.sum (rowOf (c.array i s.freq flags).discharge e c.chargers.length)
      - Expr.sum (rowOf (c.spillArray i s.freq flags).discharge e c.chargers.length)
      - Expr.sum (rowOf (c.array i s.freq flags).loss e c.chargers.length)).eqC ((c.array i s.freq flags).finalSoc e).toExpr) (by
        simp only [constrainChargeEventElectricityBalance, List.mem_flatMap]
        exact ⟨(ev, e), mem_zipIdx_iff.2 he, List.mem_cons_self ..⟩)
  refine ⟨?_, ?_, ?_, ?_, ?_, ?_, hloss, hspillLoss, ?_⟩
  · intro e ev he ch hch
    obtain ⟨k, hk⟩ := hcharger hch
    refine flowOk_charge (cs := true) (cd := true) (k := k) hrow hf he ?_
    intro con hcn
    refine hmm con ?_
    simp only [evMinMaxList, List.mem_flatMap, EvsCfg.array]
    refine ⟨(ev, e), mem_zipIdx_iff.2 he, (ch, k), mem_zipIdx_iff.2 hk, List.mem_append_left _ ?_⟩
    rw [arr2_eq he hk, arr2_eq he hk]
    exact hcn
  · intro e ev he ch hch
    obtain ⟨k, hk⟩ := hcharger hch
    cases hd : flags.allowEvsDischarge with
    | false =>
      simp only [EvsCfg.dischargeOf, EvsCfg.dischargeBinOf, hd]
      exact flowOk_zero
    | true =>
      have := flowOk_var (p := p) (σ := σ) (x := continuous (.evFlow "electric_discharge_mwh" i c.name e ch.name false) (low := some 0)
        (up := some (s.freq.mwToMwh ch.powerMax))) (b := binary (.evFlow "electric_discharge_binary" i c.name e ch.name false))
        (ce := c.entry i e) (f := s.freq) (ch := ch) rfl rfl hf (by
          intro con hcn
          refine hmm con ?_
          simp only [evMinMaxList, List.mem_flatMap, EvsCfg.array]
          refine ⟨(ev, e), mem_zipIdx_iff.2 he, (ch, k), mem_zipIdx_iff.2 hk, List.mem_append_right _ ?_⟩
          rw [hd, arr2_eq he hk, arr2_eq he hk]
          simpa only [if_true, EvsCfg.obj, hd, Bool.and_true] using hcn)
      simp only [EvsCfg.dischargeOf, EvsCfg.dischargeBinOf, hd, if_true]
      rw [← hrow.entry_eq (event_lt he)]
      exact this
  · intro e ev he ch hch
    obtain ⟨k, hk⟩ := hcharger hch
    refine flowOk_charge (cs := false) (cd := false) (k := k) hrow hf he ?_
    intro con hcn
    refine hms con ?_
    simp only [evMinMaxList, List.mem_flatMap, EvsCfg.spillArray]
    refine ⟨(ev, e), mem_zipIdx_iff.2 he, (ch, k), mem_zipIdx_iff.2 hk, List.mem_append_left _ ?_⟩
    rw [arr2_eq he hk, arr2_eq he hk]
    exact hcn
  · intro e he
    have he' := List.getElem?_eq_getElem he
    have := hf.1 _ (hone ((Expr.sum (rowOf (c.array i s.freq flags).chargeBin e c.chargers.length ++
      rowOf (c.array i s.freq flags).dischargeBin e c.chargers.length)).leC (.num 1)) (by
        simp only [constrainSingleChargerChargeEvent, List.mem_append, List.mem_map, List.mem_range]
        exact .inl ⟨e, he, rfl⟩))
    simp only [leC_holds, Expr.eval_sum, rowOf, List.map_append, List.sum_append, List.map_map, Function.comp_def, toExpr_eval,
      Expr.eval_num, EvsCfg.array] at this
    rw [sum_row (val := fun ch => c.chargeBinOf flags σ i e ch.name false) he' (fun ch k => obj_chargeBin hrow he' ..),
      sum_row (val := fun ch => c.dischargeBinOf flags σ i e ch.name) he' (fun ch k => obj_dischargeBin ..)] at this
    exact this
  · intro ch hch
    obtain ⟨k, hk⟩ := hcharger hch
    have := hf.1 _ (hone ((Expr.sum (colOf (c.array i s.freq flags).chargeBin k c.events.length ++
      colOf (c.array i s.freq flags).dischargeBin k c.events.length)).leC (.num 1)) (by
        simp only [constrainSingleChargerChargeEvent, List.mem_append, List.mem_map, List.mem_range]
        exact .inr ⟨k, (List.getElem?_eq_some_iff.1 hk).1, rfl⟩))
    simp only [leC_holds, Expr.eval_sum, colOf, List.map_append, List.sum_append, List.map_map, Function.comp_def, toExpr_eval,
      Expr.eval_num, EvsCfg.array] at this
    rw [sum_col (val := fun e => c.chargeBinOf flags σ i e ch.name false) hk (fun ev e he => obj_chargeBin hrow he ..),
      sum_col (val := fun e => c.dischargeBinOf flags σ i e ch.name) hk (fun ev e he => obj_dischargeBin ..)] at this
    exact this
  · intro e ev he
    have := hf.1 _ (hbalcon e ev he)
    simp only [eqC_holds, Expr.eval_sub, Expr.eval_add, Expr.eval_sum, rowOf, List.map_map, Function.comp_def, toExpr_eval,
      EvsCfg.array, EvsCfg.spillArray] at this
    have hpos : 0 < c.chargers.length := List.length_pos_iff.2 hsh.chargers
    have hsl : c.spillChargers.length ≤ c.chargers.length := by rw [hsh.spill]; exact hpos
    rw [sum_row (val := fun ch => c.chargeOf flags σ i e ch.name false) he (fun ch k => obj_charge hrow he ..),
      sum_row_spill (val := fun ch => c.chargeOf flags σ i e ch.name true) he (fun ch k => obj_charge hrow he ..) hsl,
      sum_row (val := fun ch => c.dischargeOf flags σ i e ch.name) he (fun ch k => obj_discharge ..),
      sum_row_spill (val := fun _ => 0) he (fun ch k => obj_discharge_spill ..) hsl,
      sum_row (val := fun ch => c.lossOf σ i e ch.name false) he (fun ch k => obj_loss ..)] at this
    have hl : (c.chargers.map (fun ch => c.lossOf σ i e ch.name false)).sum = (1 - ev.efficiency) * c.eventCharge flags σ i e := by
      unfold EvsCfg.eventCharge
      rw [← list_sum_mul_left]
      congr 1
      apply List.map_congr_left
      intro ch hch
      exact hloss e ev he ch hch
    have hz : (c.spillChargers.map (fun _ => (0:ℚ))).sum = 0 := by simp
    rw [hl, hz] at this
    simp only [arr1, he] at this
    change c.initialSocOf σ i ev + c.eventCharge flags σ i e + c.eventSpill flags σ i e - c.eventDischarge flags σ i e - 0 -
      (1 - ev.efficiency) * c.eventCharge flags σ i e = c.finalSocOf σ i ev at this
    linarith
  · intro e ev he
    have hm := hbalcon e ev he
    have b1 := bounds_continuous (hf.bounds hm (v := c.socVar "initial_soc_mwh" i ev) (by
      simp [EvsCfg.array, arr1, he, Val.toExpr]))
    have b2 := bounds_continuous (hf.bounds hm (v := c.socVar "final_soc_mwh" i ev) (by
      simp [EvsCfg.array, arr1, he, Val.toExpr]))
    exact ⟨b1.1 0 rfl, b1.2 _ rfl, b2.1 0 rfl, b2.2 _ rfl⟩

/-- Between intervals. -/
theorem evs_connect (hp : Prog s objective flags (s.ivarsTo flags s.data.n) p) (hf : p.Feasible σ)
    (hc : Asset.evs c ∈ s.assets) {i : Nat} (hi : i + 1 < s.data.n) {e : Nat} {ev : ChargeEventCfg} (he : c.events[e]? = some ev) :
    c.initialSocOf σ (i + 1) ev = c.finalSocOf σ i ev := by
  have hcon : ∀ k ∈ c.withinList (i + 1) s.freq flags, k ∈ p.cons := fun k hk => hp.asset hi hc hk
  have := hf.1 _ (hcon ((((c.array (i + 1) s.freq flags).initialSoc e).toExpr).eqC ((c.array i s.freq flags).finalSoc e).toExpr) (by
    simp only [EvsCfg.withinList, List.mem_append]
    right
    simp only [Nat.add_eq_zero_iff, one_ne_zero, and_false, if_false, Nat.add_sub_cancel, constrainConnectionChargeEvents,
      List.mem_flatMap, List.mem_range]
    refine ⟨e, event_lt he, ?_⟩
    simp [EvsCfg.array, arr1, he, Val.isVar]))
  simp only [eqC_holds, toExpr_eval, EvsCfg.array, arr1, he] at this
  exact this

/-- At both ends of the horizon. -/
theorem evs_ends (hp : Prog s objective flags (s.ivarsTo flags s.data.n) p) (hf : p.Feasible σ)
    (hc : Asset.evs c ∈ s.assets) {e : Nat} {ev : ChargeEventCfg} (he : c.events[e]? = some ev) :
    c.initialSocOf σ 0 ev = 0 ∧ c.finalSocOf σ (s.data.n - 1) ev = ev.capacity := by
  have hcon : ∀ k ∈ c.afterList s.data.n s.freq flags, k ∈ p.cons := fun k hk => hp.after hc hk
  have h1 := hf.1 _ (hcon ((((c.array 0 s.freq flags).initialSoc e).toExpr).eqC (.num 0)) (by
    simp only [EvsCfg.afterList, List.mem_flatMap]
    exact ⟨(ev, e), mem_zipIdx_iff.2 he, by simp⟩))
  have h2 := hf.1 _ (hcon ((((c.array (s.data.n - 1) s.freq flags).finalSoc e).toExpr).eqC (.num ev.capacity)) (by
    simp only [EvsCfg.afterList, List.mem_flatMap]
    exact ⟨(ev, e), mem_zipIdx_iff.2 he, by simp⟩))
  simp only [eqC_holds, toExpr_eval, EvsCfg.array, arr1, he, Expr.eval_num] at h1 h2
  exact ⟨h1, h2⟩

end

end EPL
