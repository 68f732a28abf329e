/-
EVs: the exact constraints.
-/
import Verif.Proofs.Evs

namespace EPL

/-- The charge event matrix at interval `i`, charge event `e` (zero outside). -/
def EvsCfg.entry (c : EvsCfg) (i e : Nat) : ℚ :=
  match matIndex c.chargeEvents i e with
  | .ok q => q
  | .error _ => 0

/-- The matrix has an entry for every charge event in interval `i`. -/
def EvsCfg.HasRow (c : EvsCfg) (i : Nat) : Prop := ∀ e < c.events.length, matIndex c.chargeEvents i e = .ok (c.entry i e)

theorem EvsCfg.HasRow.matOk {c : EvsCfg} {i : Nat} (h : c.HasRow i) (flags : Flags) : c.MatOk flags i :=
  fun _ e he => ⟨_, h e he⟩

/-- The constraints of one flow variable. -/
def evFlowList (x b : Val) (ce : ℚ) (f : Freq) (ch : ChargerCfg) : List Con :=
  if x.isVar then
    [ constrainMax x.toExpr b.toExpr (f.mwToMwh ch.powerMax),
      constrainMin x.toExpr b.toExpr (f.mwToMwh ch.powerMin),
      b.toExpr.leC (.num ce) ]
  else []

/-- The list `constrain_charge_discharge_min_max` adds. -/
def evMinMaxList (c : EvsCfg) (a : EvsArray) (f : Freq) (chs : List ChargerCfg) (i : Nat) (allow : Bool) : List Con :=
  c.events.zipIdx.flatMap (fun ev => chs.zipIdx.flatMap (fun ch =>
    evFlowList (a.charge ev.2 ch.2) (a.chargeBin ev.2 ch.2) (c.entry i ev.2) f ch.1 ++
    (if allow then evFlowList (a.discharge ev.2 ch.2) (a.dischargeBin ev.2 ch.2) (c.entry i ev.2) f ch.1 else [])))

theorem constrainEvFlow_eq {c : EvsCfg} {i e : Nat} (h : matIndex c.chargeEvents i e = .ok (c.entry i e)) (x b : Val) (f : Freq)
    (ch : ChargerCfg) :
    constrainEvFlow x b c.chargeEvents f ch i e = .ok (evFlowList x b (c.entry i e) f ch) := by
  unfold constrainEvFlow evFlowList
  split
  · rw [h]; rfl
  · rfl

theorem constrainMinMax_eq {c : EvsCfg} {i : Nat} (h : c.HasRow i) (a : EvsArray) (f : Freq) (chs : List ChargerCfg) (allow : Bool) :
    constrainChargeDischargeMinMax a c.chargeEvents f chs c.events i allow = .ok (evMinMaxList c a f chs i allow) := by
  unfold constrainChargeDischargeMinMax evMinMaxList
  apply flatMapE_eq
  intro ev hev
  apply flatMapE_eq
  intro ch _
  have hm := h ev.2 (zipIdx_lt hev)
  rw [constrainEvFlow_eq hm, constrainEvFlow_eq hm]
  cases allow <;> rfl

/-- All constraints of an EVs asset in one interval. -/
def EvsCfg.withinList (c : EvsCfg) (i : Nat) (f : Freq) (flags : Flags) : List Con :=
  evMinMaxList c (c.array i f flags) f c.chargers i flags.allowEvsDischarge ++
  evMinMaxList c (c.spillArray i f flags) f c.spillChargers i false ++
  constrainSingleChargerChargeEvent (c.array i f flags) c.chargers.length c.events.length ++
  constrainChargeEventElectricityBalance (c.array i f flags) (c.spillArray i f flags) ++
  (if i = 0 then [] else constrainConnectionChargeEvents (c.array (i - 1) f flags) (c.array i f flags))

/-- All constraints of an EVs asset after the intervals. -/
def EvsCfg.afterList (c : EvsCfg) (n : Nat) (f : Freq) (flags : Flags) : List Con :=
  c.events.zipIdx.flatMap (fun ev =>
    [ (((c.array 0 f flags).initialSoc ev.2).toExpr).eqC (.num 0),
      (((c.array (n - 1) f flags).finalSoc ev.2).toExpr).eqC (.num ev.1.capacity) ])

section
variable {s : Site} {flags : Flags} {c : EvsCfg}

theorem evs_within {i : Nat} (h : VarsOk s flags (i + 1)) (hc : Asset.evs c ∈ s.assets) (hs : c.Shape)
    (hr : ∀ j ≤ i, c.HasRow j) :
    c.constrainWithin (s.ivarsTo flags (i + 1)) i s.freq flags = .ok (c.withinList i s.freq flags) := by
  unfold EvsCfg.constrainWithin EvsCfg.withinList
  rw [createEvsArray_eq h (atIndex_nat (by omega)) hc ((hr i (le_refl _)).matOk _) hs, ok_bind,
    createEvsArray_spill_eq h (atIndex_nat (by omega)) hc ((hr i (le_refl _)).matOk _) hs,
    constrainMinMax_eq (hr i (le_refl _)), ok_bind, ok_bind, constrainMinMax_eq (hr i (le_refl _)), ok_bind]
  by_cases hi : 0 < i
  · rw [createEvsArray_eq h (atIndex_pred hi (by omega)) hc ((hr (i - 1) (by omega)).matOk _) hs]
    have : i ≠ 0 := by omega
    simp [hi, this]
  · have : i = 0 := by omega
    subst this
    simp

/-- Success forces the shape of the configuration and of its matrix. -/
theorem evs_within_shape {i : Nat} (h : VarsOk s flags (i + 1)) (hc : Asset.evs c ∈ s.assets) {l : List Con}
    (hok : c.constrainWithin (s.ivarsTo flags (i + 1)) i s.freq flags = .ok l) : c.Shape ∧ c.HasRow i := by
  simp only [EvsCfg.constrainWithin, bind_ok] at hok
  obtain ⟨a, ha, c1, hc1, b, hb, _⟩ := hok
  obtain ⟨hs, hm⟩ := createEvsArray_shape h (atIndex_nat (by omega)) hc ha hb
  refine ⟨hs, ?_⟩
  have hae := createEvsArray_eq h (atIndex_nat (i := i) (by omega)) hc hm hs
  rw [ha] at hae
  cases hae
  intro e he
  suffices ∃ q, matIndex c.chargeEvents i e = .ok q by
    obtain ⟨q, hq⟩ := this
    simp [EvsCfg.entry, hq]
  by_cases hl : flags.limitChargeVariables = true
  · exact hm hl e he
  · unfold constrainChargeDischargeMinMax at hc1
    obtain ⟨r1, hr1⟩ := flatMapE_all_ok hc1 (a := (c.events[e], e)) (by rw [mem_zipIdx_iff]; simp [he])
    cases hch : c.chargers with
    | nil => exact absurd hch hs.chargers
    | cons ch chs =>
      obtain ⟨r2, hr2⟩ := flatMapE_all_ok hr1 (a := (ch, 0)) (by rw [mem_zipIdx_iff]; simp [hch])
      simp only [bind_ok] at hr2
      obtain ⟨x, hx, _⟩ := hr2
      unfold constrainEvFlow at hx
      rw [if_pos] at hx
      · simp only [bind_ok] at hx
        obtain ⟨q, hq, _⟩ := hx
        exact ⟨q, hq⟩
      · simp [EvsCfg.array, arr2, he, hch, EvsCfg.obj, EvsCfg.active, hl, Val.isVar]

theorem evs_after {n : Nat} (h : VarsOk s flags (n + 1)) (hc : Asset.evs c ∈ s.assets) (hs : c.Shape)
    (hr : ∀ j < n + 1, c.HasRow j) :
    c.constrainAfter (s.ivarsTo flags (n + 1)) = .ok (c.afterList (n + 1) s.freq flags) := by
  unfold EvsCfg.constrainAfter EvsCfg.afterList
  rw [createEvsArray_eq h atIndex_zero hc ((hr 0 (by omega)).matOk _) hs, ok_bind,
    createEvsArray_eq h atIndex_last hc ((hr n (by omega)).matOk _) hs, ok_bind]
  rfl

end

end EPL
