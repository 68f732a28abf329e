/-
Results are valid dispatches.
-/
import Verif.Spec.Dispatch
import Verif.Props.Evs
import Verif.Props.Objectives

namespace EPL

section
variable {s : Site} {objective : Objective} {flags : Flags} {S : Solver} {r : SimResult} {V : String → Nat → ℚ} {p : Prob} {σ : Assign}

/-- The losses of the chargers are not negative. -/
theorem evs_losses (hp : Prog s objective flags (s.ivarsTo flags s.data.n) p) (hf : p.Feasible σ) {c : EvsCfg} (hc : Asset.evs c ∈ s.assets) {i : Nat}
    (hi : i < s.data.n) {e : Nat} {ev : ChargeEventCfg} (he : c.events[e]? = some ev) :
    (∀ ch ∈ c.chargers, 0 ≤ c.lossOf σ i e ch.name false) ∧ (∀ ch ∈ c.spillChargers, 0 ≤ c.lossOf σ i e ch.name true) := by
  obtain ⟨hsh, hrow⟩ := (hp.buildable hi hc : c.Shape ∧ c.HasRow i)
  have hcon : ∀ k ∈ c.withinList i s.freq flags, k ∈ p.cons := fun k hk => hp.asset hi hc hk
  simp only [EvsCfg.withinList, List.mem_append] at hcon
  have hbal : ∀ k ∈ constrainChargeEventElectricityBalance (c.array i s.freq flags) (c.spillArray i s.freq flags), k ∈ p.cons :=
    fun k hk => hcon k (.inl (.inr hk))
  refine ⟨fun ch hch => ?_, fun ch hch => ?_⟩
  · obtain ⟨k, hk⟩ := List.mem_iff_getElem?.1 hch
    have hm := hbal ((Expr.sum [((c.array i s.freq flags).charge e k).toExpr] * (1 - ev.efficiency)).eqC
      (Expr.sum [((c.array i s.freq flags).loss e k).toExpr])) (by
        simp only [constrainChargeEventElectricityBalance, List.mem_flatMap]
        refine ⟨(ev, e), mem_zipIdx_iff.2 he, ?_⟩
        refine List.mem_cons_of_mem _ (List.mem_append_left _ ?_)
        simp only [constrainEvLosses, List.mem_map, List.mem_range]
        exact ⟨k, (List.getElem?_eq_some_iff.1 hk).1, rfl⟩)
    simp only [EvsCfg.array] at hm
    rw [arr2_eq he hk, arr2_eq he hk] at hm
    have b := bounds_continuous (hf.bounds hm (v := continuous (.evFlow "electric_loss_mwh" i c.name e ch.name false) (low := some 0))
      (by simp [EvsCfg.obj, Val.toExpr, Expr.vars_sum]))
    exact b.1 0 rfl
  · obtain ⟨k, hk⟩ := List.mem_iff_getElem?.1 hch
    have hkl := (List.getElem?_eq_some_iff.1 hk).1
    have hpos : 0 < c.chargers.length := List.length_pos_iff.2 hsh.chargers
    have hm := hbal ((Expr.sum [((c.spillArray i s.freq flags).charge e k).toExpr] * (1 - ev.efficiency)).eqC
      (Expr.sum [((c.spillArray i s.freq flags).loss e k).toExpr])) (by
        simp only [constrainChargeEventElectricityBalance, List.mem_flatMap]
        refine ⟨(ev, e), mem_zipIdx_iff.2 he, ?_⟩
        refine List.mem_cons_of_mem _ (List.mem_append_right _ ?_)
        simp only [constrainEvLosses, List.mem_map, List.mem_range]
        exact ⟨k, by simp only [EvsCfg.spillArray]; have := hsh.spill; omega, rfl⟩)
    simp only [EvsCfg.spillArray] at hm
    rw [arr2_eq he hk, arr2_eq he hk] at hm
    have b := bounds_continuous (hf.bounds hm (v := continuous (.evFlow "electric_loss_mwh" i c.name e ch.name true) (low := some 0))
      (by simp [EvsCfg.obj, Val.toExpr, Expr.vars_sum]))
    exact b.1 0 rfl

/-- A CHP that converts something burns no negative gas. -/
theorem chp_gas (hp : Prog s objective flags (s.ivarsTo flags s.data.n) p) (hf : p.Feasible σ) {c : ChpCfg} (hc : Asset.chp c ∈ s.assets) {i : Nat}
    (hi : i < s.data.n) (h : 0 < c.electricEfficiency ∨ c.htEfficiency ≠ 0 ∨ c.ltEfficiency ≠ 0) : 0 ≤ σ (c.oneInterval i s.freq).gas.id := by
  have hcon : ∀ k ∈ c.withinList i s.freq, k ∈ p.cons := fun k hk => hp.asset hi hc hk
  set x := c.oneInterval i s.freq with hx
  have m2 : (Expr.var x.ht).eqC (Expr.var x.gas * c.htEfficiency) ∈ c.withinList i s.freq := by simp [ChpCfg.withinList, x]
  have m3 : (Expr.var x.lt).eqC (Expr.var x.gas * c.ltEfficiency) ∈ c.withinList i s.freq := by simp [ChpCfg.withinList, x]
  rcases h with h | h | h
  · exact (chp_facts hp hf hc hi).2.2.2.2.2.2.2.2 h
  · exact (bounds_continuous (hf.bounds (hcon _ m2) (v := x.gas) (by simp [Expr.vars_mul, h]))).1 0 rfl
  · exact (bounds_continuous (hf.bounds (hcon _ m3) (v := x.gas) (by simp [Expr.vars_mul, h]))).1 0 rfl

/-- The vehicles follow a schedule that plays by the rules. -/
theorem evs_plays (h : Run s objective flags S r V) (hco : Core s objective flags S r V p σ) (hf : 0 ≤ s.freqMins) {c : EvsCfg}
    (ha : Asset.evs c ∈ s.assets) {a : EvArgs} (hmake : a.make = .ok c) : ∃ x : EvSchedule, a.Plays s flags V x := by
  have hE := ev_made hmake
  obtain ⟨h1, h2⟩ := evs_schedule_of hco hmake ha
  have hcap : ∀ e < a.capacities.length, ∃ q, a.capacities[e]? = some q := fun k hk => ⟨_, List.getElem?_eq_getElem hk⟩
  have hspill : (⟨"charger-spill-" ++ a.name, 10000, 0⟩ : ChargerCfg) ∈ c.spillChargers := by rw [hE.spill]; simp
  refine ⟨_, h1, h2, ?_, ?_, ?_⟩
  · intro i hi e he
    obtain ⟨q, hq⟩ := hcap e he
    have hF := evs_facts hco.prog hco.feas ha hi
    have := hF.spill e _ (hE.event hq) _ hspill
    refine ⟨by simpa [EvsCfg.scheduleOf, hE.name] using this.nonneg, ?_⟩
    have hx : (c.scheduleOf flags σ).spill i e = c.chargeOf flags σ i e ("charger-spill-" ++ a.name) true := by simp [EvsCfg.scheduleOf, hE.name]
    rw [hx]
    rcases this with ⟨h0, _⟩ | ⟨_, _, _, h4, _⟩
    · rw [h0]
      exact div_nonneg (mul_nonneg (by norm_num) hf) (by norm_num)
    · exact h4
  · intro i hi e he
    obtain ⟨q, hq⟩ := hcap e he
    have hF := evs_facts hco.prog hco.feas ha hi
    obtain ⟨l1, l2⟩ := evs_losses hco.prog hco.feas ha hi (hE.event hq)
    refine ⟨?_, fun k hk => ?_⟩
    · have := l2 _ hspill
      rw [hF.spillLoss e _ (hE.event hq) _ hspill] at this
      simpa [EvsCfg.scheduleOf, hE.name] using this
    · have hk' := hE.charger (List.getElem?_eq_getElem hk)
      have := l1 _ (List.mem_of_getElem? hk')
      rw [hF.loss e _ (hE.event hq) _ (List.mem_of_getElem? hk')] at this
      exact this
  · intro e capacity he
    exact (C18_soc h hmake ha he).2

/-- Every asset plays by its rules. -/
theorem asset_plays (h : Run s objective flags S r V) (hco : Core s objective flags S r V p σ) (hm : ∀ c, Asset.evs c ∈ s.assets → ∃ a : EvArgs, a.make = .ok c)
    (hf : 0 ≤ s.freqMins) (hg : s.ChpsConvert) {a : Asset} (ha : a ∈ s.assets) (hw : a.WellNamed) : a.Plays s flags V := by
  cases a with
  | battery c =>
    refine ⟨?_, ?_, ?_, ?_, ?_, ?_, ?_, ?_, ?_⟩
    · intro i hi
      have := C07_battery_limits h ha hw hi
      exact ⟨this.1, this.2.1⟩
    · intro i hi
      have := C07_battery_limits h ha hw hi
      exact this.2.2
    · exact fun i hi => (C08_battery_exclusive h ha hw hi).1
    · intro i hi
      have hb := battery_facts hco.prog hco.feas ha hi
      obtain ⟨e1, e2, e3, _⟩ := battery_cells hco ha hw.ne_total hi
      rw [e1, e3]
      exact ⟨by rw [hb.loss_eq]; ring, hb.loss_nonneg⟩
    · intro i hi
      have hb := battery_facts hco.prog hco.feas ha hi
      obtain ⟨e1, e2, e3, e4, e5, _⟩ := battery_cells hco ha hw.ne_total hi
      rw [e1, e2, e3, e4, e5]
      exact hb.balance.symm
    · intro i hi
      have hb := battery_facts hco.prog hco.feas ha hi
      obtain ⟨e1, e2, e3, e4, e5, _⟩ := battery_cells hco ha hw.ne_total hi
      rw [e4, e5]
      exact ⟨hb.ini_nonneg, hb.ini_le, hb.fin_nonneg, hb.fin_le⟩
    · exact fun i hi => C06_battery_chain h ha hw hi
    · exact (C06_battery_ends h ha hw).2.1
    · exact (C06_battery_ends h ha hw).2.2
  | boiler c =>
    exact ⟨fun i hi => (C11_boiler h ha hw hi).1, fun i hi => ⟨(C11_boiler h ha hw hi).2.1, (C11_boiler h ha hw hi).2.2.1⟩,
      fun i hi => (C11_boiler h ha hw hi).2.2.2.1⟩
  | chp c =>
    refine ⟨fun i hi => (C10_chp h ha hw hi).1, fun i hi => (C10_chp h ha hw hi).2.1, fun i hi => (C10_chp h ha hw hi).2.2.1, ?_, ?_⟩
    · intro i hi
      obtain ⟨f1, f2, f3, f4, f5, f6, f7, f8, _⟩ := chp_facts hco.prog hco.feas ha hi
      obtain ⟨e1, e2, e3, e4⟩ := chp_cells hco ha hw.ne_total hi
      rw [e1, e2, e3, e4]
      exact ⟨chp_gas hco.prog hco.feas ha hi (hg c ha), f4, f6, f7⟩
    · intro i hi
      obtain ⟨f1, f2, f3, f4, f5, f6, f7, f8, _⟩ := chp_facts hco.prog hco.feas ha hi
      obtain ⟨e1, e2, e3, e4⟩ := chp_cells hco ha hw.ne_total hi
      rw [e1]
      exact ⟨f5, f8⟩
  | evs c =>
    obtain ⟨a, hmake⟩ := hm c ha
    obtain ⟨x, hx⟩ := evs_plays h hco hf ha hmake
    exact ⟨a, x, hmake, hx⟩
  | heatPump c =>
    refine ⟨fun i hi => (C12_heat_pump h ha hw hi).1, fun i hi => (C12_heat_pump h ha hw hi).2.1, fun i hi => (C12_heat_pump h ha hw hi).2.2, ?_⟩
    intro i hi
    obtain ⟨f1, f2, f3, f4, f5, f6⟩ := heatPump_facts hco.prog hco.feas ha hi
    obtain ⟨e1, e2, e3⟩ := heatPump_cells hco ha hw.ne_total hi
    rw [e2, e3]
    exact ⟨f5, f6⟩
  | renewable c =>
    refine ⟨fun i hi => ?_⟩
    have f := renewable_facts hco.prog hco.feas ha hi
    have e1 := renewable_cells hco ha hw.ne_total hi
    rw [e1, mul_comm]
    exact f
  | spill c =>
    refine ⟨fun i hi => ?_, fun i hi => ?_⟩
    · obtain ⟨e1, e2, e3, e4, e5, e6, e7⟩ := spill_cells hco ha hw.ne_total hi
      rw [e1, e2, e3, e4]
      exact spill_facts hco.prog hco.feas ha hi
    · obtain ⟨e1, e2, e3, e4, e5, e6, e7⟩ := spill_cells hco ha hw.ne_total hi
      exact ⟨e5, e6, e7⟩
  | valve c =>
    exact ⟨fun i hi => C13_valve h ha hw hi⟩

end

end EPL
