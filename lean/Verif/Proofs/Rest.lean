/-
Operating points: assignments of the variables of one asset that respect everything about it.
-/
import Verif.Proofs.Growth
import Verif.Proofs.EvsFits
import Verif.Proofs.OwnerTerms
import Verif.Spec.Idle

namespace EPL

/-- An assignment respects an asset: its constraints hold and all its variables are in their bounds. -/
structure Asset.Fits (a : Asset) (n : Nat) (f : Freq) (flags : Flags) (σ : Assign) : Prop where
  within : ∀ i < n, ∀ con ∈ a.withinList i f flags, con.Good σ
  after : ∀ con ∈ a.afterList n f flags, con.Good σ
  base : ∀ i < n, ∀ o ∈ a.ois i f flags, o.base.AllOver (fun v => v.InBounds σ)

theorem Con.Good.congr {σ τ : Assign} {c : Con} {P : LpVar → Prop} (h : c.Over P) (hP : ∀ v, P v → σ v.id = τ v.id) (hg : c.Good σ) : c.Good τ := by
  refine ⟨(Con.Over.holds (Con.Over.mono h hP)).1 hg.1, fun v hv => ?_⟩
  have := hg.2 v hv
  unfold LpVar.InBounds at this ⊢
  rwa [← hP v (h v hv)]

theorem InBounds.congr {σ τ : Assign} {v : LpVar} (h : σ v.id = τ v.id) (hb : v.InBounds σ) : v.InBounds τ := by
  unfold LpVar.InBounds at hb ⊢
  rwa [← h]

theorem Base.AllOver.map {P Q : LpVar → Prop} {b : Base} (h : b.AllOver P) (hpq : ∀ v, P v → Q v) : b.AllOver Q :=
  ⟨h.1.mono hpq, h.2.mono hpq, h.3.mono hpq, h.4.mono hpq, h.5.mono hpq, h.6.mono hpq, h.7.mono hpq, h.8.mono hpq, h.9.mono hpq, h.10.mono hpq⟩

theorem Val.Over.and {P Q : LpVar → Prop} {x : Val} (h : x.Over P) (h' : x.Over Q) : x.Over (fun v => P v ∧ Q v) := by
  cases x with
  | var v => exact ⟨h, h'⟩
  | _ => trivial

theorem Base.AllOver.and {P Q : LpVar → Prop} {b : Base} (h : b.AllOver P) (h' : b.AllOver Q) : b.AllOver (fun v => P v ∧ Q v) :=
  ⟨h.1.and h'.1, h.2.and h'.2, h.3.and h'.3, h.4.and h'.4, h.5.and h'.5, h.6.and h'.6, h.7.and h'.7, h.8.and h'.8, h.9.and h'.9, h.10.and h'.10⟩

theorem Asset.Fits.congr {a : Asset} {n : Nat} {f : Freq} {flags : Flags} {σ τ : Assign} (hb : ∀ i < n, a.Buildable i)
    (h : ∀ v : VarId, v.owner = .asset a.name → σ v = τ v) (hf : a.Fits n f flags σ) : a.Fits n f flags τ where
  within := fun i hi con hc => (hf.within i hi con hc).congr (within_over con hc) fun v hv => h v.id hv
  after := fun con hc => (hf.after con hc).congr (after_over con hc) fun v hv => h v.id hv
  base := fun i hi o ho => ((hf.base i hi o ho).and (ois_over (hb i hi) ho).1).map fun _ hv => InBounds.congr (h _ hv.2) hv.1

/-! ### the operating points -/

/-- The share charge event `e` loses. -/
def EvsCfg.lost (c : EvsCfg) (e : Nat) : ℚ := match c.events[e]? with
  | some ev => 1 - ev.efficiency
  | none => 0

/-- The place of a charge event. -/
def EvsCfg.place (c : EvsCfg) (name : String) : Nat := c.events.findIdx (fun ev => ev.name == name)

/-- The operating point of an asset that can rest. -/
def Asset.rest (f : Freq) : Asset → Assign
  | .battery c => fun
    | .asset _ attr _ => if attr = "electric_initial_charge_mwh" ∨ attr = "electric_final_charge_mwh" then c.initialCharge else 0
    | _ => 0
  | .boiler c => fun
    | .asset _ attr _ =>
      if attr = "high_temperature_generation_mwh" then f.mwToMwh c.heatMin
      else if attr = "gas_consumption_mwh" then f.mwToMwh c.heatMin * (1 / c.efficiency)
      else 1
    | _ => 0
  | .renewable c => fun
    | .tagged _ i _ => c.generation.getD i 0 * c.lowerBoundPct
    | _ => 0
  | .evs c => fun
    | .evFlow attr i _ e _ true =>
      if c.first i e then
        if attr = "electric_charge_mwh" then c.asked e
        else if attr = "electric_charge_binary" then 1
        else if attr = "electric_loss_mwh" then c.lost e * c.asked e
        else 0
      else 0
    | .evSoc attr i _ name =>
      if attr = "initial_soc_mwh" then (if c.seen i (c.place name) then c.asked (c.place name) else 0)
      else (if c.seen (i + 1) (c.place name) then c.asked (c.place name) else 0)
    | _ => 0
  | _ => fun _ => 0

section
variable {n : Nat} {f : Freq} {flags : Flags} {σ : Assign}

theorem good {c : Con} (h : c.Holds σ) (h' : c.Over (fun v => v.InBounds σ)) : c.Good σ := ⟨h, h'⟩

theorem inB {v : LpVar} (h : v.InBounds σ) : (Expr.var v).Over (fun v => v.InBounds σ) := Expr.Over.var h

theorem in_continuous {id : VarId} {l u : ℚ} (h1 : l ≤ σ id) (h2 : σ id ≤ u) : (continuous id (some l) (some u)).InBounds σ := by
  refine ⟨?_, ?_, ?_⟩ <;> simp [continuous, h1, h2]

theorem in_positive {id : VarId} (h1 : 0 ≤ σ id) : (continuous id (some 0)).InBounds σ := by
  refine ⟨?_, ?_, ?_⟩ <;> simp [continuous, h1]

theorem in_binary {id : VarId} (h1 : σ id = 0 ∨ σ id = 1) : (binary id).InBounds σ := by
  refine ⟨?_, ?_, ?_⟩ <;> rcases h1 with h | h <;> simp [binary, h]

theorem battery_rest {c : BatteryCfg} (h : (Asset.battery c).CanIdle f n) : (Asset.battery c).Fits n f flags ((Asset.battery c).rest f) := by
  obtain ⟨h1, h2, h3, h4, h5⟩ := h
  have b1 : ∀ i, (c.oneInterval i f).charge.InBounds ((Asset.battery c).rest f) := fun i => in_continuous (by simp [Asset.rest]) (by simpa [Asset.rest] using h4)
  have b2 : ∀ i, (c.oneInterval i f).discharge.InBounds ((Asset.battery c).rest f) := fun i =>
    in_continuous (by simp [Asset.rest]) (by simpa [Asset.rest] using h5)
  have b3 : ∀ i, (c.oneInterval i f).chargeBin.InBounds ((Asset.battery c).rest f) := fun i => in_binary (by simp [Asset.rest])
  have b4 : ∀ i, (c.oneInterval i f).dischargeBin.InBounds ((Asset.battery c).rest f) := fun i => in_binary (by simp [Asset.rest])
  have b5 : ∀ i, (c.oneInterval i f).loss.InBounds ((Asset.battery c).rest f) := fun i => in_positive (by simp [Asset.rest])
  have b6 : ∀ i, (c.oneInterval i f).initial.InBounds ((Asset.battery c).rest f) := fun i => in_continuous (by simpa [Asset.rest]) (by simpa [Asset.rest])
  have b7 : ∀ i, (c.oneInterval i f).final.InBounds ((Asset.battery c).rest f) := fun i => in_continuous (by simpa [Asset.rest]) (by simpa [Asset.rest])
  refine ⟨?_, ?_, ?_⟩
  · intro i _ con hcon
    simp only [Asset.withinList, BatteryCfg.withinList, constrainOnlyChargeOrDischarge, constrainBatteryElectricityBalance, List.mem_append,
      List.mem_cons, List.not_mem_nil, or_false] at hcon
    rcases hcon with ((rfl | rfl | rfl) | rfl | rfl) | hcon
    · exact good (by simp [constrainMax_holds, Asset.rest, BatteryCfg.oneInterval, continuous, binary]) (Expr.Over.max (inB (b1 i)) (inB (b3 i)) _)
    · exact good (by simp [constrainMax_holds, Asset.rest, BatteryCfg.oneInterval, continuous, binary]) (Expr.Over.max (inB (b2 i)) (inB (b4 i)) _)
    · exact good (by simp [leC_holds, Asset.rest, BatteryCfg.oneInterval, binary]) (Expr.Over.leC (.add (inB (b3 i)) (inB (b4 i))) (.num _))
    · exact good (by simp [eqC_holds, Asset.rest, BatteryCfg.oneInterval, continuous])
        (Expr.Over.eqC (.sub (.sub (.add (inB (b6 i)) (inB (b1 i))) (inB (b2 i))) (inB (b5 i))) (inB (b7 i)))
    · exact good (by simp [eqC_holds, Asset.rest, BatteryCfg.oneInterval, continuous]) (Expr.Over.eqC (inB (b5 i)) (.mul (inB (b1 i)) _))
    · split at hcon
      · simp at hcon
      · rw [List.mem_singleton] at hcon
        subst hcon
        exact good (by simp [eqC_holds, Asset.rest, BatteryCfg.oneInterval, continuous]) (Expr.Over.eqC (inB (b7 _)) (inB (b6 i)))
  · intro con hcon
    simp only [Asset.afterList, BatteryCfg.afterList, List.mem_cons, List.not_mem_nil, or_false] at hcon
    rcases hcon with rfl | rfl
    · exact good (by simp [eqC_holds, Asset.rest, BatteryCfg.oneInterval, continuous]) (Expr.Over.eqC (inB (b6 _)) (.num _))
    · exact good (by simp [eqC_holds, Asset.rest, BatteryCfg.oneInterval, continuous, h1]) (Expr.Over.eqC (inB (b7 _)) (.num _))
  · intro i _ o ho
    rw [ois_battery, List.mem_singleton] at ho
    subst ho
    exact ⟨trivial, trivial, trivial, trivial, trivial, trivial, b1 i, b2 i, trivial, trivial⟩

theorem boiler_rest {c : BoilerCfg} (h : (Asset.boiler c).CanRest f n) : (Asset.boiler c).Fits n f flags ((Asset.boiler c).rest f) := by
  obtain ⟨h1, h2, h3⟩ := h
  have b1 : ∀ i, (c.oneInterval i f).heat.InBounds ((Asset.boiler c).rest f) := fun i => in_continuous (by simp [Asset.rest]) (by simpa [Asset.rest] using h2)
  have b2 : ∀ i, (c.oneInterval i f).gas.InBounds ((Asset.boiler c).rest f) := fun i => in_positive (by
    simp only [Asset.rest]
    exact mul_nonneg h1 (one_div_nonneg.2 h3.le))
  have b3 : ∀ i, (c.oneInterval i f).bin.InBounds ((Asset.boiler c).rest f) := fun i => in_binary (by simp [Asset.rest])
  refine ⟨?_, by simp [Asset.afterList], ?_⟩
  · intro i _ con hcon
    simp only [Asset.withinList, BoilerCfg.withinList, List.mem_cons, List.not_mem_nil, or_false] at hcon
    rcases hcon with rfl | rfl | rfl
    · exact good (by simp [eqC_holds, Asset.rest, BoilerCfg.oneInterval, continuous]) (Expr.Over.eqC (inB (b2 i)) (.mul (inB (b1 i)) _))
    · exact good (by simpa [constrainMax_holds, Asset.rest, BoilerCfg.oneInterval, continuous, binary] using h2)
        (Expr.Over.max (inB (b1 i)) (inB (b3 i)) _)
    · exact good (by simp [constrainMin_holds, Asset.rest, BoilerCfg.oneInterval, continuous, binary]) (Expr.Over.min (inB (b1 i)) (inB (b3 i)) _)
  · intro i _ o ho
    have : o = .boiler (c.oneInterval i f) := List.mem_singleton.1 ho
    subst this
    exact ⟨trivial, b1 i, trivial, trivial, trivial, trivial, trivial, trivial, b2 i, b3 i⟩

theorem chp_rest {c : ChpCfg} (h : (Asset.chp c).CanIdle f n) : (Asset.chp c).Fits n f flags ((Asset.chp c).rest f) := by
  have h : 0 ≤ f.mwToMwh c.powerMax := h
  have b1 : ∀ i, (c.oneInterval i f).electric.InBounds ((Asset.chp c).rest f) := fun i => in_continuous (le_refl _) h
  have b2 : ∀ i, (c.oneInterval i f).gas.InBounds ((Asset.chp c).rest f) := fun i => in_positive (le_refl _)
  have b3 : ∀ i, (c.oneInterval i f).bin.InBounds ((Asset.chp c).rest f) := fun i => in_binary (.inl rfl)
  have b4 : ∀ i, (c.oneInterval i f).ht.InBounds ((Asset.chp c).rest f) := fun i => in_positive (le_refl _)
  have b5 : ∀ i, (c.oneInterval i f).lt.InBounds ((Asset.chp c).rest f) := fun i => in_positive (le_refl _)
  refine ⟨?_, by simp [Asset.afterList], ?_⟩
  · intro i _ con hcon
    simp only [Asset.withinList, ChpCfg.withinList, List.mem_append, List.mem_cons, List.not_mem_nil, or_false] at hcon
    rcases hcon with hcon | rfl | rfl | rfl | rfl
    · split at hcon
      · rw [List.mem_singleton] at hcon
        subst hcon
        exact good (by simp [eqC_holds, Asset.rest]) (Expr.Over.eqC (inB (b2 i)) (.mul (inB (b1 i)) _))
      · simp at hcon
    · exact good (by simp [eqC_holds, Asset.rest]) (Expr.Over.eqC (inB (b4 i)) (.mul (inB (b2 i)) _))
    · exact good (by simp [eqC_holds, Asset.rest]) (Expr.Over.eqC (inB (b5 i)) (.mul (inB (b2 i)) _))
    · exact good (by simp [constrainMax_holds, Asset.rest]) (Expr.Over.max (inB (b1 i)) (inB (b3 i)) _)
    · exact good (by simp [constrainMin_holds, Asset.rest]) (Expr.Over.min (inB (b1 i)) (inB (b3 i)) _)
  · intro i _ o ho
    have : o = .chp (c.oneInterval i f) := List.mem_singleton.1 ho
    subst this
    exact ⟨b1 i, b4 i, b5 i, trivial, trivial, trivial, trivial, trivial, b2 i, b3 i⟩

theorem heatPump_rest {c : HeatPumpCfg} (h : (Asset.heatPump c).CanIdle f n) : (Asset.heatPump c).Fits n f flags ((Asset.heatPump c).rest f) := by
  have h : 0 ≤ f.mwToMwh c.power := h
  have b1 : ∀ i, (c.oneInterval i f).load.InBounds ((Asset.heatPump c).rest f) := fun i => in_continuous (le_refl _) h
  have b2 : ∀ i, (c.oneInterval i f).ht.InBounds ((Asset.heatPump c).rest f) := fun i => in_positive (le_refl _)
  have b3 : ∀ i, (c.oneInterval i f).bin.InBounds ((Asset.heatPump c).rest f) := fun i => in_binary (.inl rfl)
  have b4 : ∀ i, (c.oneInterval i f).ltLoad.InBounds ((Asset.heatPump c).rest f) := fun i => in_positive (le_refl _)
  refine ⟨?_, by simp [Asset.afterList], ?_⟩
  · intro i _ con hcon
    simp only [Asset.withinList, HeatPumpCfg.withinList, List.mem_cons, List.not_mem_nil, or_false] at hcon
    rcases hcon with rfl | rfl | rfl
    · exact good (by simp [constrainMax_holds, Asset.rest]) (Expr.Over.max (inB (b1 i)) (inB (b3 i)) _)
    · exact good (by simp [eqC_holds, Asset.rest]) (Expr.Over.eqC (inB (b2 i)) (.mul (inB (b1 i)) _))
    · exact good (by simp [eqC_holds, Asset.rest]) (Expr.Over.eqC (.add (inB (b4 i)) (inB (b1 i))) (inB (b2 i)))
  · intro i _ o ho
    have : o = .heatPump (c.oneInterval i f) := List.mem_singleton.1 ho
    subst this
    exact ⟨trivial, b2 i, trivial, b1 i, trivial, b4 i, trivial, trivial, trivial, trivial⟩

theorem renewable_buildable {c : RenewableCfg} (h : (Asset.renewable c).CanRest f n) {i : Nat} (hi : i < n) : (Asset.renewable c).Buildable i :=
  ⟨h.1, by rw [h.2.1]; exact hi⟩

theorem renewable_rest {c : RenewableCfg} (h : (Asset.renewable c).CanRest f n) : (Asset.renewable c).Fits n f flags ((Asset.renewable c).rest f) := by
  have hb := fun i (hi : i < n) => renewable_buildable h hi
  obtain ⟨h1, h2, h3, h4, h5⟩ := h
  refine ⟨by simp [Asset.withinList], by simp [Asset.afterList], ?_⟩
  intro i hi o ho
  rw [ois_renewable (hb i hi), List.mem_singleton] at ho
  subst ho
  refine ⟨?_, trivial, trivial, trivial, trivial, trivial, trivial, trivial, trivial, trivial⟩
  have : 0 ≤ c.generation.getD i 0 := by
    rw [List.getD_eq_getElem?_getD, List.getElem?_eq_getElem (h2 ▸ hi)]
    exact h5 _ (List.getElem_mem _)
  exact in_continuous (le_refl _) (mul_le_of_le_one_right this h4)

/-- A spill fits any non-negative assignment. -/
theorem spill_fits {c : SpillCfg} (h : ∀ v : VarId, v.owner = .asset c.name → 0 ≤ σ v) : (Asset.spill c).Fits n f flags σ := by
  refine ⟨by simp [Asset.withinList], by simp [Asset.afterList], ?_⟩
  intro i _ o ho
  have : o = .spill (c.oneInterval i) := List.mem_singleton.1 ho
  subst this
  exact ⟨in_positive (h _ rfl), in_positive (h _ rfl), trivial, in_positive (h _ rfl), trivial, in_positive (h _ rfl), trivial, trivial, trivial, trivial⟩

/-- A valve fits any non-negative assignment with the same heat in and out. -/
theorem valve_fits {c : ValveCfg} (h : ∀ v : VarId, v.owner = .asset c.name → 0 ≤ σ v)
    (he : ∀ i, σ (.asset c.name "high_temperature_load_mwh" i) = σ (.asset c.name "low_temperature_generation_mwh" i)) :
    (Asset.valve c).Fits n f flags σ := by
  have b1 : ∀ i, (c.oneInterval i).htLoad.InBounds σ := fun i => in_positive (h _ rfl)
  have b2 : ∀ i, (c.oneInterval i).lt.InBounds σ := fun i => in_positive (h _ rfl)
  refine ⟨?_, by simp [Asset.afterList], ?_⟩
  · intro i _ con hcon
    simp only [Asset.withinList, ValveCfg.withinList, List.mem_cons, List.not_mem_nil, or_false] at hcon
    subst hcon
    exact good (by simpa [eqC_holds, ValveCfg.oneInterval, continuous] using he i) (Expr.Over.eqC (inB (b1 i)) (inB (b2 i)))
  · intro i _ o ho
    have : o = .valve (c.oneInterval i) := List.mem_singleton.1 ho
    subst this
    exact ⟨trivial, trivial, b2 i, trivial, b1 i, trivial, trivial, trivial, trivial, trivial⟩

/-! ### EVs served by the spill charger -/

theorem place_eq {c : EvsCfg} (h : (c.events.map ChargeEventCfg.name).Nodup) {e : Nat} {ev : ChargeEventCfg} (he : c.events[e]? = some ev) :
    c.place ev.name = e := by
  unfold EvsCfg.place
  have hl := event_lt he
  have hx : c.events[e] = ev := by rw [List.getElem?_eq_getElem hl] at he; exact Option.some.inj he
  have hlt : c.events.findIdx (fun x => x.name == ev.name) < c.events.length :=
    List.findIdx_lt_length_of_exists ⟨ev, List.mem_of_getElem? he, by simp⟩
  have hp := List.findIdx_getElem (w := hlt)
  have hq : (c.events.map ChargeEventCfg.name)[c.events.findIdx (fun x => x.name == ev.name)]'(by simpa using hlt) =
      (c.events.map ChargeEventCfg.name)[e]'(by simpa using hl) := by
    simp only [List.getElem_map, hx]
    simpa using hp
  exact (List.Nodup.getElem_inj_iff h).1 hq

theorem asked_eq {c : EvsCfg} {e : Nat} {ev : ChargeEventCfg} (he : c.events[e]? = some ev) : c.asked e = ev.capacity := by
  simp [EvsCfg.asked, he]

theorem lost_eq {c : EvsCfg} {e : Nat} {ev : ChargeEventCfg} (he : c.events[e]? = some ev) : c.lost e = 1 - ev.efficiency := by
  simp [EvsCfg.lost, he]

theorem seen_succ (c : EvsCfg) (i e : Nat) : c.seen (i + 1) e ↔ c.seen i e ∨ c.first i e := by
  unfold EvsCfg.first EvsCfg.seen
  constructor
  · rintro ⟨j, hj, h⟩
    by_cases hs : ∃ j < i, c.present j e = 1
    · exact .inl hs
    · refine .inr ⟨?_, hs⟩
      have : j = i := by
        by_contra hne
        exact hs ⟨j, by omega, h⟩
      rwa [← this]
  · rintro (⟨j, hj, h⟩ | ⟨h, _⟩)
    · exact ⟨j, by omega, h⟩
    · exact ⟨i, by omega, h⟩

theorem served_rows {c : EvsCfg} (h : c.Served f n) {i : Nat} (hi : i < n) : c.HasRow i := by
  intro e he
  obtain ⟨row, hr, hl⟩ := h.rows i hi
  have : matIndex c.chargeEvents i e = .ok (row[e]'(by omega)) := by
    simp only [matIndex, bind_ok, pyIndex_nat]
    exact ⟨row, hr, List.getElem?_eq_getElem _⟩
  simp [EvsCfg.entry, this]

theorem served_shape {c : EvsCfg} (h : c.Served f n) : c.Shape := by
  obtain ⟨ch, hch, _⟩ := h.spill
  exact ⟨h.events, h.chargers, by rw [hch]; rfl⟩

theorem sum_zeros {α : Type} {l : List α} {g : α → ℚ} (h : ∀ a ∈ l, g a = 0) : (l.map g).sum = 0 :=
  List.sum_eq_zero (by simpa using h)

theorem served_plan {c : EvsCfg} (h : c.Served f n) : EvPlan c f flags ((Asset.evs c).rest f) n := by
  obtain ⟨sp, hsp, hmin, hmax⟩ := h.spill
  have z1 : ∀ i e ch, c.chargeOf flags ((Asset.evs c).rest f) i e ch false = 0 := fun i e ch => by
    unfold EvsCfg.chargeOf; split <;> rfl
  have z2 : ∀ i e ch, c.chargeBinOf flags ((Asset.evs c).rest f) i e ch false = 0 := fun i e ch => by
    unfold EvsCfg.chargeBinOf; split <;> rfl
  have z3 : ∀ i e ch, c.dischargeOf flags ((Asset.evs c).rest f) i e ch = 0 := fun i e ch => by
    unfold EvsCfg.dischargeOf; split <;> rfl
  have z4 : ∀ i e ch, c.dischargeBinOf flags ((Asset.evs c).rest f) i e ch = 0 := fun i e ch => by
    unfold EvsCfg.dischargeBinOf; split <;> rfl
  have s1 : ∀ i e ch, c.chargeOf flags ((Asset.evs c).rest f) i e ch true = if c.first i e then c.asked e else 0 := fun i e ch => by
    unfold EvsCfg.chargeOf
    split
    · rename_i hl
      rw [if_neg fun hf => hl.2 hf.1]
    · simp [Asset.rest]
  have s2 : ∀ i e ch, c.chargeBinOf flags ((Asset.evs c).rest f) i e ch true = if c.first i e then 1 else 0 := fun i e ch => by
    unfold EvsCfg.chargeBinOf
    split
    · rename_i hl
      rw [if_neg fun hf => hl.2 hf.1]
    · simp [Asset.rest]
  have s3 : ∀ i e ch, c.lossOf ((Asset.evs c).rest f) i e ch true = if c.first i e then c.lost e * c.asked e else 0 := fun i e ch => by
    simp [EvsCfg.lossOf, Asset.rest]
  have soc1 : ∀ (i e : Nat) (ev : ChargeEventCfg), c.events[e]? = some ev →
      c.initialSocOf ((Asset.evs c).rest f) i ev = if c.seen i e then ev.capacity else 0 := fun i e ev he => by
    simp [EvsCfg.initialSocOf, Asset.rest, place_eq h.names he, asked_eq he]
  have soc2 : ∀ (i e : Nat) (ev : ChargeEventCfg), c.events[e]? = some ev →
      c.finalSocOf ((Asset.evs c).rest f) i ev = if c.seen (i + 1) e then ev.capacity else 0 := fun i e ev he => by
    simp [EvsCfg.finalSocOf, Asset.rest, place_eq h.names he, asked_eq he]
  have soc : ∀ (p : Prop) [Decidable p] (q : ℚ), 0 ≤ q → 0 ≤ (if p then q else 0) ∧ (if p then q else 0) ≤ q := fun p _ q hq => by
    split <;> simp [hq]
  refine ⟨h.horizon, served_shape h, fun i hi => served_rows h hi, ?_, h.present, h.power, ?_, ?_, ?_, ?_, ?_⟩
  · intro i hi
    refine ⟨?_, ?_, ?_, ?_, ?_, ?_, ?_, ?_, ?_⟩
    · intro e ev he ch hch
      rw [z1, z2]
      exact flowOk_zero
    · intro e ev he ch hch
      rw [z3, z4]
      exact flowOk_zero
    · intro e ev he ch hch
      rw [hsp, List.mem_singleton] at hch
      subst hch
      rw [s1, s2]
      split
      · rename_i hf
        refine .inr ⟨rfl, ?_, ?_, ?_, hf.1.ge⟩
        · rw [asked_eq he]; exact (h.plugged e ev he).1
        · rw [hmin, asked_eq he]; exact (h.plugged e ev he).1
        · rw [asked_eq he]; exact hmax ev (List.mem_of_getElem? he)
      · exact flowOk_zero
    · intro e he
      rw [sum_zeros fun ch _ => z2 i e ch.name, sum_zeros fun ch _ => z4 i e ch.name]
      norm_num
    · intro ch hch
      unfold EvsCfg.sumEvents
      rw [sum_zeros fun e _ => z2 i e ch.name, sum_zeros fun e _ => z4 i e ch.name]
      norm_num
    · intro e ev he
      unfold EvsCfg.eventCharge EvsCfg.eventSpill EvsCfg.eventDischarge
      rw [hsp, sum_zeros (l := c.chargers) fun ch _ => z1 i e ch.name, sum_zeros (l := c.chargers) fun ch _ => z3 i e ch.name, soc1 i e ev he, soc2 i e ev he]
      simp only [List.map_cons, List.map_nil, List.sum_cons, List.sum_nil, add_zero, mul_zero, sub_zero, s1, seen_succ, asked_eq he]
      by_cases h1 : c.seen i e
      · have h2 : ¬ c.first i e := fun hf => hf.2 h1
        simp [h1, h2]
      · by_cases h2 : c.first i e <;> simp [h1, h2]
    · intro e ev he ch hch
      rw [z1, mul_zero]
      rfl
    · intro e ev he ch hch
      rw [s3, s1, lost_eq he]
      split <;> simp
    · intro e ev he
      have hq := (h.plugged e ev he).1
      rw [soc1 i e ev he, soc2 i e ev he]
      exact ⟨(soc _ _ hq).1, (soc _ _ hq).2, (soc _ _ hq).1, (soc _ _ hq).2⟩
  · intro ch hch
    rw [hsp, List.mem_singleton] at hch
    subst hch
    cases hev : c.events with
    | nil => exact absurd hev h.events
    | cons ev evs =>
      exact le_trans (h.plugged 0 ev (by rw [hev]; rfl)).1 (hmax ev (by rw [hev]; simp))
  · intro i hi e he ch hch
    exact le_refl _
  · intro i hi e he ch hch
    rw [s3]
    split
    · obtain ⟨h1, h2, _⟩ := h.plugged e _ (List.getElem?_eq_getElem he)
      rw [lost_eq (List.getElem?_eq_getElem he), asked_eq (List.getElem?_eq_getElem he)]
      exact mul_nonneg (by linarith) h1
    · exact le_refl _
  · intro i hi ev hev
    obtain ⟨e, he⟩ := List.mem_iff_getElem?.1 hev
    rw [soc1 _ e ev he, soc2 _ e ev he]
  · intro ev hev
    obtain ⟨e, he⟩ := List.mem_iff_getElem?.1 hev
    rw [soc1 _ e ev he, soc2 _ e ev he]
    refine ⟨by simp [EvsCfg.seen], ?_⟩
    have hn := h.horizon
    rw [Nat.sub_add_cancel hn]
    rcases (h.plugged e ev he).2.2 with h0 | ⟨i, hi, hp⟩
    · simp [h0]
    · rw [if_pos ⟨i, hi, hp⟩]

theorem evs_rest {c : EvsCfg} (h : c.Served f n) : (Asset.evs c).Fits n f flags ((Asset.evs c).rest f) where
  within := fun _ hi con hcon => plan_within (served_plan h) hi con hcon
  after := fun con hcon => plan_after (served_plan h) con hcon
  base := fun _ hi o ho => plan_base (served_plan h) hi o ho

theorem rest_fits {a : Asset} (h : a.CanRest f n) : a.Fits n f flags (a.rest f) := by
  cases a with
  | battery c => exact battery_rest h
  | boiler c => exact boiler_rest h
  | chp c => exact chp_rest h
  | evs c => exact evs_rest h
  | heatPump c => exact heatPump_rest h
  | renewable c => exact renewable_rest h
  | spill c => exact spill_fits fun _ _ => le_refl _
  | valve c => exact valve_fits (fun _ _ => le_refl _) fun _ => rfl

theorem rest_buildable {a : Asset} (h : a.CanRest f n) {i : Nat} (hi : i < n) : a.Buildable i := by
  cases a with
  | boiler c => exact h.2.2.ne'
  | evs c => exact ⟨served_shape h, served_rows h hi⟩
  | renewable c => exact renewable_buildable h hi
  | _ => trivial

theorem Asset.CanIdle.rest {a : Asset} (h : a.CanIdle f n) : a.CanRest f n := by
  cases a with
  | boiler c => exact ⟨h.1.ge, by rw [h.1]; exact h.2.1, h.2.2⟩
  | renewable c => exact ⟨h.1, h.2.1, h.2.2.1.ge, by rw [h.2.2.1]; norm_num, h.2.2.2⟩
  | evs c => exact absurd h id
  | _ => exact h

/-- The values of the quantities of an asset. -/
def Base.AllZero (σ : Assign) (b : Base) : Prop :=
  b.electricGeneration.eval σ = 0 ∧ b.htGeneration.eval σ = 0 ∧ b.ltGeneration.eval σ = 0 ∧ b.electricLoad.eval σ = 0 ∧ b.htLoad.eval σ = 0 ∧
    b.ltLoad.eval σ = 0 ∧ b.electricCharge.eval σ = 0 ∧ b.electricDischarge.eval σ = 0 ∧ b.gasConsumption.eval σ = 0

/-- An idle asset has no flows. -/
theorem idle_zero {a : Asset} (h : a.CanIdle f n) {i : Nat} (hi : i < n) {o : OneInterval} (ho : o ∈ a.ois i f flags) : o.base.AllZero (a.rest f) := by
  cases a with
  | battery c =>
    have : o = .battery (c.oneInterval i f) := List.mem_singleton.1 ho
    subst this
    simp [Base.AllZero, OneInterval.base, Val.eval, Asset.rest, BatteryCfg.oneInterval, continuous]
  | boiler c =>
    have : o = .boiler (c.oneInterval i f) := List.mem_singleton.1 ho
    subst this
    simp [Base.AllZero, OneInterval.base, Val.eval, Asset.rest, BoilerCfg.oneInterval, continuous, h.1]
  | evs c => exact absurd h id
  | renewable c =>
    rw [ois_renewable (renewable_buildable h.rest hi), List.mem_singleton] at ho
    subst ho
    simp [Base.AllZero, OneInterval.base, Val.eval, Asset.rest, RenewableCfg.oi, continuous, h.2.2.1]
  | chp c =>
    have : o = .chp (c.oneInterval i f) := List.mem_singleton.1 ho
    subst this
    simp [Base.AllZero, OneInterval.base, Val.eval, Asset.rest]
  | heatPump c =>
    have : o = .heatPump (c.oneInterval i f) := List.mem_singleton.1 ho
    subst this
    simp [Base.AllZero, OneInterval.base, Val.eval, Asset.rest]
  | spill c =>
    have : o = .spill (c.oneInterval i) := List.mem_singleton.1 ho
    subst this
    simp [Base.AllZero, OneInterval.base, Val.eval, Asset.rest]
  | valve c =>
    have : o = .valve (c.oneInterval i) := List.mem_singleton.1 ho
    subst this
    simp [Base.AllZero, OneInterval.base, Val.eval, Asset.rest]

end

end EPL
