/-
The spill charger at the margin: a charger does a little of its work.
-/
import Verif.Proofs.MarginEvs
import Verif.Spec.MarginSpill

namespace EPL

/-- The change of the columns when charger `l` charges event `e` by `x` more in interval `j` and the spill charger does that much less in interval `i`. -/
def spareChange (a : EvArgs) (e i j l : Nat) (x : ℚ) : String → Nat → ℚ :=
  bump (a.chargerCol l "electric_charge_mwh") (spike j x) + (bump (a.spillCol "electric_charge_mwh") (spike i (-(a.efficiency * x))) +
    (bump (a.eventCol e "electric_charge_mwh") (spike j x) +
      (bump (a.eventCol e "initial_soc_mwh") (carriedIn j i (a.efficiency * x)) +
        bump (a.eventCol e "final_soc_mwh") (carried j i (a.efficiency * x)))))

section
variable {a : EvArgs} {e i j l : Nat} {x : ℚ}

theorem spareChange_charger (m t : Nat) : spareChange a e i j l x (a.chargerCol m "electric_charge_mwh") t = if m = l then spike j x t else 0 := by
  simp only [spareChange, Pi.add_apply, bump, charger_eq nd_charge nd_charge, charger_event nd_charge nd_charge, charger_event nd_charge nd_initial,
    charger_event nd_charge nd_final, (spill_charger nd_charge nd_charge).symm, and_true, if_false, add_zero]

theorem spareChange_chargerOff (m t : Nat) : spareChange a e i j l x (a.chargerCol m "electric_discharge_mwh") t = 0 := by
  simp only [spareChange, Pi.add_apply, bump, charger_eq nd_discharge nd_charge, charger_event nd_discharge nd_charge, charger_event nd_discharge nd_initial,
    charger_event nd_discharge nd_final, (spill_charger nd_charge nd_discharge).symm, String.reduceEq, and_false, if_false, add_zero]

theorem spareChange_event (f t : Nat) : spareChange a e i j l x (a.eventCol f "electric_charge_mwh") t = if f = e then spike j x t else 0 := by
  simp only [spareChange, Pi.add_apply, bump, (charger_event nd_charge nd_charge).symm, event_eq nd_charge nd_charge, event_eq nd_charge nd_initial,
    event_eq nd_charge nd_final, (spill_event nd_charge nd_charge).symm, String.reduceEq, and_false, and_true, if_false, add_zero, zero_add]

theorem spareChange_eventOff (f t : Nat) : spareChange a e i j l x (a.eventCol f "electric_discharge_mwh") t = 0 := by
  simp only [spareChange, Pi.add_apply, bump, (charger_event nd_charge nd_discharge).symm, event_eq nd_discharge nd_charge, event_eq nd_discharge nd_initial,
    event_eq nd_discharge nd_final, (spill_event nd_charge nd_discharge).symm, String.reduceEq, and_false, if_false, add_zero]

theorem spareChange_initial (f t : Nat) :
    spareChange a e i j l x (a.eventCol f "initial_soc_mwh") t = if f = e then carriedIn j i (a.efficiency * x) t else 0 := by
  simp only [spareChange, Pi.add_apply, bump, (charger_event nd_charge nd_initial).symm, event_eq nd_initial nd_charge, event_eq nd_initial nd_initial,
    event_eq nd_initial nd_final, (spill_event nd_charge nd_initial).symm, String.reduceEq, and_false, and_true, if_false, add_zero, zero_add]

theorem spareChange_final (f t : Nat) :
    spareChange a e i j l x (a.eventCol f "final_soc_mwh") t = if f = e then carried j i (a.efficiency * x) t else 0 := by
  simp only [spareChange, Pi.add_apply, bump, (charger_event nd_charge nd_final).symm, event_eq nd_final nd_charge, event_eq nd_final nd_initial,
    event_eq nd_final nd_final, (spill_event nd_charge nd_final).symm, String.reduceEq, and_false, and_true, if_false, zero_add]

theorem spill_same {q q' : String} (hq : NoDash q) (hq' : NoDash q') : a.spillCol q = a.spillCol q' ↔ q = q' :=
  ⟨fun h => (dash_inj hq hq' h).2, fun h => by rw [h]⟩

theorem spareChange_spill (t : Nat) : spareChange a e i j l x (a.spillCol "electric_charge_mwh") t = spike i (-(a.efficiency * x)) t := by
  simp only [spareChange, Pi.add_apply, bump, spill_charger nd_charge nd_charge, spill_event nd_charge nd_charge, spill_event nd_charge nd_initial,
    spill_event nd_charge nd_final, if_false, add_zero, zero_add, if_true]

theorem spareChange_spillOff (t : Nat) : spareChange a e i j l x (a.spillCol "electric_discharge_mwh") t = 0 := by
  simp only [spareChange, Pi.add_apply, bump, spill_charger nd_discharge nd_charge, spill_event nd_discharge nd_charge, spill_event nd_discharge nd_initial,
    spill_event nd_discharge nd_final, spill_same nd_discharge nd_charge, String.reduceEq, if_false, add_zero]

end

/-- The schedule after the change. -/
def EvSchedule.spared (y : EvSchedule) (η : ℚ) (e i j l : Nat) (x : ℚ) : EvSchedule where
  charge t f m := y.charge t f m + (if f = e ∧ m = l then spike j x t else 0)
  discharge := y.discharge
  spill t f := y.spill t f + (if f = e then spike i (-(η * x)) t else 0)

section
variable {s : Site} {flags : Flags} {V : String → Nat → ℚ} {a : EvArgs} {y : EvSchedule} {e i j l : Nat} {x η : ℚ}

theorem spared_charge (t f m : Nat) : (y.spared η e i j l x).charge t f m = if t = j ∧ f = e ∧ m = l then y.charge j e l + x else y.charge t f m := by
  simp only [EvSchedule.spared, spike]
  by_cases h1 : t = j
  · subst h1
    by_cases h2 : f = e
    · subst h2
      by_cases h3 : m = l
      · subst h3; simp
      · simp [h3]
    · simp [h2]
  · simp [h1]

theorem spared_spill (t f : Nat) : (y.spared η e i j l x).spill t f = if t = i ∧ f = e then y.spill i e - η * x else y.spill t f := by
  simp only [EvSchedule.spared, spike]
  by_cases h1 : t = i
  · subst h1
    by_cases h2 : f = e
    · subst h2; simp [sub_eq_add_neg]
    · simp [h2]
  · simp [h1]

/-- The vehicles can follow the change. -/
theorem evs_spare (hp : a.Plays s flags V y) (he : e < a.capacities.length) (hl : l < a.powers.length) (hi : i < s.data.n)
    (hj : j < s.data.n) (hx : 0 ≤ x) (heff : 0 ≤ a.efficiency) (h0 : 0 < y.spill i e) (hx0 : a.efficiency * x ≤ y.spill i e)
    (hpres : 1 ≤ a.present j e)
    (hfree : ∀ m < a.powers.length, (y.charge j e m ≠ 0 → m = l) ∧ y.discharge j e m = 0)
    (hfree' : ∀ f < a.capacities.length, (y.charge j f l ≠ 0 → f = e) ∧ y.discharge j f l = 0)
    (hhigh : ∀ power ∈ a.powers[l]?, power * a.turndown * s.freqMins / 60 ≤ y.charge j e l + x ∧ y.charge j e l + x ≤ power * s.freqMins / 60)
    (hst : ∀ t < s.data.n, 0 ≤ V (a.eventCol e "final_soc_mwh") t + carried j i (a.efficiency * x) t ∧
      V (a.eventCol e "final_soc_mwh") t + carried j i (a.efficiency * x) t ≤ a.capacities.getD e 0) :
    a.Plays s flags (V + spareChange a e i j l x) (y.spared a.efficiency e i j l x) := by
  have E := hp.explains
  have X := hp.valid
  have hon : ∀ t f m, (y.spared a.efficiency e i j l x).charge t f m ≠ 0 → y.charge t f m ≠ 0 ∨ (t = j ∧ f = e ∧ m = l) := by
    intro t f m hc
    rw [spared_charge] at hc
    split_ifs at hc with c2
    · exact .inr c2
    · exact .inl hc
  have hcap : ∀ k < a.powers.length, ∃ q, a.powers[k]? = some q := fun k hk => ⟨_, List.getElem?_eq_getElem hk⟩
  have hnn : ∀ t < s.data.n, ∀ f < a.capacities.length, ∀ m < a.powers.length, 0 ≤ (y.spared a.efficiency e i j l x).charge t f m := by
    intro t ht f hf m hm
    obtain ⟨q, hq⟩ := hcap m hm
    have := (X.limits t ht f hf m hm q hq).2.2.1
    rw [spared_charge]
    split_ifs with c2
    · obtain ⟨rfl, rfl, rfl⟩ := c2; linarith
    · exact this
  have hloss : 0 ≤ 1 - a.efficiency := by
    have := (hp.losses i hi e he).1
    exact nonneg_of_mul_nonneg_left this h0
  have hηx : 0 ≤ a.efficiency * x := mul_nonneg heff hx
  have hsp : ∀ t < s.data.n, ∀ f < a.capacities.length, 0 ≤ (y.spared a.efficiency e i j l x).spill t f ∧
      (y.spared a.efficiency e i j l x).spill t f ≤ 10000 * s.freqMins / 60 := by
    intro t ht f hf
    obtain ⟨q1, q2⟩ := hp.spill t ht f hf
    rw [spared_spill]
    split_ifs with c
    · obtain ⟨rfl, rfl⟩ := c
      constructor <;> linarith
    · exact ⟨q1, q2⟩
  refine ⟨⟨fun t ht m hm => ?_, fun t ht m hm => ?_, fun t ht f hf => ?_, fun t ht f hf => ?_, fun t ht => ?_, fun t ht => ?_⟩,
    ⟨fun t ht f hf hpr => ?_, fun t ht f hf m hm m' hm' => ?_, fun t ht m hm f hf f' hf' => ?_, fun t ht f hf m hm power hpow => ?_,
      X.noDischarge, fun t ht f hf => ?_⟩,
    hsp, fun t ht f hf => ?_, fun f capacity hc => ?_⟩
  · rw [Pi.add_apply, Pi.add_apply, E.charger_charge t ht m hm, spareChange_charger]
    simp only [EvSchedule.spared]
    rw [sumTo_add, sumTo_one he (f := fun f => if f = e ∧ m = l then _ else _) (fun f _ hf => by simp [hf])]
    simp
  · rw [Pi.add_apply, Pi.add_apply, spareChange_chargerOff, add_zero]
    exact E.charger_discharge t ht m hm
  · rw [Pi.add_apply, Pi.add_apply, E.event_charge t ht f hf, spareChange_event]
    simp only [EvSchedule.spared]
    rw [sumTo_add, sumTo_one hl (f := fun m => if f = e ∧ m = l then _ else _) (fun m _ hm => by simp [hm])]
    by_cases hfe : f = e <;> simp [hfe]
  · rw [Pi.add_apply, Pi.add_apply, spareChange_eventOff, add_zero]
    exact E.event_discharge t ht f hf
  · rw [Pi.add_apply, Pi.add_apply, spareChange_spill, E.spill_charge t ht]
    simp only [EvSchedule.spared]
    rw [sumTo_add, sumTo_one he (f := fun f => if f = e then _ else _) (fun f _ hf => by simp [hf])]
    simp
  · rw [Pi.add_apply, Pi.add_apply, spareChange_spillOff, add_zero]
    exact E.spill_discharge t ht
  · obtain ⟨q1, q2⟩ := X.absent t ht f hf hpr
    refine ⟨fun m hm => ⟨?_, (q1 m hm).2⟩, ?_⟩
    · by_contra hc
      rcases hon t f m hc with h | ⟨rfl, rfl, rfl⟩
      · exact h (q1 m hm).1
      · linarith
    · rw [spared_spill]
      split_ifs with c
      · obtain ⟨rfl, rfl⟩ := c
        exact absurd q2 h0.ne'
      · exact q2
  · obtain ⟨q1, q2, q3⟩ := X.oneCharger t ht f hf m hm m' hm'
    refine ⟨fun c1 c2 => ?_, q2, fun ⟨c1, c2⟩ => ?_⟩
    · rcases hon _ _ _ c1 with d1 | ⟨rfl, rfl, rfl⟩
      · rcases hon _ _ _ c2 with d2 | ⟨rfl, rfl, rfl⟩
        · exact q1 d1 d2
        · exact (hfree m hm).1 d1
      · rcases hon _ _ _ c2 with d2 | ⟨-, -, rfl⟩
        · exact ((hfree m' hm').1 d2).symm
        · rfl
    · rcases hon _ _ _ c1 with d1 | ⟨rfl, rfl, rfl⟩
      · exact q3 ⟨d1, c2⟩
      · exact c2 (hfree m' hm').2
  · obtain ⟨q1, q2, q3⟩ := X.oneEvent t ht m hm f hf f' hf'
    refine ⟨fun c1 c2 => ?_, q2, fun ⟨c1, c2⟩ => ?_⟩
    · rcases hon _ _ _ c1 with d1 | ⟨rfl, rfl, rfl⟩
      · rcases hon _ _ _ c2 with d2 | ⟨rfl, rfl, rfl⟩
        · exact q1 d1 d2
        · exact (hfree' f hf).1 d1
      · rcases hon _ _ _ c2 with d2 | ⟨-, rfl, -⟩
        · exact ((hfree' f' hf').1 d2).symm
        · rfl
    · rcases hon _ _ _ c1 with d1 | ⟨rfl, rfl, rfl⟩
      · exact q3 ⟨d1, c2⟩
      · exact c2 (hfree' f' hf').2
  · obtain ⟨q1, q2, q3, q4, -⟩ := X.limits t ht f hf m hm power hpow
    refine ⟨?_, q2, hnn t ht f hf m hm, q4, (hsp t ht f hf).1⟩
    rw [spared_charge]
    split_ifs with c2
    · obtain ⟨rfl, rfl, rfl⟩ := c2
      exact .inr (hhigh power hpow)
    · exact q1
  · have := X.soc t ht f hf
    simp only [Pi.add_apply, spareChange_initial, spareChange_final]
    simp only [EvSchedule.spared]
    rw [sumTo_add, sumTo_one hl (f := fun m => if f = e ∧ m = l then _ else _) (fun m _ hm => by simp [hm]), this]
    by_cases hfe : f = e
    · subst hfe
      simp only [if_true, and_self]
      rw [carried_step]
      unfold spike
      split_ifs <;> ring
    · simp [hfe]
  · exact ⟨mul_nonneg hloss (hsp t ht f hf).1, fun m hm => mul_nonneg hloss (hnn t ht f hf m hm)⟩
  · obtain ⟨q1, q2, q3, q4⟩ := hp.stored f capacity hc
    simp only [Pi.add_apply, spareChange_initial, spareChange_final]
    by_cases hfe : f = e
    · subst hfe
      have hcapd : a.capacities.getD f 0 = capacity := by rw [List.getD_eq_getElem?_getD, hc]; rfl
      rw [hcapd] at hst
      simp only [if_true]
      refine ⟨by rw [carriedIn_zero, add_zero]; exact q1, by rw [carried_last hj hi, add_zero]; exact q2, fun t ht => by rw [carriedIn_succ, q3 t ht],
        fun t ht => ?_⟩
      obtain ⟨w1, w2, w3, w4⟩ := q4 t ht
      refine ⟨?_, ?_, hst t ht⟩
      · rcases t with _ | t
        · rw [carriedIn_zero, add_zero]; exact w1
        · rw [carriedIn_succ, q3 t ht]; exact (hst t (by omega)).1
      · rcases t with _ | t
        · rw [carriedIn_zero, add_zero]; exact w2
        · rw [carriedIn_succ, q3 t ht]; exact (hst t (by omega)).2
    · simp only [hfe, if_false, add_zero]
      exact ⟨q1, q2, q3, q4⟩

theorem spare_charge_sum {c : EvsCfg} (hw : (Asset.evs c).WellNamed) (hn : c.name = a.name) (hlen : c.chargers.length = a.powers.length)
    (hl : l < a.powers.length) (t : Nat) :
    rowSum (spareChange a e i j l x) ((Asset.evs c).reports "electric_charge_mwh") t = spike j x t + spike i (-(a.efficiency * x)) t := by
  rw [evs_reports hw hn hlen (by simp)]
  unfold rowSum
  rw [List.map_append, List.sum_append, List.map_map, List.map_singleton, List.sum_singleton, spareChange_spill]
  have : (fun m => spareChange a e i j l x m t) ∘ (fun m => a.chargerCol m "electric_charge_mwh") = fun m => if m = l then spike j x t else 0 := by
    funext m
    exact spareChange_charger m t
  rw [this]
  have h3 := sumTo_one hl (f := fun m => if m = l then spike j x t else 0) (fun m _ hm => by simp [hm])
  unfold sumTo at h3
  rw [h3]
  simp

theorem spare_discharge_sum {c : EvsCfg} (hw : (Asset.evs c).WellNamed) (hn : c.name = a.name) (hlen : c.chargers.length = a.powers.length) (t : Nat) :
    rowSum (spareChange a e i j l x) ((Asset.evs c).reports "electric_discharge_mwh") t = 0 := by
  rw [evs_reports hw hn hlen (by simp)]
  refine list_sum_zero fun m hm => ?_
  rcases List.mem_append.1 hm with hm | hm
  · obtain ⟨m, -, rfl⟩ := List.mem_map.1 hm
    exact spareChange_chargerOff m t
  · rw [List.mem_singleton] at hm
    subst hm
    exact spareChange_spillOff t

theorem spare_penalised {c : EvsCfg} (hw : (Asset.evs c).WellNamed) (hn : c.name = a.name) (t : Nat) :
    rowSum (spareChange a e i j l x) (Asset.evs c).penalised t = spike i (-(a.efficiency * x)) t := by
  have : (Asset.evs c).penalised = [a.spillCol "electric_charge_mwh"] := by
    have e : (Asset.evs c).penalised = (c.spillChargers.map ChargerCfg.name).map (fun n => c.name ++ "-" ++ n ++ "-electric_charge_mwh") := by
      simp only [Asset.penalised, List.map_map]
      rfl
    rw [e, hw.2.2.1, hn, List.map_singleton]
    congr 1
    rw [str_eq_iff]
    simp [EvArgs.spillCol, String.toList_append]
  rw [this]
  show spareChange a e i j l x (a.spillCol "electric_charge_mwh") t + 0 = _
  rw [spareChange_spill, add_zero]

theorem spare_piece {c : EvsCfg} (hm : Asset.evs c ∈ s.assets) (hmake : a.make = .ok c) (hn : c.name = a.name) (hlen : c.chargers.length = a.powers.length)
    (hlen' : c.events.length = a.capacities.length) (he : e < a.capacities.length) (hl : l < a.powers.length)
    (hp : a.Plays s flags (V + spareChange a e i j l x) (y.spared η e i j l x)) : s.Piece flags V (.evs c) (spareChange a e i j l x) := by
  refine ⟨hm, fun q hq => ?_, ⟨a, _, hmake, hp⟩⟩
  have c1 : a.chargerCol l "electric_charge_mwh" ∈ (Asset.evs c).documentedColumns := by
    simp only [Asset.documentedColumns, List.mem_append, List.mem_flatMap, List.mem_map]
    exact .inl ⟨a.name ++ "-charger-" ++ toString l, .inl ⟨l, List.mem_range.2 (by omega), by rw [hn]⟩, "electric_charge_mwh", by simp, rfl⟩
  have c0 : a.spillCol "electric_charge_mwh" ∈ (Asset.evs c).documentedColumns := by
    simp only [Asset.documentedColumns, List.mem_append, List.mem_flatMap, List.mem_map]
    exact .inl ⟨a.name ++ "-charger-spill-" ++ a.name, .inr (by rw [hn]; simp), "electric_charge_mwh", by simp, rfl⟩
  have c2 : ∀ attr ∈ ["electric_charge_mwh", "electric_discharge_mwh", "electric_loss_mwh", "initial_soc_mwh", "final_soc_mwh"],
      a.eventCol e attr ∈ (Asset.evs c).documentedColumns := fun attr ha => by
    simp only [Asset.documentedColumns, List.mem_append, List.mem_flatMap, List.mem_map]
    exact .inr ⟨a.name ++ "-charge-event-" ++ toString e, ⟨e, List.mem_range.2 (by omega), by rw [hn]⟩, attr, ha, rfl⟩
  show bump _ _ q + (bump _ _ q + (bump _ _ q + (bump _ _ q + bump _ _ q))) = 0
  rw [bump_own (a := .evs c) c1 _ q hq, bump_own (a := .evs c) c0 _ q hq, bump_own (a := .evs c) (c2 "electric_charge_mwh" (by simp)) _ q hq,
    bump_own (a := .evs c) (c2 "initial_soc_mwh" (by simp)) _ q hq, bump_own (a := .evs c) (c2 "final_soc_mwh" (by simp)) _ q hq]
  simp

/-- What the change costs is no less than the penalty it saves. -/
theorem spare_gain {p e' g : Nat → ℚ} (hc : s.ClearNames) (hw : ∀ a ∈ s.assets, a.WellNamed) (ho : s.NoGain flags V p e' g)
    {c : EvsCfg} (hn : c.name = a.name) (hlen : c.chargers.length = a.powers.length) (hl : l < a.powers.length)
    (hi : i < s.data.n) (hp : s.Piece flags V (.evs c) (spareChange a e i j l x)) {da db : Nat → ℚ}
    (hset : ∀ t < s.data.n, s.Settles V t (da t) (db t)) (hnet : ∀ t < s.data.n, da t - db t = spike j x t + spike i (-(a.efficiency * x)) t) :
    spillPenalty * (a.efficiency * x) ≤ s.sumIntervals (fun t => da t * p t - db t * e' t) := by
  have hwc := hw _ hp.mem
  have none : ∀ q ∉ ["electric_charge_mwh", "electric_discharge_mwh"], ∀ t, rowSum (spareChange a e i j l x) ((Asset.evs c).reports q) t = 0 := by
    intro q hq t
    unfold Asset.reports
    rw [if_neg (show q ∉ (Asset.evs c).flows from hq)]
    rfl
  have ch : s.Change flags V _ da db := change_one hc hw hp hset (fun t ht => ?_) (fun t _ => ?_) (fun t _ => ?_)
  · have := ho _ _ _ ch
    have z1 : ∀ t, s.assetSum (spareChange a e i j l x) "gas_consumption_mwh" t = 0 := fun t => by
      rw [piece_sum hc hw hp, none _ (by simp)]
    have z2 : ∀ t, s.spillAt (spareChange a e i j l x) t = spike i (-(a.efficiency * x)) t := fun t => by
      rw [piece_spill hc hw hp, spare_penalised hwc hn]
    have e1 : s.sumIntervals (fun t => da t * p t - db t * e' t +
        s.assetSum (spareChange a e i j l x) "gas_consumption_mwh" t * g t + spillPenalty * s.spillAt (spareChange a e i j l x) t) =
        s.sumIntervals (fun t => da t * p t - db t * e' t) + s.sumIntervals (fun t => spillPenalty * spike i (-(a.efficiency * x)) t) := by
      unfold Site.sumIntervals
      rw [← list_sum_add]
      refine list_sum_congr fun t _ => ?_
      rw [z1, z2]
      ring
    rw [e1, sum_interval hi (g := fun t => spillPenalty * spike i (-(a.efficiency * x)) t) (fun t _ hn => by rw [spike_off _ hn]; ring), spike_at] at this
    linarith
  · rw [none "electric_generation_mwh" (by simp), none "electric_load_mwh" (by simp), spare_charge_sum hwc hn hlen hl, spare_discharge_sum hwc hn hlen,
      hnet t ht]
    ring
  · rw [none _ (by simp), none _ (by simp)]
  · rw [none _ (by simp), none _ (by simp)]

/-- A charger for a vehicle that could charge more. -/
theorem evs_room (hp : a.Plays s flags V y) (he : e < a.capacities.length) (hj : j < s.data.n) (hmore : a.CanCharge s V e j) :
    ∃ l < a.powers.length, 1 ≤ a.present j e ∧ (∀ m < a.powers.length, (y.charge j e m ≠ 0 → m = l) ∧ y.discharge j e m = 0) ∧
      (∀ f < a.capacities.length, (y.charge j f l ≠ 0 → f = e) ∧ y.discharge j f l = 0) ∧
      ∀ power ∈ a.powers[l]?, power * a.turndown * s.freqMins / 60 ≤ y.charge j e l ∧ y.charge j e l < power * s.freqMins / 60 := by
  have E := hp.explains
  have X := hp.valid
  have hpow : ∀ k < a.powers.length, ∃ q, a.powers[k]? = some q ∧ q ∈ a.powers := fun k hk => ⟨_, List.getElem?_eq_getElem hk, List.getElem_mem hk⟩
  have hnn : ∀ t < s.data.n, ∀ f < a.capacities.length, ∀ m < a.powers.length, 0 ≤ y.charge t f m ∧ 0 ≤ y.discharge t f m := fun t ht f hf m hm => by
    obtain ⟨q, hq, -⟩ := hpow m hm
    obtain ⟨-, -, q3, q4, -⟩ := X.limits t ht f hf m hm q hq
    exact ⟨q3, q4⟩
  rcases hmore with ⟨h0, h1⟩ | ⟨h0, h1, hpr, l, pl, hl, hl0, hl1, hl2, hl3⟩
  · have hs := E.event_charge j hj e he
    obtain ⟨l, hl, hne, hv⟩ := sumTo_only (f := fun k => y.charge j e k) (n := a.powers.length) (by rw [← hs]; exact h0.ne')
      (fun m hm m' hm' => (X.oneCharger j hj e he m hm m' hm').1)
    have hlv := hs.trans hv
    refine ⟨l, hl, ?_, fun m hm => ⟨fun hc => (X.oneCharger j hj e he m hm l hl).1 hc hne, ?_⟩, fun f hf => ⟨fun hc =>
      (X.oneEvent j hj l hl f hf e he).1 hc hne, ?_⟩, fun power hpower => ⟨?_, ?_⟩⟩
    · by_contra hc
      exact hne ((X.absent j hj e he (not_le.1 hc)).1 l hl).1
    · by_contra hc
      exact (X.oneCharger j hj e he l hl m hm).2.2 ⟨hne, hc⟩
    · by_contra hc
      exact (X.oneEvent j hj l hl e he f hf).2.2 ⟨hne, hc⟩
    · rcases (X.limits j hj e he l hl power hpower).1 with z | z
      · exact absurd z hne
      · exact z.1
    · rw [← hlv]
      exact h1 power (List.mem_of_getElem? hpower)
  · have hll : l < a.powers.length := (List.getElem?_eq_some_iff.1 hl).1
    have z1 := sumTo_eq_zero ((E.event_charge j hj e he).symm.trans h0) (fun m hm => (hnn j hj e he m hm).1)
    have z2 := sumTo_eq_zero ((E.event_discharge j hj e he).symm.trans h1) (fun m hm => (hnn j hj e he m hm).2)
    have z3 := sumTo_eq_zero ((E.charger_charge j hj l hll).symm.trans hl2) (fun f hf => (hnn j hj f hf l hll).1)
    have z4 := sumTo_eq_zero ((E.charger_discharge j hj l hll).symm.trans hl3) (fun f hf => (hnn j hj f hf l hll).2)
    refine ⟨l, hll, hpr, fun m hm => ⟨fun hc => absurd (z1 m hm) hc, z2 m hm⟩, fun f hf => ⟨fun hc => absurd (z3 f hf) hc, z4 f hf⟩, fun power hpower => ?_⟩
    obtain rfl : pl = power := Option.some.inj (hl.symm.trans hpower)
    rw [z1 l hll]
    exact ⟨hl1, hl0⟩

/-- The vehicles can follow every small change. -/
theorem spare_small (hp : a.Plays s flags V y) (heff : 0 ≤ a.efficiency) (he : e < a.capacities.length) (hi : i < s.data.n) (hj : j < s.data.n)
    (hs : a.CanSpare s V e i j) : a.efficiency ≤ 1 ∧ ∃ l < a.powers.length, ∃ ε > 0, ∀ x, 0 ≤ x → x ≤ ε →
      a.Plays s flags (V + spareChange a e i j l x) (y.spared a.efficiency e i j l x) := by
  have E := hp.explains
  obtain ⟨l, hl, hpres, hfree, hfree', hroom⟩ := evs_room hp he hj hs.more
  have hspill : 0 < y.spill i e := by
    have h1 := hs.spills
    unfold EvArgs.Spills at h1
    have h2 := hp.valid.soc i hi e he
    rw [← E.event_charge i hi e he, ← E.event_discharge i hi e he] at h2
    linarith
  have hη1 : a.efficiency ≤ 1 := by
    have := nonneg_of_mul_nonneg_left (hp.losses i hi e he).1 hspill
    linarith
  have hpl : a.powers[l]? = some a.powers[l] := List.getElem?_eq_getElem hl
  obtain ⟨hr1, hr2⟩ := hroom _ hpl
  obtain ⟨θ, ht0, ht⟩ := exists_small (n := s.data.n) (P := fun t => i ≤ t ∧ t < j)
    (m := fun t => V (a.eventCol e "final_soc_mwh") t) fun t _ hk => hs.notEmpty t hk.1 hk.2
  obtain ⟨κ, hk0', hκ⟩ := exists_small (n := s.data.n) (P := fun t => j ≤ t ∧ t < i)
    (m := fun t => a.capacities.getD e 0 - V (a.eventCol e "final_soc_mwh") t) fun t _ hk => sub_pos.2 (hs.notFull t hk.1 hk.2)
  have hcap : a.capacities[e]? = some (a.capacities.getD e 0) := by
    rw [List.getD_eq_getElem?_getD, List.getElem?_eq_getElem he]
    rfl
  set C := a.powers[l] * s.freqMins / 60 - y.charge j e l with hC
  have hC0 : 0 < C := by rw [hC]; linarith
  refine ⟨hη1, l, hl, min (min θ κ) (min C (y.spill i e)), lt_min (lt_min ht0 hk0') (lt_min hC0 hspill), fun x hx0 hx => ?_⟩
  have hle : a.efficiency * x ≤ x := by
    have := mul_le_mul_of_nonneg_right hη1 hx0
    linarith
  have x1 : x ≤ θ := (hx.trans (min_le_left _ _)).trans (min_le_left _ _)
  have x2 : x ≤ κ := (hx.trans (min_le_left _ _)).trans (min_le_right _ _)
  have x3 : x ≤ C := (hx.trans (min_le_right _ _)).trans (min_le_left _ _)
  have x4 : x ≤ y.spill i e := (hx.trans (min_le_right _ _)).trans (min_le_right _ _)
  refine evs_spare hp he hl hi hj hx0 heff hspill (hle.trans x4) hpres hfree hfree' (fun power hpower => ?_) (fun t htn => ?_)
  · obtain rfl : a.powers[l] = power := Option.some.inj (hpl.symm.trans hpower)
    constructor <;> linarith
  · obtain ⟨-, -, w3, w4⟩ := (hp.stored e _ hcap).2.2.2 t htn
    refine carried_range (mul_nonneg heff hx0) ⟨w3, w4⟩ (fun c1 c2 => ?_) (fun c1 c2 => ?_)
    · have := hκ t htn ⟨c1, c2⟩
      linarith
    · have := ht t htn ⟨c1, c2⟩
      linarith

/-- In the same interval. -/
theorem spare_now {p e' g : Nat → ℚ} (hc : s.ClearNames) (hw : ∀ a ∈ s.assets, a.WellNamed) (h : s.Dispatch flags V) (ho : s.NoGain flags V p e' g)
    {c : EvsCfg} (hm : Asset.evs c ∈ s.assets) (hmake : a.make = .ok c) (hn : c.name = a.name) (hlen : c.chargers.length = a.powers.length)
    (hlen' : c.events.length = a.capacities.length) (hp : a.Plays s flags V y) (heff : 0 ≤ a.efficiency) (he : e < a.capacities.length)
    (hi : i < s.data.n) (hsp : a.Spills V e i) (hmore : a.CanCharge s V e i) (htake : a.efficiency = 1 ∨ s.CanTake V i) :
    spillPenalty * a.efficiency ≤ (1 - a.efficiency) * (if 0 < V "site-export_power_mwh" i then e' i else p i) := by
  obtain ⟨hη1, l, hl, ε, he0, hε⟩ := spare_small hp heff he hi hi ⟨hsp, hmore, fun k h1 h2 => absurd (h1.trans_lt h2) (lt_irrefl _),
    fun k h1 h2 => absurd (h1.trans_lt h2) (lt_irrefl _)⟩
  have grid : ∃ δ > 0, ∀ x, 0 ≤ x → x ≤ δ → ∃ da db, s.Settles V i da db ∧ da - db = (1 - a.efficiency) * x ∧
      da * p i - db * e' i = (1 - a.efficiency) * x * (if 0 < V "site-export_power_mwh" i then e' i else p i) := by
    rcases htake with h1 | h1
    · refine ⟨1, one_pos, fun x _ _ => ⟨0, 0, settles_zero h hi, ?_, ?_⟩⟩ <;> rw [h1] <;> ring
    · obtain ⟨δ, hd0, hδ⟩ := take h hi h1
      refine ⟨δ, hd0, fun x hx hx' => ?_⟩
      have hle : (1 - a.efficiency) * x ≤ x := by
        have := mul_nonneg heff hx
        linarith
      obtain ⟨da, db, k1, k2, k3⟩ := hδ ((1 - a.efficiency) * x) (mul_nonneg (by linarith) hx) (hle.trans hx')
      exact ⟨da, db, k1, k2, k3 _ _⟩
  obtain ⟨δ, hd0, hδ⟩ := grid
  have hx0 : 0 < min ε δ := lt_min he0 hd0
  have hx1 : min ε δ ≤ ε := min_le_left _ _
  have hx2 : min ε δ ≤ δ := min_le_right _ _
  set x := min ε δ
  obtain ⟨da, db, k1, k2, k3⟩ := hδ x hx0.le hx2
  have := spare_gain hc hw ho hn hlen hl hi (spare_piece hm hmake hn hlen hlen' he hl (hε x hx0.le hx1)) (da := spike i da) (db := spike i db)
    (fun t ht => by
      by_cases e1 : t = i
      · subst e1; rw [spike_at, spike_at]; exact k1
      · rw [spike_off _ e1, spike_off _ e1]; exact settles_zero h ht)
    (fun t ht => by
      by_cases e1 : t = i
      · subst e1; rw [spike_at, spike_at, spike_at, spike_at, k2]; ring
      · rw [spike_off _ e1, spike_off _ e1, spike_off _ e1, spike_off _ e1]; ring)
  rw [sum_interval hi (fun t _ hn => by rw [spike_off _ hn, spike_off _ hn]; ring), spike_at, spike_at, k3] at this
  have h5 : 0 ≤ x * ((1 - a.efficiency) * (if 0 < V "site-export_power_mwh" i then e' i else p i) - spillPenalty * a.efficiency) := by
    linarith
  have := nonneg_of_mul_nonneg_right h5 hx0
  linarith

/-- In another interval. -/
theorem spare_later {p e' g : Nat → ℚ} (hc : s.ClearNames) (hw : ∀ a ∈ s.assets, a.WellNamed) (h : s.Dispatch flags V) (ho : s.NoGain flags V p e' g)
    {c : EvsCfg} (hm : Asset.evs c ∈ s.assets) (hmake : a.make = .ok c) (hn : c.name = a.name) (hlen : c.chargers.length = a.powers.length)
    (hlen' : c.events.length = a.capacities.length) (hp : a.Plays s flags V y) (heff : 0 ≤ a.efficiency) (he : e < a.capacities.length)
    (hi : i < s.data.n) (hj : j < s.data.n) (hne : i ≠ j) (hs : a.CanSpare s V e i j) (hgive : s.CanGive V i) (htake : s.CanTake V j) :
    a.efficiency * (spillPenalty + (if 0 < V "site-import_power_mwh" i then p i else e' i)) ≤ (if 0 < V "site-export_power_mwh" j then e' j else p j) := by
  obtain ⟨hη1, l, hl, ε, he0, hε⟩ := spare_small hp heff he hi hj hs
  obtain ⟨δ, hd0, hδ⟩ := give h hi hgive
  obtain ⟨γ, hg0, hγ⟩ := take h hj htake
  have hx0 : 0 < min ε (min δ γ) := lt_min he0 (lt_min hd0 hg0)
  have hx1 : min ε (min δ γ) ≤ ε := min_le_left _ _
  have hx2 : min ε (min δ γ) ≤ δ := (min_le_right _ _).trans (min_le_left _ _)
  have hx3 : min ε (min δ γ) ≤ γ := (min_le_right _ _).trans (min_le_right _ _)
  set x := min ε (min δ γ)
  have hle : a.efficiency * x ≤ x := by
    have := mul_le_mul_of_nonneg_right hη1 hx0.le
    linarith
  obtain ⟨u, v, k1, k2, k3⟩ := hδ (a.efficiency * x) (mul_nonneg heff hx0.le) (hle.trans hx2)
  obtain ⟨u', v', k1', k2', k3'⟩ := hγ x hx0.le hx3
  have := spare_gain hc hw ho hn hlen hl hi (spare_piece hm hmake hn hlen hlen' he hl (hε x hx0.le hx1)) (da := spike i u + spike j u')
    (db := spike i v + spike j v')
    (fun t ht => by
      simp only [Pi.add_apply]
      by_cases e1 : t = i
      · subst e1
        rw [spike_at, spike_at, spike_off _ hne, spike_off _ hne, add_zero, add_zero]
        exact k1
      · rw [spike_off _ e1, spike_off _ e1, zero_add, zero_add]
        by_cases e2 : t = j
        · subst e2
          rw [spike_at, spike_at]
          exact k1'
        · rw [spike_off _ e2, spike_off _ e2]
          exact settles_zero h ht)
    (fun t ht => by
      simp only [Pi.add_apply]
      unfold spike
      split_ifs <;> linarith)
  have e1 : s.sumIntervals (fun t => (spike i u + spike j u') t * p t - (spike i v + spike j v') t * e' t) =
      s.sumIntervals (fun t => spike i u t * p t - spike i v t * e' t) + s.sumIntervals (fun t => spike j u' t * p t - spike j v' t * e' t) := by
    unfold Site.sumIntervals
    rw [← list_sum_add]
    refine list_sum_congr fun t _ => ?_
    simp only [Pi.add_apply]
    ring
  rw [e1, sum_interval hi (fun t _ hn => by rw [spike_off _ hn, spike_off _ hn]; ring),
    sum_interval hj (fun t _ hn => by rw [spike_off _ hn, spike_off _ hn]; ring), spike_at, spike_at, spike_at, spike_at, k3, k3'] at this
  have h5 : 0 ≤ x * ((if 0 < V "site-export_power_mwh" j then e' j else p j) -
      a.efficiency * (spillPenalty + (if 0 < V "site-import_power_mwh" i then p i else e' i))) := by
    linarith
  have := nonneg_of_mul_nonneg_right h5 hx0
  linarith

end

end EPL
