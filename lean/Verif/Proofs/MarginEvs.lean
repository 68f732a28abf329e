/-
Electric vehicles at the margin: moving a little charging from one interval to another.
-/
import Verif.Proofs.MarginBattery
import Verif.Proofs.DispatchSound
import Verif.Spec.MarginEvs

namespace EPL

section
variable {a : EvArgs} {k l e f : Nat} {q q' : String}

theorem charger_eq (hq : NoDash q) (hq' : NoDash q') : a.chargerCol k q = a.chargerCol l q' ↔ k = l ∧ q = q' := by
  refine ⟨fun h => ?_, by rintro ⟨rfl, rfl⟩; rfl⟩
  obtain ⟨h1, h2⟩ := dash_inj hq hq' h
  refine ⟨?_, h2⟩
  rw [str_eq_iff] at h1
  simp only [String.toList_append] at h1
  exact digits_inj (List.append_cancel_left h1)

theorem event_eq (hq : NoDash q) (hq' : NoDash q') : a.eventCol e q = a.eventCol f q' ↔ e = f ∧ q = q' := by
  refine ⟨fun h => ?_, by rintro ⟨rfl, rfl⟩; rfl⟩
  obtain ⟨h1, h2⟩ := dash_inj hq hq' h
  refine ⟨?_, h2⟩
  rw [str_eq_iff] at h1
  simp only [String.toList_append] at h1
  exact digits_inj (List.append_cancel_left h1)

theorem charge_names (name l m : List Char) : name ++ ("-charger-".toList ++ l) ≠ name ++ ("-charge-event-".toList ++ m) := by
  intro h
  have := congrArg (fun l => l[7]?) (List.append_cancel_left h)
  revert this
  simp

theorem charger_event (hq : NoDash q) (hq' : NoDash q') : a.chargerCol k q ≠ a.eventCol e q' := by
  intro h
  obtain ⟨h1, -⟩ := dash_inj hq hq' h
  rw [str_eq_iff] at h1
  simp only [String.toList_append, List.append_assoc] at h1
  exact charge_names _ _ _ h1

theorem spillChars : "-charger-spill-".toList = "-charger-".toList ++ "spill-".toList := by decide

theorem spill_charger (hq : NoDash q) (hq' : NoDash q') : a.spillCol q ≠ a.chargerCol k q' := by
  intro h
  obtain ⟨h1, -⟩ := dash_inj hq hq' h
  rw [str_eq_iff] at h1
  simp only [String.toList_append, List.append_assoc, spillChars] at h1
  have h2 := List.append_cancel_left (List.append_cancel_left h1)
  exact digits_not (c := 's') (by decide) k (by rw [digits, ← h2]; simp)

theorem spill_event (hq : NoDash q) (hq' : NoDash q') : a.spillCol q ≠ a.eventCol e q' := by
  intro h
  obtain ⟨h1, -⟩ := dash_inj hq hq' h
  rw [str_eq_iff] at h1
  simp only [String.toList_append, List.append_assoc, spillChars] at h1
  exact charge_names _ _ _ h1

end

theorem nd_charge : NoDash "electric_charge_mwh" := by decide
theorem nd_discharge : NoDash "electric_discharge_mwh" := by decide
theorem nd_initial : NoDash "initial_soc_mwh" := by decide
theorem nd_final : NoDash "final_soc_mwh" := by decide

/-- The change of the columns when charge event `e` charges `x` less at charger `k` in interval `i` and `x` more at charger `l` in interval `j`. -/
def evChange (a : EvArgs) (e i k j l : Nat) (x : ℚ) : String → Nat → ℚ :=
  bump (a.chargerCol k "electric_charge_mwh") (spike i (-x)) + (bump (a.chargerCol l "electric_charge_mwh") (spike j x) +
    (bump (a.eventCol e "electric_charge_mwh") (spike i (-x) + spike j x) +
      (bump (a.eventCol e "initial_soc_mwh") (carriedIn j i (a.efficiency * x)) +
        bump (a.eventCol e "final_soc_mwh") (carried j i (a.efficiency * x)))))

section
variable {a : EvArgs} {e i k j l : Nat} {x : ℚ}

theorem evChange_charger (m t : Nat) : evChange a e i k j l x (a.chargerCol m "electric_charge_mwh") t =
    (if m = k then spike i (-x) t else 0) + (if m = l then spike j x t else 0) := by
  simp only [evChange, Pi.add_apply, bump, charger_eq nd_charge nd_charge, charger_event nd_charge nd_charge, charger_event nd_charge nd_initial,
    charger_event nd_charge nd_final, and_true, if_false, add_zero]

theorem evChange_chargerOff (m t : Nat) : evChange a e i k j l x (a.chargerCol m "electric_discharge_mwh") t = 0 := by
  simp only [evChange, Pi.add_apply, bump, charger_eq nd_discharge nd_charge, charger_event nd_discharge nd_charge, charger_event nd_discharge nd_initial,
    charger_event nd_discharge nd_final, String.reduceEq, and_false, if_false, add_zero]

theorem evChange_event (f t : Nat) : evChange a e i k j l x (a.eventCol f "electric_charge_mwh") t = if f = e then spike i (-x) t + spike j x t else 0 := by
  simp only [evChange, Pi.add_apply, bump, (charger_event nd_charge nd_charge).symm, event_eq nd_charge nd_charge, event_eq nd_charge nd_initial,
    event_eq nd_charge nd_final, String.reduceEq, and_false, and_true, if_false, add_zero, zero_add]

theorem evChange_eventOff (f t : Nat) : evChange a e i k j l x (a.eventCol f "electric_discharge_mwh") t = 0 := by
  simp only [evChange, Pi.add_apply, bump, (charger_event nd_charge nd_discharge).symm, event_eq nd_discharge nd_charge, event_eq nd_discharge nd_initial,
    event_eq nd_discharge nd_final, String.reduceEq, and_false, if_false, add_zero]

theorem evChange_initial (f t : Nat) :
    evChange a e i k j l x (a.eventCol f "initial_soc_mwh") t = if f = e then carriedIn j i (a.efficiency * x) t else 0 := by
  simp only [evChange, Pi.add_apply, bump, (charger_event nd_charge nd_initial).symm, event_eq nd_initial nd_charge, event_eq nd_initial nd_initial,
    event_eq nd_initial nd_final, String.reduceEq, and_false, and_true, if_false, add_zero, zero_add]

theorem evChange_final (f t : Nat) :
    evChange a e i k j l x (a.eventCol f "final_soc_mwh") t = if f = e then carried j i (a.efficiency * x) t else 0 := by
  simp only [evChange, Pi.add_apply, bump, (charger_event nd_charge nd_final).symm, event_eq nd_final nd_charge, event_eq nd_final nd_initial,
    event_eq nd_final nd_final, String.reduceEq, and_false, and_true, if_false, zero_add]

theorem evChange_spill (t : Nat) : evChange a e i k j l x (a.spillCol "electric_charge_mwh") t = 0 := by
  simp only [evChange, Pi.add_apply, bump, spill_charger nd_charge nd_charge, spill_event nd_charge nd_charge, spill_event nd_charge nd_initial,
    spill_event nd_charge nd_final, if_false, add_zero]

theorem evChange_spillOff (t : Nat) : evChange a e i k j l x (a.spillCol "electric_discharge_mwh") t = 0 := by
  simp only [evChange, Pi.add_apply, bump, spill_charger nd_discharge nd_charge, spill_event nd_discharge nd_charge, spill_event nd_discharge nd_initial,
    spill_event nd_discharge nd_final, if_false, add_zero]

end

theorem sumTo_add (n : Nat) (f g : Nat → ℚ) : sumTo n (fun i => f i + g i) = sumTo n f + sumTo n g := list_sum_add _ _ _

theorem sumTo_one {n m : Nat} (hm : m < n) {f : Nat → ℚ} (h : ∀ i < n, i ≠ m → f i = 0) : sumTo n f = f m :=
  sum_owner List.nodup_range (List.mem_range.2 hm) fun i hi hne => h i (List.mem_range.1 hi) hne

theorem sumTo_none {n : Nat} {f : Nat → ℚ} (h : ∀ i < n, f i = 0) : sumTo n f = 0 := list_sum_zero fun i hi => h i (List.mem_range.1 hi)

/-- A sum of at most one value that is not zero. -/
theorem sumTo_only {n : Nat} {f : Nat → ℚ} (h : sumTo n f ≠ 0) (hu : ∀ i < n, ∀ j < n, f i ≠ 0 → f j ≠ 0 → i = j) : ∃ m < n, f m ≠ 0 ∧ sumTo n f = f m := by
  by_cases hz : ∀ i < n, f i = 0
  · exact absurd (sumTo_none hz) h
  · push Not at hz
    obtain ⟨m, hm, hne⟩ := hz
    exact ⟨m, hm, hne, sumTo_one hm fun i hi hi' => by_contra fun hc => hi' (hu i hi m hm hc hne)⟩

/-- Nothing negative adds up to nothing. -/
theorem sumTo_eq_zero {n : Nat} {f : Nat → ℚ} (h : sumTo n f = 0) (h0 : ∀ i < n, 0 ≤ f i) : ∀ i < n, f i = 0 := by
  intro i hi
  unfold sumTo at h
  have h1 : ∀ x ∈ (List.range n).map f, 0 ≤ x := by
    intro x hx
    obtain ⟨j, hj, rfl⟩ := List.mem_map.1 hx
    exact h0 j (List.mem_range.1 hj)
  have h2 := List.single_le_sum h1 (f i) (List.mem_map.2 ⟨i, List.mem_range.2 hi, rfl⟩)
  exact le_antisymm (h ▸ h2) (h0 i hi)

/-- The schedule after the change. -/
def EvSchedule.shifted (y : EvSchedule) (e i k j l : Nat) (x : ℚ) : EvSchedule where
  charge t f m := y.charge t f m + ((if f = e ∧ m = k then spike i (-x) t else 0) + (if f = e ∧ m = l then spike j x t else 0))
  discharge := y.discharge
  spill := y.spill

section
variable {s : Site} {flags : Flags} {V : String → Nat → ℚ} {a : EvArgs} {y : EvSchedule} {e i k j l : Nat} {x : ℚ}

theorem shifted_charge (hne : i ≠ j) (t f m : Nat) : (y.shifted e i k j l x).charge t f m =
    if t = i ∧ f = e ∧ m = k then y.charge i e k - x else if t = j ∧ f = e ∧ m = l then y.charge j e l + x else y.charge t f m := by
  simp only [EvSchedule.shifted, spike]
  by_cases h1 : t = i
  · subst h1
    by_cases h2 : f = e
    · subst h2
      by_cases h3 : m = k
      · subst h3; simp [hne, sub_eq_add_neg]
      · simp [h3, hne]
    · simp [h2]
  · by_cases h1' : t = j
    · subst h1'
      by_cases h2 : f = e
      · subst h2
        by_cases h3 : m = l
        · subst h3; simp [h1]
        · simp [h3, h1]
      · simp [h2]
    · simp [h1, h1']

/-- The vehicles can follow the change. -/
theorem evs_shift (hp : a.Plays s flags V y) (he : e < a.capacities.length) (hk : k < a.powers.length) (hl : l < a.powers.length) (hi : i < s.data.n)
    (hj : j < s.data.n) (hne : i ≠ j) (hx : 0 ≤ x) (h0 : 0 < y.charge i e k) (hx0 : x ≤ y.charge i e k)
    (hlow : ∀ power ∈ a.powers[k]?, power * a.turndown * s.freqMins / 60 ≤ y.charge i e k - x) (hpres : 1 ≤ a.present j e)
    (hfree : ∀ m < a.powers.length, (y.charge j e m ≠ 0 → m = l) ∧ y.discharge j e m = 0)
    (hfree' : ∀ f < a.capacities.length, (y.charge j f l ≠ 0 → f = e) ∧ y.discharge j f l = 0)
    (hhigh : ∀ power ∈ a.powers[l]?, power * a.turndown * s.freqMins / 60 ≤ y.charge j e l + x ∧ y.charge j e l + x ≤ power * s.freqMins / 60)
    (hst : ∀ t < s.data.n, 0 ≤ V (a.eventCol e "final_soc_mwh") t + carried j i (a.efficiency * x) t ∧
      V (a.eventCol e "final_soc_mwh") t + carried j i (a.efficiency * x) t ≤ a.capacities.getD e 0) :
    a.Plays s flags (V + evChange a e i k j l x) (y.shifted e i k j l x) := by
  have E := hp.explains
  have X := hp.valid
  have hon : ∀ t f m, (y.shifted e i k j l x).charge t f m ≠ 0 → y.charge t f m ≠ 0 ∨ (t = j ∧ f = e ∧ m = l) := by
    intro t f m hc
    rw [shifted_charge hne] at hc
    split_ifs at hc with c1 c2
    · obtain ⟨rfl, rfl, rfl⟩ := c1; exact .inl h0.ne'
    · exact .inr c2
    · exact .inl hc
  have hcap : ∀ k < a.powers.length, ∃ q, a.powers[k]? = some q := fun k hk => ⟨_, List.getElem?_eq_getElem hk⟩
  have hnn : ∀ t < s.data.n, ∀ f < a.capacities.length, ∀ m < a.powers.length, 0 ≤ (y.shifted e i k j l x).charge t f m := by
    intro t ht f hf m hm
    obtain ⟨q, hq⟩ := hcap m hm
    have := (X.limits t ht f hf m hm q hq).2.2.1
    rw [shifted_charge hne]
    split_ifs with c1 c2
    · linarith
    · obtain ⟨rfl, rfl, rfl⟩ := c2; linarith
    · exact this
  have hloss : 0 ≤ 1 - a.efficiency := by
    have := (hp.losses i hi e he).2 k hk
    exact nonneg_of_mul_nonneg_left this h0
  refine ⟨⟨fun t ht m hm => ?_, fun t ht m hm => ?_, fun t ht f hf => ?_, fun t ht f hf => ?_, fun t ht => ?_, fun t ht => ?_⟩,
    ⟨fun t ht f hf hpr => ?_, fun t ht f hf m hm m' hm' => ?_, fun t ht m hm f hf f' hf' => ?_, fun t ht f hf m hm power hpow => ?_,
      X.noDischarge, fun t ht f hf => ?_⟩,
    hp.spill, fun t ht f hf => ?_, fun f capacity hc => ?_⟩
  · rw [Pi.add_apply, Pi.add_apply, E.charger_charge t ht m hm, evChange_charger]
    simp only [EvSchedule.shifted]
    rw [sumTo_add, sumTo_add, sumTo_one he (f := fun f => if f = e ∧ m = k then _ else _) (fun f _ hf => by simp [hf]),
      sumTo_one he (f := fun f => if f = e ∧ m = l then _ else _) (fun f _ hf => by simp [hf])]
    simp
  · rw [Pi.add_apply, Pi.add_apply, evChange_chargerOff, add_zero]
    exact E.charger_discharge t ht m hm
  · rw [Pi.add_apply, Pi.add_apply, E.event_charge t ht f hf, evChange_event]
    simp only [EvSchedule.shifted]
    rw [sumTo_add, sumTo_add, sumTo_one hk (f := fun m => if f = e ∧ m = k then _ else _) (fun m _ hm => by simp [hm]),
      sumTo_one hl (f := fun m => if f = e ∧ m = l then _ else _) (fun m _ hm => by simp [hm])]
    by_cases hfe : f = e <;> simp [hfe]
  · rw [Pi.add_apply, Pi.add_apply, evChange_eventOff, add_zero]
    exact E.event_discharge t ht f hf
  · rw [Pi.add_apply, Pi.add_apply, evChange_spill, add_zero]
    exact E.spill_charge t ht
  · rw [Pi.add_apply, Pi.add_apply, evChange_spillOff, add_zero]
    exact E.spill_discharge t ht
  · obtain ⟨q1, q2⟩ := X.absent t ht f hf hpr
    refine ⟨fun m hm => ⟨?_, (q1 m hm).2⟩, q2⟩
    by_contra hc
    rcases hon t f m hc with h | ⟨rfl, rfl, rfl⟩
    · exact h (q1 m hm).1
    · linarith
  · obtain ⟨q1, q2, q3⟩ := X.oneCharger t ht f hf m hm m' hm'
    refine ⟨fun c1 c2 => ?_, q2, fun ⟨c1, c2⟩ => ?_⟩
    · rcases hon _ _ _ c1 with d1 | ⟨rfl, rfl, rfl⟩
      · rcases hon _ _ _ c2 with d2 | ⟨rfl, rfl, rfl⟩
        · exact q1 d1 d2
        · exact (hfree m hm).1 d1
      · rcases hon _ _ _ c2 with d2 | ⟨-, -, rfl⟩
        · exact ((hfree m' hm').1 d2).symm
        · rfl
    · rcases hon _ _ _ c1 with d1 | ⟨rfl, rfl, rfl⟩
      · exact q3 ⟨d1, c2⟩
      · exact c2 (hfree m' hm').2
  · obtain ⟨q1, q2, q3⟩ := X.oneEvent t ht m hm f hf f' hf'
    refine ⟨fun c1 c2 => ?_, q2, fun ⟨c1, c2⟩ => ?_⟩
    · rcases hon _ _ _ c1 with d1 | ⟨rfl, rfl, rfl⟩
      · rcases hon _ _ _ c2 with d2 | ⟨rfl, rfl, rfl⟩
        · exact q1 d1 d2
        · exact (hfree' f hf).1 d1
      · rcases hon _ _ _ c2 with d2 | ⟨-, rfl, -⟩
        · exact ((hfree' f' hf').1 d2).symm
        · rfl
    · rcases hon _ _ _ c1 with d1 | ⟨rfl, rfl, rfl⟩
      · exact q3 ⟨d1, c2⟩
      · exact c2 (hfree' f' hf').2
  · obtain ⟨q1, q2, q3, q4, q5⟩ := X.limits t ht f hf m hm power hpow
    refine ⟨?_, q2, hnn t ht f hf m hm, q4, q5⟩
    rw [shifted_charge hne]
    split_ifs with c1 c2
    · obtain ⟨rfl, rfl, rfl⟩ := c1
      right
      refine ⟨hlow power hpow, ?_⟩
      rcases q1 with z | z
      · exact absurd z h0.ne'
      · linarith [z.2]
    · obtain ⟨rfl, rfl, rfl⟩ := c2
      exact .inr (hhigh power hpow)
    · exact q1
  · have := X.soc t ht f hf
    simp only [Pi.add_apply, evChange_initial, evChange_final]
    simp only [EvSchedule.shifted]
    rw [sumTo_add, sumTo_add, sumTo_one hk (f := fun m => if f = e ∧ m = k then _ else _) (fun m _ hm => by simp [hm]),
      sumTo_one hl (f := fun m => if f = e ∧ m = l then _ else _) (fun m _ hm => by simp [hm]), this]
    by_cases hfe : f = e
    · subst hfe
      simp only [if_true, and_self]
      rw [carried_step]
      unfold spike
      split_ifs <;> ring
    · simp [hfe]
  · refine ⟨(hp.losses t ht f hf).1, fun m hm => mul_nonneg hloss (hnn t ht f hf m hm)⟩
  · obtain ⟨q1, q2, q3, q4⟩ := hp.stored f capacity hc
    simp only [Pi.add_apply, evChange_initial, evChange_final]
    by_cases hfe : f = e
    · subst hfe
      have hcapd : a.capacities.getD f 0 = capacity := by rw [List.getD_eq_getElem?_getD, hc]; rfl
      rw [hcapd] at hst
      simp only [if_true]
      refine ⟨by rw [carriedIn_zero, add_zero]; exact q1, by rw [carried_last hj hi, add_zero]; exact q2, fun t ht => by rw [carriedIn_succ, q3 t ht],
        fun t ht => ?_⟩
      obtain ⟨w1, w2, w3, w4⟩ := q4 t ht
      refine ⟨?_, ?_, hst t ht⟩
      · rcases t with _ | t
        · rw [carriedIn_zero, add_zero]; exact w1
        · rw [carriedIn_succ, q3 t ht]; exact (hst t (by omega)).1
      · rcases t with _ | t
        · rw [carriedIn_zero, add_zero]; exact w2
        · rw [carriedIn_succ, q3 t ht]; exact (hst t (by omega)).2
    · simp only [hfe, if_false, add_zero]
      exact ⟨q1, q2, q3, q4⟩

/-- The columns of the chargers. -/
theorem evs_reports {c : EvsCfg} (hw : (Asset.evs c).WellNamed) (hn : c.name = a.name) (hlen : c.chargers.length = a.powers.length) {q : String}
    (hq : q ∈ ["electric_charge_mwh", "electric_discharge_mwh"]) :
    (Asset.evs c).reports q = (List.range a.powers.length).map (fun m => a.chargerCol m q) ++ [a.spillCol q] := by
  unfold Asset.reports
  rw [if_pos (show q ∈ (Asset.evs c).flows from hq)]
  have e : (Asset.evs c).units.map (fun u => u ++ "-" ++ q) =
      ((c.chargers.map ChargerCfg.name) ++ (c.spillChargers.map ChargerCfg.name)).map (fun n => c.name ++ "-" ++ n ++ "-" ++ q) := by
    simp only [Asset.units, List.map_map, List.map_append]
    rfl
  rw [e, hw.2.1, hw.2.2.1, hn, hlen, List.map_append, List.map_map]
  congr 1
  · refine List.map_congr_left fun m _ => ?_
    rw [str_eq_iff]
    simp [EvArgs.chargerCol, String.toList_append]
  · rw [List.map_singleton]
    congr 1
    rw [str_eq_iff]
    simp [EvArgs.spillCol, String.toList_append]

theorem evs_charge_sum {c : EvsCfg} (hw : (Asset.evs c).WellNamed) (hn : c.name = a.name) (hlen : c.chargers.length = a.powers.length)
    (hk : k < a.powers.length) (hl : l < a.powers.length) (t : Nat) :
    rowSum (evChange a e i k j l x) ((Asset.evs c).reports "electric_charge_mwh") t = spike i (-x) t + spike j x t := by
  rw [evs_reports hw hn hlen (by simp)]
  unfold rowSum
  rw [List.map_append, List.sum_append, List.map_map, List.map_singleton, List.sum_singleton, evChange_spill, add_zero]
  have : (fun m => evChange a e i k j l x m t) ∘ (fun m => a.chargerCol m "electric_charge_mwh") =
      fun m => (if m = k then spike i (-x) t else 0) + (if m = l then spike j x t else 0) := by
    funext m
    exact evChange_charger m t
  rw [this]
  have h1 := sumTo_add a.powers.length (fun m => if m = k then spike i (-x) t else 0) (fun m => if m = l then spike j x t else 0)
  unfold sumTo at h1
  rw [h1]
  have h2 := sumTo_one hk (f := fun m => if m = k then spike i (-x) t else 0) (fun m _ hm => by simp [hm])
  have h3 := sumTo_one hl (f := fun m => if m = l then spike j x t else 0) (fun m _ hm => by simp [hm])
  unfold sumTo at h2 h3
  rw [h2, h3]
  simp

theorem evs_discharge_sum {c : EvsCfg} (hw : (Asset.evs c).WellNamed) (hn : c.name = a.name) (hlen : c.chargers.length = a.powers.length) (t : Nat) :
    rowSum (evChange a e i k j l x) ((Asset.evs c).reports "electric_discharge_mwh") t = 0 := by
  rw [evs_reports hw hn hlen (by simp)]
  refine list_sum_zero fun m hm => ?_
  rcases List.mem_append.1 hm with hm | hm
  · obtain ⟨m, -, rfl⟩ := List.mem_map.1 hm
    exact evChange_chargerOff m t
  · rw [List.mem_singleton] at hm
    subst hm
    exact evChange_spillOff t

theorem evs_penalised {c : EvsCfg} (hw : (Asset.evs c).WellNamed) (hn : c.name = a.name) (t : Nat) :
    rowSum (evChange a e i k j l x) (Asset.evs c).penalised t = 0 := by
  have : (Asset.evs c).penalised = [a.spillCol "electric_charge_mwh"] := by
    have e : (Asset.evs c).penalised = (c.spillChargers.map ChargerCfg.name).map (fun n => c.name ++ "-" ++ n ++ "-electric_charge_mwh") := by
      simp only [Asset.penalised, List.map_map]
      rfl
    rw [e, hw.2.2.1, hn, List.map_singleton]
    congr 1
    rw [str_eq_iff]
    simp [EvArgs.spillCol, String.toList_append]
  rw [this]
  show evChange a e i k j l x (a.spillCol "electric_charge_mwh") t + 0 = 0
  rw [evChange_spill, add_zero]

theorem evs_piece {c : EvsCfg} (hm : Asset.evs c ∈ s.assets) (hmake : a.make = .ok c) (hn : c.name = a.name) (hlen : c.chargers.length = a.powers.length)
    (hlen' : c.events.length = a.capacities.length) (he : e < a.capacities.length) (hk : k < a.powers.length) (hl : l < a.powers.length)
    (hp : a.Plays s flags (V + evChange a e i k j l x) (y.shifted e i k j l x)) : s.Piece flags V (.evs c) (evChange a e i k j l x) := by
  refine ⟨hm, fun q hq => ?_, ⟨a, _, hmake, hp⟩⟩
  have c1 : ∀ m < a.powers.length, a.chargerCol m "electric_charge_mwh" ∈ (Asset.evs c).documentedColumns := fun m hmm => by
    simp only [Asset.documentedColumns, List.mem_append, List.mem_flatMap, List.mem_map]
    exact .inl ⟨a.name ++ "-charger-" ++ toString m, .inl ⟨m, List.mem_range.2 (by omega), by rw [hn]⟩, "electric_charge_mwh", by simp, rfl⟩
  have c2 : ∀ attr ∈ ["electric_charge_mwh", "electric_discharge_mwh", "electric_loss_mwh", "initial_soc_mwh", "final_soc_mwh"],
      a.eventCol e attr ∈ (Asset.evs c).documentedColumns := fun attr ha => by
    simp only [Asset.documentedColumns, List.mem_append, List.mem_flatMap, List.mem_map]
    exact .inr ⟨a.name ++ "-charge-event-" ++ toString e, ⟨e, List.mem_range.2 (by omega), by rw [hn]⟩, attr, ha, rfl⟩
  show bump _ _ q + (bump _ _ q + (bump _ _ q + (bump _ _ q + bump _ _ q))) = 0
  rw [bump_own (a := .evs c) (c1 k hk) _ q hq, bump_own (a := .evs c) (c1 l hl) _ q hq, bump_own (a := .evs c) (c2 "electric_charge_mwh" (by simp)) _ q hq,
    bump_own (a := .evs c) (c2 "initial_soc_mwh" (by simp)) _ q hq, bump_own (a := .evs c) (c2 "final_soc_mwh" (by simp)) _ q hq]
  simp

/-- What moving the charging costs. -/
theorem evs_gain {p e' g : Nat → ℚ} (hc : s.ClearNames) (hw : ∀ a ∈ s.assets, a.WellNamed) (h : s.Dispatch flags V) (ho : s.NoGain flags V p e' g)
    {c : EvsCfg} (hn : c.name = a.name) (hlen : c.chargers.length = a.powers.length) (hk : k < a.powers.length) (hl : l < a.powers.length)
    (hi : i < s.data.n) (hj : j < s.data.n) (hne : i ≠ j) (hp : s.Piece flags V (.evs c) (evChange a e i k j l x)) {y z u v : ℚ}
    (hset : s.Settles V i y z) (hyz : y - z = -x) (hset' : s.Settles V j u v) (huv : u - v = x) :
    0 ≤ (y * p i - z * e' i) + (u * p j - v * e' j) := by
  have hwc := hw _ hp.mem
  have none : ∀ q ∉ ["electric_charge_mwh", "electric_discharge_mwh"], ∀ t, rowSum (evChange a e i k j l x) ((Asset.evs c).reports q) t = 0 := by
    intro q hq t
    unfold Asset.reports
    rw [if_neg (show q ∉ (Asset.evs c).flows from hq)]
    rfl
  have ch : s.Change flags V _ (spike i y + spike j u) (spike i z + spike j v) := change_one hc hw hp (fun t ht => ?_) (fun t _ => ?_) (fun t _ => ?_)
    (fun t _ => ?_)
  · have := ho _ _ _ ch
    have z1 : ∀ t, s.assetSum (evChange a e i k j l x) "gas_consumption_mwh" t = 0 := fun t => by
      rw [piece_sum hc hw hp, none _ (by simp)]
    have z2 : ∀ t, s.spillAt (evChange a e i k j l x) t = 0 := fun t => by
      rw [piece_spill hc hw hp, evs_penalised hwc hn]
    have e1 : s.sumIntervals (fun t => (spike i y + spike j u) t * p t - (spike i z + spike j v) t * e' t +
        s.assetSum (evChange a e i k j l x) "gas_consumption_mwh" t * g t + spillPenalty * s.spillAt (evChange a e i k j l x) t) =
        s.sumIntervals (fun t => spike i y t * p t - spike i z t * e' t) + s.sumIntervals (fun t => spike j u t * p t - spike j v t * e' t) := by
      unfold Site.sumIntervals
      rw [← list_sum_add]
      refine list_sum_congr fun t _ => ?_
      rw [z1, z2]
      simp only [Pi.add_apply]
      ring
    rw [e1, sum_interval hi (fun t _ hn => by rw [spike_off _ hn, spike_off _ hn]; ring),
      sum_interval hj (fun t _ hn => by rw [spike_off _ hn, spike_off _ hn]; ring), spike_at, spike_at, spike_at, spike_at] at this
    exact this
  · simp only [Pi.add_apply]
    by_cases e1 : t = i
    · subst e1
      rw [spike_at, spike_at, spike_off _ hne, spike_off _ hne, add_zero, add_zero]
      exact hset
    · rw [spike_off _ e1, spike_off _ e1, zero_add, zero_add]
      by_cases e2 : t = j
      · subst e2
        rw [spike_at, spike_at]
        exact hset'
      · rw [spike_off _ e2, spike_off _ e2]
        exact settles_zero h ht
  · rw [none "electric_generation_mwh" (by simp), none "electric_load_mwh" (by simp), evs_charge_sum hwc hn hlen hk hl, evs_discharge_sum hwc hn hlen]
    simp only [Pi.add_apply]
    unfold spike
    split_ifs <;> linarith
  · rw [none _ (by simp), none _ (by simp)]
  · rw [none _ (by simp), none _ (by simp)]

/-- An optimal charging schedule leaves no cheaper interval. -/
theorem evs_cheapest {p e' g : Nat → ℚ} (hc : s.ClearNames) (hw : ∀ a ∈ s.assets, a.WellNamed) (h : s.Dispatch flags V) (ho : s.NoGain flags V p e' g)
    {c : EvsCfg} (hm : Asset.evs c ∈ s.assets) (hmake : a.make = .ok c) (hn : c.name = a.name) (hlen : c.chargers.length = a.powers.length)
    (hlen' : c.events.length = a.capacities.length) (hp : a.Plays s flags V y) (heff : 0 ≤ a.efficiency) (he : e < a.capacities.length)
    (hi : i < s.data.n) (hj : j < s.data.n) (hne : i ≠ j) (hshift : a.CanShift s V e i j) (hgive : s.CanGive V i) (htake : s.CanTake V j) :
    (if 0 < V "site-import_power_mwh" i then p i else e' i) ≤ (if 0 < V "site-export_power_mwh" j then e' j else p j) := by
  have E := hp.explains
  have X := hp.valid
  have hpow : ∀ k < a.powers.length, ∃ q, a.powers[k]? = some q ∧ q ∈ a.powers := fun k hk => ⟨_, List.getElem?_eq_getElem hk, List.getElem_mem hk⟩
  have hnn : ∀ t < s.data.n, ∀ f < a.capacities.length, ∀ m < a.powers.length, 0 ≤ y.charge t f m ∧ 0 ≤ y.discharge t f m := fun t ht f hf m hm => by
    obtain ⟨q, hq, -⟩ := hpow m hm
    obtain ⟨-, -, q3, q4, -⟩ := X.limits t ht f hf m hm q hq
    exact ⟨q3, q4⟩
  have active : ∀ t < s.data.n, 0 < V (a.eventCol e "electric_charge_mwh") t → ∃ m < a.powers.length, 0 < y.charge t e m ∧
      V (a.eventCol e "electric_charge_mwh") t = y.charge t e m := by
    intro t ht h0
    have hs := E.event_charge t ht e he
    obtain ⟨m, hm, hne, hv⟩ := sumTo_only (f := fun k => y.charge t e k) (n := a.powers.length) (by rw [← hs]; exact h0.ne')
      (fun m hm m' hm' => (X.oneCharger t ht e he m hm m' hm').1)
    exact ⟨m, hm, lt_of_le_of_ne (hnn t ht e he m hm).1 (Ne.symm hne), hs.trans hv⟩
  have here : ∀ t < s.data.n, ∀ m < a.powers.length, y.charge t e m ≠ 0 → 1 ≤ a.present t e := by
    intro t ht m hm h0
    by_contra hc
    exact h0 ((X.absent t ht e he (not_le.1 hc)).1 m hm).1
  obtain ⟨k, hk, hk0, hkv⟩ := active i hi hshift.charges
  obtain ⟨pk, hpk, hpk'⟩ := hpow k hk
  have hless := hshift.less pk hpk'
  rw [hkv] at hless
  obtain ⟨l, hl, hpres, hfree, hfree', hroom⟩ : ∃ l < a.powers.length, 1 ≤ a.present j e ∧
      (∀ m < a.powers.length, (y.charge j e m ≠ 0 → m = l) ∧ y.discharge j e m = 0) ∧
      (∀ f < a.capacities.length, (y.charge j f l ≠ 0 → f = e) ∧ y.discharge j f l = 0) ∧
      ∀ power ∈ a.powers[l]?, power * a.turndown * s.freqMins / 60 ≤ y.charge j e l ∧ y.charge j e l < power * s.freqMins / 60 := by
    rcases hshift.more with ⟨h0, h1⟩ | ⟨h0, h1, hpr, l, pl, hl, hl0, hl1, hl2, hl3⟩
    · obtain ⟨l, hl, hl0, hlv⟩ := active j hj h0
      refine ⟨l, hl, here j hj l hl hl0.ne', fun m hm => ⟨fun hc => (X.oneCharger j hj e he m hm l hl).1 hc hl0.ne', ?_⟩, fun f hf => ⟨fun hc =>
        (X.oneEvent j hj l hl f hf e he).1 hc hl0.ne', ?_⟩, fun power hpower => ⟨?_, ?_⟩⟩
      · by_contra hc
        exact (X.oneCharger j hj e he l hl m hm).2.2 ⟨hl0.ne', hc⟩
      · by_contra hc
        exact (X.oneEvent j hj l hl e he f hf).2.2 ⟨hl0.ne', hc⟩
      · rcases (X.limits j hj e he l hl power hpower).1 with z | z
        · exact absurd z hl0.ne'
        · exact z.1
      · rw [← hlv]
        exact h1 power (List.mem_of_getElem? hpower)
    · have hll : l < a.powers.length := (List.getElem?_eq_some_iff.1 hl).1
      have z1 := sumTo_eq_zero ((E.event_charge j hj e he).symm.trans h0) (fun m hm => (hnn j hj e he m hm).1)
      have z2 := sumTo_eq_zero ((E.event_discharge j hj e he).symm.trans h1) (fun m hm => (hnn j hj e he m hm).2)
      have z3 := sumTo_eq_zero ((E.charger_charge j hj l hll).symm.trans hl2) (fun f hf => (hnn j hj f hf l hll).1)
      have z4 := sumTo_eq_zero ((E.charger_discharge j hj l hll).symm.trans hl3) (fun f hf => (hnn j hj f hf l hll).2)
      refine ⟨l, hll, hpr, fun m hm => ⟨fun hc => absurd (z1 m hm) hc, z2 m hm⟩, fun f hf => ⟨fun hc => absurd (z3 f hf) hc, z4 f hf⟩, fun power hpower => ?_⟩
      obtain rfl : pl = power := Option.some.inj (hl.symm.trans hpower)
      rw [z1 l hll]
      exact ⟨hl1, hl0⟩
  obtain ⟨pl, hpl, -⟩ := hpow l hl
  obtain ⟨hr1, hr2⟩ := hroom pl hpl
  obtain ⟨ε, he0, hε⟩ := give h hi hgive
  obtain ⟨δ, hd0, hδ⟩ := take h hj htake
  obtain ⟨θ, ht0, ht⟩ := exists_small (n := s.data.n) (P := fun t => i ≤ t ∧ t < j)
    (m := fun t => V (a.eventCol e "final_soc_mwh") t) fun t _ hk => hshift.notEmpty t hk.1 hk.2
  obtain ⟨κ, hk0', hκ⟩ := exists_small (n := s.data.n) (P := fun t => j ≤ t ∧ t < i)
    (m := fun t => a.capacities.getD e 0 - V (a.eventCol e "final_soc_mwh") t) fun t _ hk => sub_pos.2 (hshift.notFull t hk.1 hk.2)
  have hη1 : a.efficiency ≤ 1 := by
    have := (hp.losses i hi e he).2 k hk
    have := nonneg_of_mul_nonneg_left this hk0
    linarith
  obtain ⟨x, hx0, q1, q2, q3, q4, q5, q6, q7⟩ : ∃ x : ℚ, 0 < x ∧ x ≤ ε ∧ x ≤ δ ∧ a.efficiency * x ≤ θ ∧ a.efficiency * x ≤ κ ∧ x ≤ y.charge i e k ∧
      x ≤ y.charge i e k - pk * a.turndown * s.freqMins / 60 ∧ x ≤ pl * s.freqMins / 60 - y.charge j e l := by
    set B := y.charge i e k - pk * a.turndown * s.freqMins / 60 with hB
    set C := pl * s.freqMins / 60 - y.charge j e l with hC
    have hB0 : 0 < B := by rw [hB]; linarith
    have hC0 : 0 < C := by rw [hC]; linarith
    set x := min (min (min ε δ) (min θ κ)) (min (y.charge i e k) (min B C)) with hx
    have hx0 : 0 < x := lt_min (lt_min (lt_min he0 hd0) (lt_min ht0 hk0')) (lt_min hk0 (lt_min hB0 hC0))
    have hle : a.efficiency * x ≤ x := by
      have := mul_le_mul_of_nonneg_right hη1 hx0.le
      linarith
    have hA : x ≤ min (min ε δ) (min θ κ) := min_le_left _ _
    have hA' : x ≤ min (y.charge i e k) (min B C) := min_le_right _ _
    exact ⟨x, hx0, (hA.trans (min_le_left _ _)).trans (min_le_left _ _), (hA.trans (min_le_left _ _)).trans (min_le_right _ _),
      hle.trans ((hA.trans (min_le_right _ _)).trans (min_le_left _ _)), hle.trans ((hA.trans (min_le_right _ _)).trans (min_le_right _ _)),
      hA'.trans (min_le_left _ _), (hA'.trans (min_le_right _ _)).trans (min_le_left _ _), (hA'.trans (min_le_right _ _)).trans (min_le_right _ _)⟩
  obtain ⟨u, v, k1, k2, k3⟩ := hε x hx0.le q1
  obtain ⟨u', v', k1', k2', k3'⟩ := hδ x hx0.le q2
  have hcap : a.capacities[e]? = some (a.capacities.getD e 0) := by
    rw [List.getD_eq_getElem?_getD, List.getElem?_eq_getElem he]
    rfl
  have hmove := evs_shift hp he hk hl hi hj hne hx0.le hk0 q5 (fun power hpower => by
      obtain rfl : pk = power := Option.some.inj (hpk.symm.trans hpower)
      linarith) hpres hfree hfree' (fun power hpower => by
      obtain rfl : pl = power := Option.some.inj (hpl.symm.trans hpower)
      constructor <;> linarith) (fun t htn => by
      obtain ⟨-, -, w3, w4⟩ := (hp.stored e _ hcap).2.2.2 t htn
      refine carried_range (mul_nonneg heff hx0.le) ⟨w3, w4⟩ (fun c1 c2 => ?_) (fun c1 c2 => ?_)
      · have := hκ t htn ⟨c1, c2⟩
        linarith
      · have := ht t htn ⟨c1, c2⟩
        linarith)
  have := evs_gain hc hw h ho hn hlen hk hl hi hj hne (evs_piece hm hmake hn hlen hlen' he hk hl hmove) k1 k2 k1' k2'
  rw [k3, k3'] at this
  have h5 : 0 ≤ x * ((if 0 < V "site-export_power_mwh" j then e' j else p j) - (if 0 < V "site-import_power_mwh" i then p i else e' i)) := by
    linarith
  have := nonneg_of_mul_nonneg_right h5 hx0
  linarith

end

end EPL
