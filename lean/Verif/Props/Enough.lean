/-
C66: a site without heat is feasible when its grid connection covers its resting demand, or when it has a spill asset.
-/
import Verif.Proofs.Point
import Verif.Props.Returns

namespace EPL

section
variable {s : Site} {flags : Flags} {f : Freq} {n i : Nat} {name : String}

/-- The quantities of a resting asset, summed over its objects. -/
def Asset.restSum (a : Asset) (f : Freq) (flags : Flags) (q : Base → Val) (i : Nat) : ℚ :=
  ((a.ois i f flags).map (fun o => (q o.base).eval (a.rest f))).sum

theorem rest_sums {a : Asset} (h : a.CanRest f n) (hb : ∀ c, a = .boiler c → f.mwToMwh c.heatMin = 0) (hi : i < n) :
    a.restSum f flags Base.electricGeneration i - a.restSum f flags Base.electricLoad i - a.restSum f flags Base.electricCharge i +
      a.restSum f flags Base.electricDischarge i = -a.restDemand i ∧
    a.restSum f flags Base.htGeneration i = 0 ∧ a.restSum f flags Base.htLoad i = 0 ∧ a.restSum f flags Base.ltGeneration i = 0 ∧
    a.restSum f flags Base.ltLoad i = 0 := by
  have idle : a.CanIdle f n → a.restDemand i = 0 → _ := fun hid h0 => by
    have z := fun (o : OneInterval) (ho : o ∈ a.ois i f flags) => idle_zero (flags := flags) hid hi ho
    have e1 : a.restSum f flags Base.electricGeneration i = 0 := sum_zeros fun o ho => (z o ho).1
    have e2 : a.restSum f flags Base.htGeneration i = 0 := sum_zeros fun o ho => (z o ho).2.1
    have e3 : a.restSum f flags Base.ltGeneration i = 0 := sum_zeros fun o ho => (z o ho).2.2.1
    have e4 : a.restSum f flags Base.electricLoad i = 0 := sum_zeros fun o ho => (z o ho).2.2.2.1
    have e5 : a.restSum f flags Base.htLoad i = 0 := sum_zeros fun o ho => (z o ho).2.2.2.2.1
    have e6 : a.restSum f flags Base.ltLoad i = 0 := sum_zeros fun o ho => (z o ho).2.2.2.2.2.1
    have e7 : a.restSum f flags Base.electricCharge i = 0 := sum_zeros fun o ho => (z o ho).2.2.2.2.2.2.1
    have e8 : a.restSum f flags Base.electricDischarge i = 0 := sum_zeros fun o ho => (z o ho).2.2.2.2.2.2.2.1
    exact (⟨by rw [e1, e4, e7, e8, h0]; norm_num, e2, e5, e3, e6⟩ :
      a.restSum f flags Base.electricGeneration i - a.restSum f flags Base.electricLoad i - a.restSum f flags Base.electricCharge i +
        a.restSum f flags Base.electricDischarge i = -a.restDemand i ∧
      a.restSum f flags Base.htGeneration i = 0 ∧ a.restSum f flags Base.htLoad i = 0 ∧ a.restSum f flags Base.ltGeneration i = 0 ∧
      a.restSum f flags Base.ltLoad i = 0)
  cases a with
  | boiler c => exact idle ⟨hb c rfl, by have := h.2.1; rw [hb c rfl] at this; exact this, h.2.2⟩ rfl
  | battery c => exact idle h rfl
  | chp c => exact idle h rfl
  | heatPump c => exact idle h rfl
  | spill c => exact idle h rfl
  | valve c => exact idle h rfl
  | renewable c =>
    unfold Asset.restSum
    rw [ois_renewable (renewable_buildable h hi)]
    simp [OneInterval.base, Val.eval, Asset.rest, RenewableCfg.oi, continuous, Asset.restDemand]
  | evs c =>
    have hrow := served_rows h hi
    obtain ⟨sp, hsp, hmin, hmax⟩ := h.spill
    have ho : (Asset.evs c).ois i f flags = (c.objs c.chargers i f flags true true false).map .ev ++
        (c.objs c.spillChargers i f flags false false true).map .evSpill := by
      simp only [Asset.ois, ois_evs (hrow.matOk _)]
    have zero : ∀ q : Base → Val, (∀ x y, (q { electricCharge := x, electricDischarge := y }).eval ((Asset.evs c).rest f) = 0) →
        (Asset.evs c).restSum f flags q i = 0 := by
      intro q hq
      refine sum_zeros fun o hmem => ?_
      rw [ho, List.mem_append, List.mem_map, List.mem_map] at hmem
      rcases hmem with ⟨x, _, rfl⟩ | ⟨x, _, rfl⟩ <;> exact hq _ _
    have z0 : ∀ k : ℕ, (Val.int k).eval ((Asset.evs c).rest f) = k := fun k => by simp [Val.eval]
    refine ⟨?_, zero _ fun _ _ => by simp [Val.eval], zero _ fun _ _ => by simp [Val.eval], zero _ fun _ _ => by simp [Val.eval],
      zero _ fun _ _ => by simp [Val.eval]⟩
    rw [zero Base.electricGeneration fun _ _ => by simp [Val.eval], zero Base.electricLoad fun _ _ => by simp [Val.eval]]
    have e1 : (Asset.evs c).restSum f flags Base.electricCharge i = (Asset.evs c).restDemand i := by
      unfold Asset.restSum
      rw [ho, List.map_append, List.sum_append, List.map_map, List.map_map]
      rw [objs_sum (val := fun _ _ => 0), objs_sum (val := fun e _ => if c.first i e then c.asked e else 0)]
      · rw [hsp]
        simp [EvsCfg.sumEvents, Asset.restDemand]
      · intro ev e ch k he hk
        simp only [Function.comp_def, OneInterval.base]
        rw [obj_charge hrow he]
        unfold EvsCfg.chargeOf
        split
        · rename_i hl
          rw [if_neg fun hf => hl.2 hf.1]
        · simp [Asset.rest]
      · intro ev e ch k he hk
        simp only [Function.comp_def, OneInterval.base]
        rw [obj_charge hrow he]
        unfold EvsCfg.chargeOf
        split <;> rfl
    have e2 : (Asset.evs c).restSum f flags Base.electricDischarge i = 0 := by
      unfold Asset.restSum
      rw [ho, List.map_append, List.sum_append, List.map_map, List.map_map]
      rw [objs_sum (val := fun _ _ => 0), objs_sum (val := fun _ _ => 0)]
      · simp [EvsCfg.sumEvents]
      · intro ev e ch k he hk
        simp only [Function.comp_def, OneInterval.base]
        rw [obj_discharge_spill]
      · intro ev e ch k he hk
        simp only [Function.comp_def, OneInterval.base]
        rw [obj_discharge]
        unfold EvsCfg.dischargeOf
        split <;> rfl
    rw [e1, e2]
    ring

/-- The spill asset gives what is missing and takes what is left. -/
def Site.spillPlan (s : Site) (sp : SpillCfg) (a : Asset) : Assign :=
  if a = .spill sp then fun
    | .asset _ attr i =>
      if attr = "electric_generation_mwh" then max (s.restDemand i) 0
      else if attr = "electric_load_mwh" then max (-s.restDemand i) 0
      else 0
    | _ => 0
  else a.rest s.freq

theorem getD_zero {l : List ℚ} (h : ∀ x ∈ l, x = 0) (i : Nat) : l.getD i 0 = 0 := by
  rw [List.getD_eq_getElem?_getD]
  cases hx : l[i]? with
  | none => rfl
  | some x => exact h x (List.mem_of_getElem? hx)

theorem noheat_loads (h : s.NoHeat) (i : Nat) : s.data.htLoad.getD i 0 = 0 ∧ s.data.ltLoad.getD i 0 = 0 ∧ s.data.ltGeneration.getD i 0 = 0 :=
  ⟨getD_zero (fun x hx => h.loads x (by simp [hx])) i, getD_zero (fun x hx => h.loads x (by simp [hx])) i,
    getD_zero (fun x hx => h.loads x (by simp [hx])) i⟩

theorem list_sum_neg {α : Type} (l : List α) (g : α → ℚ) : (l.map (fun a => -g a)).sum = -(l.map g).sum := by
  induction l with
  | nil => simp
  | cons a l ih => simp only [List.map_cons, List.sum_cons, ih]; ring

/-- C66: a site nobody asks for heat, whose assets can rest, has a feasible dispatch when the grid connection carries its resting demand in every interval. -/
theorem C66_grid (hs : s.Constructed) (hn : (s.assets.map Asset.name).Nodup) (h0 : 0 < s.data.n) (hc : s.constraints = []) (hh : s.NoHeat)
    (hr : ∀ a ∈ s.assets, a.CanRest s.freq s.data.n) (hil : 0 ≤ s.mwh s.importLimit) (hel : 0 ≤ s.mwh s.exportLimit)
    (hg : ∀ i < s.data.n, -s.mwh s.exportLimit ≤ s.restDemand i ∧ s.restDemand i ≤ s.mwh s.importLimit) (hname : name = "price" ∨ name = "carbon") :
    ∃ p σ, Answer s (.str name) flags p σ ∧ ∀ i < s.data.n, importOf σ i = max (s.restDemand i) 0 ∧ exportOf σ i = max (-s.restDemand i) 0 := by
  have R := fun (i : Nat) (hi : i < s.data.n) (a : Asset) (ha : a ∈ s.assets) =>
    rest_sums (flags := flags) (hr a ha) (fun c hc => hh.boilers c (hc ▸ ha)) hi
  have zero : ∀ (q : Base → Val) (i : Nat), (∀ a ∈ s.assets, a.restSum s.freq flags q i = 0) → s.planned flags (fun a => a.rest s.freq) q i = 0 :=
    fun q i h => sum_zeros h
  obtain ⟨p, hp⟩ := point_answer (flags := flags) (name := name) (grid := s.restDemand) (plan := fun a => a.rest s.freq) hs hn h0 hc
    (fun i hi a ha => rest_buildable (hr a ha) hi) (fun a ha => rest_fits (hr a ha)) hil hel hg
    (fun i hi => by
      have : s.planned flags (fun a => a.rest s.freq) Base.electricGeneration i - s.planned flags (fun a => a.rest s.freq) Base.electricLoad i -
          s.planned flags (fun a => a.rest s.freq) Base.electricCharge i + s.planned flags (fun a => a.rest s.freq) Base.electricDischarge i =
          -(s.assets.map (Asset.restDemand i)).sum := by
        unfold Site.planned
        rw [← list_sum_sub, ← list_sum_sub, ← list_sum_add, ← list_sum_neg]
        exact list_sum_congr fun a ha => (R i hi a ha).1
      unfold Site.restDemand
      linarith)
    (fun i hi => by
      rw [zero _ i fun a ha => (R i hi a ha).2.1, zero _ i fun a ha => (R i hi a ha).2.2.1, (noheat_loads hh i).1]; norm_num)
    (fun i hi => by
      rw [zero _ i fun a ha => (R i hi a ha).2.2.2.1, zero _ i fun a ha => (R i hi a ha).2.2.2.2, (noheat_loads hh i).2.1, (noheat_loads hh i).2.2]
      norm_num) hname
  exact ⟨p, _, hp, fun i _ => ⟨rfl, rfl⟩⟩

theorem restDemand_spill (i : Nat) (sp : SpillCfg) : (Asset.spill sp).restDemand i = 0 := rfl

/-- C66: and with a spill asset it has one whatever the size of the grid connection. -/
theorem C66_spill {sp : SpillCfg} (hs : s.Constructed) (hn : (s.assets.map Asset.name).Nodup) (h0 : 0 < s.data.n) (hc : s.constraints = [])
    (hh : s.NoHeat) (hr : ∀ a ∈ s.assets, a.CanRest s.freq s.data.n) (hil : 0 ≤ s.mwh s.importLimit) (hel : 0 ≤ s.mwh s.exportLimit)
    (hsp : Asset.spill sp ∈ s.assets) (hname : name = "price" ∨ name = "carbon") :
    ∃ p σ, Answer s (.str name) flags p σ ∧ ∀ i < s.data.n, importOf σ i = 0 ∧ exportOf σ i = 0 := by
  have R := fun (i : Nat) (hi : i < s.data.n) (a : Asset) (ha : a ∈ s.assets) =>
    rest_sums (flags := flags) (hr a ha) (fun c hc => hh.boilers c (hc ▸ ha)) hi
  have hnd : s.assets.Nodup := List.Nodup.of_map _ hn
  have sum : ∀ (q : Base → Val) (i : Nat), s.planned flags (s.spillPlan sp) q i =
      (s.assets.map (fun a => a.restSum s.freq flags q i)).sum +
        ((q (OneInterval.spill (sp.oneInterval i)).base).eval (s.spillPlan sp (.spill sp)) -
          (q (OneInterval.spill (sp.oneInterval i)).base).eval (fun _ => 0)) := by
    intro q i
    rw [← list_sum_single hnd hsp ((q (OneInterval.spill (sp.oneInterval i)).base).eval (s.spillPlan sp (.spill sp)) -
      (q (OneInterval.spill (sp.oneInterval i)).base).eval (fun _ => 0)), ← list_sum_add]
    unfold Site.planned
    refine list_sum_congr fun a ha => ?_
    by_cases h : a = .spill sp
    · subst h
      have e : (Asset.spill sp).ois i s.freq flags = [.spill (sp.oneInterval i)] := rfl
      have e2 : (Asset.spill sp).rest s.freq = fun _ => 0 := rfl
      simp only [Asset.restSum, e, e2, List.map_cons, List.map_nil, List.sum_cons, List.sum_nil, if_true]
      ring
    · rw [if_neg h, add_zero]
      unfold Asset.restSum Site.spillPlan
      simp [h]
  have w1 : ∀ i, s.spillPlan sp (.spill sp) (.asset sp.name "electric_generation_mwh" i) = max (s.restDemand i) 0 := fun i => by simp [Site.spillPlan]
  have w2 : ∀ i, s.spillPlan sp (.spill sp) (.asset sp.name "electric_load_mwh" i) = max (-s.restDemand i) 0 := fun i => by simp [Site.spillPlan]
  have w3 : ∀ i, s.spillPlan sp (.spill sp) (.asset sp.name "high_temperature_generation_mwh" i) = 0 := fun i => by simp [Site.spillPlan]
  have w4 : ∀ i, s.spillPlan sp (.spill sp) (.asset sp.name "low_temperature_load_mwh" i) = 0 := fun i => by simp [Site.spillPlan]
  have zero : ∀ (q : Base → Val) (i : Nat), (∀ a ∈ s.assets, a.restSum s.freq flags q i = 0) →
      (q (OneInterval.spill (sp.oneInterval i)).base).eval (s.spillPlan sp (.spill sp)) =
        (q (OneInterval.spill (sp.oneInterval i)).base).eval (fun _ => 0) → s.planned flags (s.spillPlan sp) q i = 0 :=
    fun q i h h' => by rw [sum, sum_zeros h, h']; ring
  have m1 : ∀ x : ℚ, max x 0 - max (-x) 0 = x := by
    intro x
    rcases le_total x 0 with h | h
    · rw [max_eq_right h, max_eq_left (neg_nonneg.2 h)]; ring
    · rw [max_eq_left h, max_eq_right (neg_nonpos.2 h)]; ring
  obtain ⟨p, hp⟩ := point_answer (flags := flags) (name := name) (grid := fun _ => 0) (plan := s.spillPlan sp) hs hn h0 hc
    (fun i hi a ha => rest_buildable (hr a ha) hi)
    (fun a ha => by
      by_cases h : a = .spill sp
      · subst h
        refine spill_fits fun v hv => ?_
        simp only [Site.spillPlan, if_true]
        cases v with
        | asset n attr i =>
          simp only []
          split_ifs
          · exact le_max_right _ _
          · exact le_max_right _ _
          · exact le_refl _
        | _ => exact le_refl _
      · have e : s.spillPlan sp a = a.rest s.freq := by unfold Site.spillPlan; rw [if_neg h]
        rw [e]
        exact rest_fits (hr a ha)) hil hel (fun i hi => ⟨by linarith, hil⟩)
    (fun i hi => by
      have : (s.assets.map (fun a => a.restSum s.freq flags Base.electricGeneration i)).sum -
          (s.assets.map (fun a => a.restSum s.freq flags Base.electricLoad i)).sum -
          (s.assets.map (fun a => a.restSum s.freq flags Base.electricCharge i)).sum +
          (s.assets.map (fun a => a.restSum s.freq flags Base.electricDischarge i)).sum =
          -(s.assets.map (Asset.restDemand i)).sum := by
        rw [← list_sum_sub, ← list_sum_sub, ← list_sum_add, ← list_sum_neg]
        exact list_sum_congr fun a ha => (R i hi a ha).1
      have hd : s.restDemand i = s.data.electricLoad.getD i 0 + (s.assets.map (Asset.restDemand i)).sum := rfl
      have := m1 (s.restDemand i)
      rw [sum, sum, sum, sum]
      simp only [OneInterval.base, Val.eval, SpillCfg.oneInterval, continuous, w1, w2]
      linarith)
    (fun i hi => by
      rw [zero _ i (fun a ha => (R i hi a ha).2.1) (by simp only [OneInterval.base, Val.eval, SpillCfg.oneInterval, continuous, w3]),
        zero _ i (fun a ha => (R i hi a ha).2.2.1) (by simp [OneInterval.base, Val.eval]), (noheat_loads hh i).1]; norm_num)
    (fun i hi => by
      rw [zero _ i (fun a ha => (R i hi a ha).2.2.2.1) (by simp [OneInterval.base, Val.eval]),
        zero _ i (fun a ha => (R i hi a ha).2.2.2.2) (by simp only [OneInterval.base, Val.eval, SpillCfg.oneInterval, continuous, w4]),
        (noheat_loads hh i).2.1, (noheat_loads hh i).2.2]
      norm_num) hname
  refine ⟨p, _, hp, fun i _ => ⟨?_, ?_⟩⟩
  · change max (0:ℚ) 0 = 0
    simp
  · change max (-(0:ℚ)) 0 = 0
    simp

/-- C66: such sites always come back with a feasible result, from every solver that answers feasible programs with a feasible point. -/
theorem C66_returns {S : Solver} (hs : s.Constructed) (h0 : 0 < s.data.n) (hw : ∀ a ∈ s.assets, a.WellNamed) (hp : s.PlainNames) (hc : s.ClearNames)
    (hx : s.Sensible) (hcon : s.constraints = []) (hil : 0 ≤ s.importLimit) (hel : 0 ≤ s.exportLimit) (hh : s.NoHeat)
    (hr : ∀ a ∈ s.assets, a.CanRest s.freq s.data.n)
    (hg : (∃ sp, Asset.spill sp ∈ s.assets) ∨
      ∀ i < s.data.n, -s.mwh s.exportLimit ≤ s.restDemand i ∧ s.restDemand i ≤ s.mwh s.importLimit)
    (hname : name = "price" ∨ name = "carbon") (hS : S.Sound) (hst : ∀ p, (∃ σ, p.Feasible σ) → (S p).status = "Optimal")
    (hfail : flags.failOnSpill = false) : ∃ r, s.optimize (.str name) flags S = .ok r ∧ r.feasible = true := by
  have hnd : (s.assets.map Asset.name).Nodup := List.pairwise_map.2 (clear_nodup hc)
  have lim : ∀ x, 0 ≤ x → 0 ≤ s.mwh x := fun x h => div_nonneg (mul_nonneg h hx.freq) (by norm_num)
  have : ∃ p σ, Answer s (.str name) flags p σ := by
    rcases hg with ⟨sp, hsp⟩ | hg
    · obtain ⟨p, σ, h, _⟩ := C66_spill (flags := flags) hs hnd h0 hcon hh hr (lim _ hil) (lim _ hel) hsp hname
      exact ⟨p, σ, h⟩
    · obtain ⟨p, σ, h, _⟩ := C66_grid (flags := flags) hs hnd h0 hcon hh hr (lim _ hil) (lim _ hel) hg hname
      exact ⟨p, σ, h⟩
  obtain ⟨p, σ, ⟨⟨iv, hprog⟩, hf⟩⟩ := this
  obtain ⟨τ, hτ, hv⟩ := hS p (hst p ⟨σ, hf⟩)
  rcases C25_inputs hs h0 hw hp hc hx (objective := .str name) trivial hprog (hst p ⟨σ, hf⟩) hτ hv with h | ⟨h, -⟩
  · exact h
  · rw [hfail] at h; simp at h

end

/-! ### The hypotheses are met -/

/-- Two vehicles and one charger over three hours: the first vehicle is there from the start, the second one arrives in the last hour. -/
def demoArriveCfg : EvsCfg where
  name := "evs"
  chargers := [⟨"charger-0", 3, 1⟩]
  spillChargers := [⟨"charger-spill-evs", 10000, 0⟩]
  events := [⟨"charge-event-0", 4, 9/10⟩, ⟨"charge-event-1", 2, 9/10⟩]
  chargeEvents := [[1, 0], [1, 0], [0, 1]]
  freqMins := 60

/-- The vehicles with a battery and a solar plant that has to run at half its output. -/
def demoArrive : Demo where
  assets :=
    [ .evs demoArriveCfg,
      .battery ⟨"battery", 2, 2, 4, 9/10, 1, 1, 60⟩,
      .renewable { name := "solar", lowerBoundPct := 1/2, generation := [0, 8, 2], isArray := true, idxLen := 3, freqMins := 60 } ]
  raw := { electricityPrices := prices [10, -100, 30], electricLoad := prices [1, 1, 0] }
  importLimit := 5
  exportLimit := 3
  answer := []

/-- C66: the site of `demoArrive` takes 5 MWh, gives 3 MWh and takes 1 MWh when all assets rest, and its connection just carries this. -/
example : ∃ (s : Site), s.Constructed ∧ 0 < s.data.n ∧ (∀ a ∈ s.assets, a.WellNamed) ∧ s.PlainNames ∧ s.ClearNames ∧
    s.Sensible ∧ s.constraints = [] ∧ 0 ≤ s.importLimit ∧ 0 ≤ s.exportLimit ∧ s.NoHeat ∧ (∀ a ∈ s.assets, a.CanRest s.freq s.data.n) ∧
    (∀ i < s.data.n, -s.mwh s.exportLimit ≤ s.restDemand i ∧ s.restDemand i ≤ s.mwh s.importLimit) ∧
    s.restDemand 0 = 5 ∧ s.restDemand 1 = -3 ∧ s.restDemand 2 = 1 := by
  have t : (demoArrive.site.toOption.map (fun s => (s.assets, s.data.n, s.data.custom.length, s.data.electricLoad,
      s.data.htLoad ++ s.data.ltLoad ++ s.data.ltGeneration))) = some (demoArrive.assets, 3, 0, [1, 1, 0], [0, 0, 0, 0, 0, 0, 0, 0, 0]) := by decide +kernel
  cases hs : demoArrive.site with
  | error e => rw [hs] at t; simp [Except.toOption] at t
  | ok s =>
    rw [hs] at t
    simp only [Except.toOption, Option.map_some, Option.some.injEq, Prod.mk.injEq] at t
    obtain ⟨t1, t2, t3, t4, t5⟩ := t
    rw [List.length_eq_zero_iff] at t3
    have n := site_new hs
    have e : s.freq = ⟨60⟩ := by simp [Site.freq, n.freq, demoArrive]
    have d : s.restDemand 0 = 5 ∧ s.restDemand 1 = -3 ∧ s.restDemand 2 = 1 := by
      unfold Site.restDemand
      rw [t1, t4]
      refine ⟨?_, ?_, ?_⟩ <;> decide +kernel
    have l1 : s.mwh s.importLimit = 5 := by rw [n.importLimit]; simp [Site.mwh, n.freq, demoArrive]
    have l2 : s.mwh s.exportLimit = 3 := by rw [n.exportLimit]; simp [Site.mwh, n.freq, demoArrive]
    refine ⟨s, ⟨_, _, _, _, _, _, _, hs⟩, ?_, ?_, ⟨?_, ?_⟩, ⟨?_, ?_, ?_, ?_, ?_, ?_⟩, ⟨?_, ?_, ?_, ?_, ?_⟩, n.constraints, ?_, ?_, ⟨?_, ?_⟩, ?_, ?_, d⟩
    · rw [t2]; decide
    · rw [t1]; decide +kernel
    · rw [t1]; decide +kernel
    · rw [t3]; simp
    · rw [t1]; decide +kernel
    · rw [t1]; decide +kernel
    · rw [t1]; decide +kernel
    · intro c hc a ha
      rw [t1] at hc ha
      simp only [demoArrive, List.mem_cons, List.not_mem_nil, or_false, Asset.evs.injEq, reduceCtorEq] at hc
      subst hc
      revert a
      decide +kernel
    · rw [t3]; simp
    · rw [t3]; simp
    · rintro ⟨c, hc⟩; rw [t1] at hc; simp [demoArrive] at hc
    · intro _ a ha h
      rw [t1] at ha
      simp only [demoArrive, List.mem_cons, List.not_mem_nil, or_false] at ha
      rcases ha with rfl | rfl | rfl
      · exact ⟨_, rfl⟩
      · exact absurd h (by decide +kernel)
      · exact absurd h (by decide +kernel)
    · have h : ∀ x ∈ s.data.electricLoad ++ (s.data.htLoad ++ s.data.ltLoad ++ s.data.ltGeneration), 0 ≤ x := by rw [t4, t5]; decide +kernel
      simpa [List.append_assoc] using h
    · rw [n.freq]; decide +kernel
    · rw [t1]; decide +kernel
    · rw [n.importLimit]; simp [demoArrive]
    · rw [n.exportLimit]; simp [demoArrive]
    · rw [t5]; simp
    · intro c hc; rw [t1] at hc; simp [demoArrive] at hc
    · rw [t1, t2, e]
      intro a ha
      simp only [demoArrive, List.mem_cons, List.not_mem_nil, or_false] at ha
      rcases ha with rfl | rfl | rfl
      · refine ⟨by decide, by decide, by decide, ?_, by decide +kernel, by decide +kernel, by decide +kernel, ⟨_, rfl, by decide +kernel, by decide +kernel⟩, ?_⟩
        · intro i hi
          have : i = 0 ∨ i = 1 ∨ i = 2 := by omega
          rcases this with rfl | rfl | rfl <;> exact ⟨_, rfl, by decide⟩
        · intro k ev hev
          have hk := (List.getElem?_eq_some_iff.1 hev).1
          have : k = 0 ∨ k = 1 := by simp [demoArriveCfg] at hk; omega
          rcases this with rfl | rfl <;> simp only [demoArriveCfg, List.getElem?_cons_zero, List.getElem?_cons_succ, Option.some.injEq] at hev <;> subst hev
          · exact ⟨by norm_num, by norm_num, .inr ⟨0, by decide, by decide +kernel⟩⟩
          · exact ⟨by norm_num, by norm_num, .inr ⟨2, by decide, by decide +kernel⟩⟩
      · simp only [Asset.CanRest, Asset.CanIdle]; decide +kernel
      · simp only [Asset.CanRest, Asset.CanIdle]; decide +kernel
    · intro i hi
      rw [l1, l2]
      have : i = 0 ∨ i = 1 ∨ i = 2 := by omega
      rcases this with rfl | rfl | rfl
      · rw [d.1]; norm_num
      · rw [d.2.1]; norm_num
      · rw [d.2.2]; norm_num

end EPL
