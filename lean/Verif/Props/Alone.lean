/-
C67: stand-alone assets always come back with a feasible result.
-/
import Verif.Props.Enough
import Verif.Spec.Alone
import Verif.Props.Standalone
import Verif.Proofs.EvTable

namespace EPL

section
variable {a : EvArgs} {c : EvsCfg} {n i : Nat}

theorem made_freq (h : a.make = .ok c) : c.freqMins = a.freqMins := by
  unfold EvArgs.make Evs.new at h
  cases hce : a.chargeEvents with
  | nil =>
    rw [hce] at h
    simp [bind_ok] at h
  | cons row rows =>
    rw [hce] at h
    simp only at h
    split at h
    · simp only [bind_ok, pyValidate_ok, decide_eq_true_eq, Except.ok.injEq] at h
      obtain ⟨_, hw, _, hlen, rfl⟩ := h
      rfl
    · simp at h

theorem made_events (h : a.make = .ok c) : a.capacities.length = a.chargeEvents.length ∧ a.chargeEvents ≠ [] := by
  unfold EvArgs.make Evs.new at h
  cases hce : a.chargeEvents with
  | nil =>
    rw [hce] at h
    simp [bind_ok] at h
  | cons row rows =>
    rw [hce] at h
    simp only at h
    split at h
    · simp only [bind_ok, pyValidate_ok, decide_eq_true_eq, Except.ok.injEq] at h
      obtain ⟨_, hw, _, hlen, rfl⟩ := h
      simp only [List.length_map, List.length_zipIdx] at hlen
      exact ⟨hlen, by simp⟩
    · simp at h

theorem events_get (h : EvMade a c) {e : Nat} {ev : ChargeEventCfg} (he : c.events[e]? = some ev) :
    ∃ q, a.capacities[e]? = some q ∧ ev = ⟨"charge-event-" ++ toString e, q, a.efficiency⟩ := by
  rw [h.events, List.getElem?_map, List.getElem?_zipIdx] at he
  cases hq : a.capacities[e]? with
  | none => rw [hq] at he; simp at he
  | some q => rw [hq] at he; simp at he; exact ⟨q, rfl, he.symm⟩

theorem present01 (hs : a.Sane) (i e : Nat) : a.present i e = 0 ∨ a.present i e = 1 := by
  unfold EvArgs.present
  rw [List.getD_eq_getElem?_getD, List.getD_eq_getElem?_getD]
  cases hr : a.chargeEvents[e]? with
  | none => simp
  | some row =>
    simp only [Option.getD_some]
    cases hx : row[i]? with
    | none => simp
    | some x => exact hs.presence row (List.mem_of_getElem? hr) x (List.mem_of_getElem? hx)

theorem sum_pos_mem {l : List ℚ} (h : 0 < l.sum) : ∃ x ∈ l, x ≠ 0 := by
  by_contra hc
  push_neg at hc
  have : l.sum = 0 := List.sum_eq_zero hc
  linarith

/-- A fleet accepted by the stand-alone constructor can be served by the spill charger. -/
theorem evs_served (hm : a.make = .ok c) (hs : a.Sane) (hv : validateEvIntervalData n c = .ok ()) : c.Served ⟨a.freqMins⟩ n := by
  have M := ev_made hm
  obtain ⟨hl, hne⟩ := made_events hm
  unfold validateEvIntervalData at hv
  simp only [bind_ok, pyAssert_ok, decide_eq_true_eq, List.all_eq_true, List.mem_range] at hv
  obtain ⟨_, hn, hv⟩ := hv
  have hlen := M.events_length
  have hpos : 0 < c.events.length := by rw [hlen, hl]; exact List.length_pos_iff.2 hne
  have plug : ∀ e < c.events.length, ∃ i < n, c.present i e = 1 := by
    intro e he
    obtain ⟨x, hx, h0⟩ := sum_pos_mem (hv e he)
    obtain ⟨row, hrow, rfl⟩ := List.mem_map.1 hx
    obtain ⟨i, hi⟩ := List.mem_iff_getElem?.1 hrow
    have hil : i < c.chargeEvents.length := (List.getElem?_eq_some_iff.1 hi).1
    have hp : c.present i e = row.getD e 0 := by
      unfold EvsCfg.present
      rw [List.getD_eq_getElem?_getD (l := c.chargeEvents), hi]; rfl
    refine ⟨i, hn ▸ hil, ?_⟩
    rw [M.present i hil e]
    rcases present01 hs i e with h | h
    · rw [← hp, M.present i hil e, h] at h0
      exact absurd rfl h0
    · exact h
  refine ⟨?_, List.length_pos_iff.1 hpos, ?_, ?_, ?_, ?_, ?_, ?_, ?_⟩
  · obtain ⟨i, hi, -⟩ := plug 0 hpos
    omega
  · intro h
    have := M.chargers_length
    rw [h] at this
    exact hs.chargers (List.length_eq_zero_iff.1 this.symm)
  · intro i hi
    rw [hn] at hi
    refine ⟨_, List.getElem?_eq_getElem hi, ?_⟩
    exact (M.rows i hi _ (by rw [List.getElem?_eq_getElem hi]; rfl)).ge
  · intro i hi e _
    rw [M.present i (hn ▸ hi) e]
    rcases present01 hs i e with h | h <;> rw [h] <;> norm_num
  · intro ch hch
    rw [M.chargers] at hch
    obtain ⟨⟨p, k⟩, hp, rfl⟩ := List.mem_map.1 hch
    exact div_nonneg (mul_nonneg (hs.powers p (List.mem_of_getElem? (mem_zipIdx_iff.1 hp))) hs.freq) (by norm_num)
  · rw [M.events, List.map_map]
    rw [List.nodup_iff_injective_getElem]
    rintro ⟨x, hx⟩ ⟨y, hy⟩ he
    simp only [List.getElem_map, List.getElem_zipIdx, Function.comp_def, Nat.zero_add] at he
    rw [str_eq_iff, String.toList_append, String.toList_append] at he
    have := digits_inj (List.append_cancel_left he)
    simpa using this
  · refine ⟨_, M.spill, by simp [Freq.mwToMwh], ?_⟩
    intro ev hev
    obtain ⟨e, he⟩ := List.mem_iff_getElem?.1 hev
    obtain ⟨q, hq, rfl⟩ := events_get M he
    exact (hs.capacities q (List.mem_of_getElem? hq)).2
  · intro e ev he
    obtain ⟨q, hq, rfl⟩ := events_get M he
    exact ⟨(hs.capacities q (List.mem_of_getElem? hq)).1, hs.efficiency, .inr (plug e (List.getElem?_eq_some_iff.1 he).1)⟩

/-- A resting fleet takes at most what the plugged in vehicles ask for, and gives nothing. -/
theorem evs_restDemand (hm : a.make = .ok c) (hs : a.Sane) (hi : i < c.chargeEvents.length) :
    0 ≤ (Asset.evs c).restDemand i ∧ (Asset.evs c).restDemand i ≤ a.pluggedDemand i := by
  have M := ev_made hm
  have asked : ∀ e, c.asked e = a.capacities.getD e 0 ∧ 0 ≤ c.asked e := by
    intro e
    unfold EvsCfg.asked
    rw [List.getD_eq_getElem?_getD]
    cases hq : a.capacities[e]? with
    | none =>
      have : c.events[e]? = none := by rw [M.events, List.getElem?_map, List.getElem?_zipIdx, hq]; rfl
      rw [this]; simp
    | some q => rw [M.event hq]; exact ⟨rfl, (hs.capacities q (List.mem_of_getElem? hq)).1⟩
  simp only [Asset.restDemand, EvsCfg.sumEvents, EvArgs.pluggedDemand, sumTo, M.events_length]
  constructor
  · refine List.sum_nonneg fun x hx => ?_
    obtain ⟨e, -, rfl⟩ := List.mem_map.1 hx
    split_ifs
    · exact (asked e).2
    · exact le_refl _
  · refine List.sum_le_sum fun e _ => ?_
    have := M.present i hi e
    by_cases hf : c.first i e
    · rw [if_pos hf, if_pos (this ▸ hf.1), (asked e).1]
    · rw [if_neg hf]
      split_ifs
      · exact (asked e).1 ▸ (asked e).2
      · exact le_refl _

theorem evs_made_wellNamed (hm : a.make = .ok c) : (Asset.evs c).WellNamed := by
  have M := ev_made hm
  refine ⟨M.name ▸ M.well, ?_, ?_, ?_⟩
  · rw [M.chargers]
    apply List.ext_getElem?
    intro k
    by_cases hk : k < a.powers.length
    · simp [hk]
    · simp [Nat.le_of_not_lt hk]
  · rw [M.spill, M.name]; rfl
  · rw [M.events]
    apply List.ext_getElem?
    intro k
    by_cases hk : k < a.capacities.length
    · simp [hk]
    · simp [Nat.le_of_not_lt hk]

end

/-- Asset names that cannot be mixed up in columns, variables and checks. -/
structure GoodNames (l : List String) : Prop where
  solver : (l.map solverChars).Nodup
  comma : ∀ x ∈ l, ',' ∉ x.toList
  site : ∀ x ∈ l, x ≠ "site" ∧ ¬ "site-".toList <+: x.toList
  extend : ∀ x ∈ l, ∀ y ∈ l, ¬ (x ++ "-").toList <+: y.toList
  plain : ∀ x ∈ l, PlainName x

instance (l : List String) : Decidable (GoodNames l) :=
  decidable_of_iff ((l.map solverChars).Nodup ∧ (∀ x ∈ l, ',' ∉ x.toList) ∧ (∀ x ∈ l, x ≠ "site" ∧ ¬ "site-".toList <+: x.toList) ∧
    (∀ x ∈ l, ∀ y ∈ l, ¬ (x ++ "-").toList <+: y.toList) ∧ ∀ x ∈ l, PlainName x)
    ⟨fun h => ⟨h.1, h.2.1, h.2.2.1, h.2.2.2.1, h.2.2.2.2⟩, fun h => ⟨h.1, h.2, h.3, h.4, h.5⟩⟩

section
variable {s : Site} {args : SiteArgs} {flags : Flags} {S : Solver} {name : String} {a : Asset} {others : List Asset} {f : ℚ} {L : List String}

/-- The assets put beside a stand-alone asset. -/
def Beside (x : Asset) : Prop := x = .spill { name := "spill" } ∨ x = .valve defaultValve ∨ x = .boiler defaultBoiler

theorem mw_nonneg {mw : ℚ} (hm : 0 ≤ mw) (hf : 0 ≤ f) : 0 ≤ (⟨f⟩ : Freq).mwToMwh mw := div_nonneg (mul_nonneg hm hf) (by norm_num)

theorem beside_facts {x : Asset} (h : Beside x) (hf : 0 ≤ f) (n : Nat) : x.WellNamed ∧ x.Sensible ∧ x.CanRest ⟨f⟩ n ∧ (∀ i, x.restDemand i = 0) ∧
    (∀ c, x = .boiler c → (⟨f⟩ : Freq).mwToMwh c.heatMin = 0) ∧ pyIn "evs" x.name = false ∧ (∀ v, x = .valve v → v.name = "valve") ∧
    (∀ c, x ≠ .evs c) := by
  rcases h with rfl | rfl | rfl
  · exact ⟨by decide +kernel, trivial, trivial, fun _ => rfl, by simp, by decide +kernel, by simp, by simp⟩
  · exact ⟨by decide +kernel, trivial, trivial, fun _ => rfl, by simp, by decide +kernel, by simp [defaultValve], by simp⟩
  · have z : (⟨f⟩ : Freq).mwToMwh defaultBoiler.heatMin = 0 := by simp [Freq.mwToMwh, defaultBoiler]
    refine ⟨by decide +kernel, le_refl _, ⟨z.ge, ?_, by norm_num [defaultBoiler, Defaults.boilerEfficiency]⟩, fun _ => rfl, ?_, by decide +kernel, by simp, by simp⟩
    · rw [z]
      exact mw_nonneg (by simp [defaultBoiler, Defaults.boilerMax]) hf
    · intro c hc
      rw [Asset.boiler.injEq] at hc
      rw [← hc]; exact z

/-- The main asset of a stand-alone site. -/
structure Main (b : Asset) (f : ℚ) (n : Nat) : Prop where
  well : b.WellNamed
  sensible : b.Sensible
  rest : b.CanRest ⟨f⟩ n
  kind : (∀ c, b ≠ .boiler c) ∧ (∀ c, b ≠ .valve c)
  evs : (∃ c, b = .evs c) ∨ pyIn "evs" b.name = false

/-- A stand-alone asset that can rest comes back: with a spill and a valve, or without heat loads with a spill or with a grid connection that carries the
resting demand. -/
theorem alone_returns {b : Asset} (H : Holds s a others args f) (hperm : s.assets.Perm (b :: others)) (hb : Main b f s.data.n) (ho : ∀ x ∈ others, Beside x)
    (hcalm : Calm s args flags S) (hf : 0 ≤ f) (h0 : 0 < s.data.n) (hgood : GoodNames (b.name :: others.map Asset.name))
    (hg : (Asset.spill { name := "spill" } ∈ others ∧ Asset.valve defaultValve ∈ others) ∨
      (∀ x ∈ s.data.htLoad ++ s.data.ltLoad ++ s.data.ltGeneration, x = 0) ∧ (Asset.spill { name := "spill" } ∈ others ∨
        ∀ i < s.data.n, -(args.exportLimit * f / 60) ≤ s.data.electricLoad.getD i 0 + b.restDemand i ∧
          s.data.electricLoad.getD i 0 + b.restDemand i ≤ args.importLimit * f / 60))
    (hobj : name = "price" ∨ name = "carbon") : ∃ r, optimizeStandalone (some s) (.str name) flags S = .ok r ∧ r.feasible = true := by
  obtain ⟨l, hl, hnew⟩ := H.built
  have N := site_new hnew
  have hcustom : s.data.custom = [] := by
    have := N.custom
    rw [hcalm.kwargs] at this
    simpa [customData, mapE] using this.symm
  have hmem : ∀ x ∈ s.assets, x = b ∨ x ∈ others := fun x hx => List.mem_cons.1 (hperm.mem_iff.1 hx)
  have hoin : ∀ x ∈ others, x ∈ s.assets := fun x hx => hperm.mem_iff.2 (List.mem_cons_of_mem _ hx)
  have F := fun (x : Asset) (hx : x ∈ others) => beside_facts (ho x hx) hf s.data.n
  have hfr : s.freq = ⟨f⟩ := by unfold Site.freq; rw [H.freqMins]
  have hL := hperm.map Asset.name
  have hin : ∀ x ∈ s.assets, x.name ∈ b.name :: others.map Asset.name := fun x hx => hL.mem_iff.1 (List.mem_map_of_mem hx)
  have plain : s.PlainNames := ⟨fun x hx => hgood.plain _ (hin x hx), by rw [hcustom]; simp⟩
  have clear : s.ClearNames := by
    refine ⟨?_, fun x hx => hgood.comma _ (hin x hx), fun x hx => hgood.site _ (hin x hx),
      fun c hc x hx => hgood.extend _ (hin _ hc) _ (hin x hx), by rw [hcustom]; simp, by rw [hcustom]; simp⟩
    have e : s.assets.map (fun a => solverChars a.name) = (s.assets.map Asset.name).map solverChars := by rw [List.map_map]; rfl
    rw [e, (hL.map solverChars).nodup_iff]
    exact hgood.solver
  have sens : s.Sensible := by
    refine ⟨fun ⟨v, hv⟩ => ⟨v, hv, ?_⟩, ?_, hcalm.loads, by rw [H.freqMins]; exact hf, ?_⟩
    · rcases hmem _ hv with h | h
      · exact absurd h.symm (hb.kind.2 v)
      · exact (F _ h).2.2.2.2.2.2.1 v rfl
    · intro _ x hx he
      rcases hmem x hx with rfl | h
      · rcases hb.evs with h | h
        · exact h
        · rw [h] at he; simp at he
      · rw [(F x h).2.2.2.2.2.1] at he; simp at he
    · intro x hx
      rcases hmem x hx with rfl | h
      · exact hb.sensible
      · exact (F x h).2.1
  have con : s.Constructed := ⟨_, _, _, _, _, _, _, hnew⟩
  have hw : ∀ x ∈ s.assets, x.WellNamed := by
    intro x hx
    rcases hmem x hx with rfl | h
    · exact hb.well
    · exact (F x h).1
  have hr : ∀ x ∈ s.assets, x.CanRest s.freq s.data.n := by
    intro x hx
    rw [hfr]
    rcases hmem x hx with rfl | h
    · exact hb.rest
    · exact (F x h).2.2.1
  rcases hg with ⟨h1, h2⟩ | ⟨hh, hg⟩
  · exact C57_returns con h0 hw plain clear sens (H.constraints.trans hcalm.constraints) (H.importLimit ▸ hcalm.importLimit)
      (H.exportLimit ▸ hcalm.exportLimit) (hoin _ h1) (hoin _ h2) hr hobj hcalm.sound hcalm.answers hcalm.spill
  · refine C66_returns con h0 hw plain clear sens (H.constraints.trans hcalm.constraints) (H.importLimit ▸ hcalm.importLimit)
      (H.exportLimit ▸ hcalm.exportLimit) ⟨hh, ?_⟩ hr ?_ hobj hcalm.sound hcalm.answers hcalm.spill
    · intro c hc
      rw [hfr]
      rcases hmem _ hc with h | h
      · exact absurd h.symm (hb.kind.1 c)
      · exact (F _ h).2.2.2.2.1 c rfl
    · rcases hg with h | h
      · exact .inl ⟨_, hoin _ h⟩
      · refine .inr fun i hi => ?_
        have e : s.restDemand i = s.data.electricLoad.getD i 0 + b.restDemand i := by
          unfold Site.restDemand
          rw [(hperm.map _).sum_eq, List.map_cons, List.sum_cons, sum_zeros fun x hx => (F x hx).2.2.2.1 i, add_zero]
        rw [e]
        simp only [Site.mwh, H.exportLimit, H.importLimit, H.freqMins]
        exact h i hi

theorem calm_load (h : Calm s args flags S) (i : Nat) : 0 ≤ s.data.electricLoad.getD i 0 := by
  rw [List.getD_eq_getElem?_getD]
  cases hx : s.data.electricLoad[i]? with
  | none => simp
  | some x => exact h.loads x (by simp [List.mem_of_getElem? hx])

theorem calm_grid {d : ℚ} {i : Nat} (h : Calm s args flags S) (hf : 0 ≤ f) (hd : 0 ≤ d) (hg : s.data.electricLoad.getD i 0 + d ≤ args.importLimit * f / 60) :
    -(args.exportLimit * f / 60) ≤ s.data.electricLoad.getD i 0 + d ∧ s.data.electricLoad.getD i 0 + d ≤ args.importLimit * f / 60 := by
  have := calm_load h i
  have : 0 ≤ args.exportLimit * f / 60 := div_nonneg (mul_nonneg h.exportLimit hf) (by norm_num)
  exact ⟨by linarith, hg⟩

end

section
variable {args : SiteArgs} {withSpill : Bool} {s : Site} {flags : Flags} {S : Solver} {name : String}

/-- C67: a stand-alone battery made by the constructor under its default name, with non-negative powers, capacity and initial charge, and no final charge asked
for, comes back if no heat is asked for and the grid connection carries the load, or there is a spill. -/
theorem C67_battery {c : BatteryCfg} {power capacity efficiency initial freqMins : ℚ} {discharge : Option ℚ}
    (hm : Battery.new power discharge capacity efficiency initial none "battery" freqMins = .ok c)
    (hs : standaloneBattery c args withSpill = .ok (some s)) (hcalm : Calm s args flags S) (h0 : 0 < s.data.n) (hf : 0 ≤ freqMins)
    (hp : 0 ≤ power) (hd : ∀ d ∈ discharge, 0 ≤ d) (hi : 0 ≤ initial) (hc : 0 ≤ capacity)
    (hheat : ∀ x ∈ s.data.htLoad ++ s.data.ltLoad ++ s.data.ltGeneration, x = 0)
    (hgrid : withSpill = true ∨ ∀ i < s.data.n, s.data.electricLoad.getD i 0 ≤ args.importLimit * freqMins / 60)
    (hobj : name = "price" ∨ name = "carbon") : ∃ r, optimizeStandalone (some s) (.str name) flags S = .ok r ∧ r.feasible = true := by
  have H := C58_battery hs
  have hcf : c.name = "battery" ∧ c.freqMins = freqMins ∧ (Asset.battery c).CanRest ⟨freqMins⟩ s.data.n := by
    simp only [Battery.new, setupInitialFinalCharge, bind_ok, pyAssert_ok, pyValidate_ok, Except.ok.injEq] at hm
    obtain ⟨_, _, _, hbn, rfl⟩ := hm
    refine ⟨rfl, rfl, ⟨rfl, le_min hi hc, min_le_right _ _, mw_nonneg hp hf, mw_nonneg ?_ hf⟩⟩
    cases discharge with
    | none => exact hp
    | some d => exact hd d rfl
  obtain ⟨hn, hfr, hrest⟩ := hcf
  rw [hfr] at H
  obtain ⟨b, hb, hperm⟩ := H.assets
  simp only [OnSite] at hb
  subst hb
  have hbn : (Asset.battery c).name = "battery" := hn
  refine alone_returns H hperm ⟨?_, trivial, hrest, ⟨by simp, by simp⟩, .inr ?_⟩ ?_ hcalm hf h0 ?_ (.inr ⟨hheat, ?_⟩) hobj
  · simp only [Asset.WellNamed, hn]; decide +kernel
  · rw [hbn]; decide +kernel
  · cases withSpill <;> simp [Beside]
  · rw [hbn]; cases withSpill <;> decide +kernel
  · rcases hgrid with h | h
    · left; rw [h]; simp
    · exact .inr fun i hi => calm_grid hcalm hf (le_refl _) (by simpa [Asset.restDemand] using h i hi)

/-- C67: a stand-alone renewable generator comes back if no heat is asked for and the grid connection takes its lower bound less the load, or there is a
spill.  A generation given as a single number only works on a site with more than one interval. -/
theorem C67_renewable {c : RenewableCfg} {gen : GenInput} {lower freqMins : ℚ} (hm : Renewable.new gen lower "renewable-generator" freqMins = .ok c)
    (hs : standaloneRenewable c args withSpill = .ok (some s)) (hcalm : Calm s args flags S) (h0 : 0 < s.data.n) (hf : 0 ≤ freqMins)
    (hone : s.data.n = 1 → ∃ l, gen = .array l) (hheat : ∀ x ∈ s.data.htLoad ++ s.data.ltLoad ++ s.data.ltGeneration, x = 0)
    (hgrid : withSpill = true ∨ ∀ i < s.data.n, ∀ g ∈ cyclic gen.values i,
      -(args.exportLimit * freqMins / 60) ≤ s.data.electricLoad.getD i 0 - g * lower ∧
      s.data.electricLoad.getD i 0 - g * lower ≤ args.importLimit * freqMins / 60)
    (hobj : name = "price" ∨ name = "carbon") : ∃ r, optimizeStandalone (some s) (.str name) flags S = .ok r ∧ r.feasible = true := by
  have H := C58_renewable hs
  have hcf : c.name = "renewable-generator" ∧ c.freqMins = freqMins ∧ c.lowerBoundPct = lower ∧ c.generation = gen.values ∧
      (c.isArray = false → gen.values.length = 1 ∧ ∀ l, gen ≠ .array l) ∧ c.idxLen = gen.values.length ∧ (∀ g ∈ gen.values, 0 ≤ g) ∧
      0 ≤ lower ∧ lower ≤ 1 := by
    unfold Renewable.new at hm
    cases gen <;>
    · simp only at hm
      split at hm
      · simp at hm
      · rename_i hne
        simp only [bind_ok, pyValidate_ok] at hm
        obtain ⟨_, hg, hm⟩ := hm
        split at hm
        · simp at hm
        · rename_i hl
          simp only [bind_ok, pyValidate_ok, Except.ok.injEq] at hm
          obtain ⟨_, _, rfl⟩ := hm
          rw [not_not] at hl
          exact ⟨rfl, rfl, rfl, rfl, by simp [GenInput.values], rfl, by simpa [GenInput.values] using hg, hl.1, hl.2⟩
  obtain ⟨hn, hfr, hlow, hgen, harr, hidx, hpos, hl0, hl1⟩ := hcf
  rw [hfr] at H
  have hfit : ∃ d, s.assets.Perm (.renewable d :: if withSpill then [.spill { name := "spill" }] else []) ∧ d.name = "renewable-generator" ∧
      d.lowerBoundPct = lower ∧ d.isArray = true ∧ d.generation.length = s.data.n ∧ ∀ i < s.data.n, d.generation[i]? = cyclic gen.values i := by
    obtain ⟨b, hb, hperm⟩ := H.assets
    obtain ⟨d, rfl, h1, h2, h3⟩ := (hb : ∃ d, b = .renewable d ∧ d.name = c.name ∧ d.lowerBoundPct = c.lowerBoundPct ∧
      (c.idxLen = c.generation.length → ∀ i < s.data.n, d.generation[i]? = cyclic c.generation i))
    obtain ⟨l, hl, hnew⟩ := H.built
    have hd : Asset.renewable d ∈ s.assets := hperm.mem_iff.2 List.mem_cons_self
    obtain ⟨x, hx, hxf⟩ := (mapE_mem (site_new hnew).assets).1 hd
    have hxc : x = .renewable c := by
      rcases List.mem_cons.1 (hl.mem_iff.1 hx) with h | h
      · exact h
      · cases withSpill <;> simp at h
        subst h
        simp [Asset.fit] at hxf
    subst hxc
    have hlen := (fit_series hxf (by rintro c' hc'; rw [Asset.renewable.injEq] at hc'; rw [← hc', hidx, hgen])).2
    refine ⟨d, hperm, h1.trans hn, h2.trans hlow, ?_, hlen, fun i hi => hgen ▸ h3 (by rw [hidx, hgen]) i hi⟩
    simp only [Asset.fit] at hxf
    split at hxf
    · rename_i hn1
      rw [Except.ok.injEq, Asset.renewable.injEq] at hxf
      subst hxf
      cases ha : c.isArray with
      | true => rfl
      | false =>
        obtain ⟨e1, e2⟩ := harr ha
        obtain ⟨l, hl⟩ := hone (by rw [← hn1, hidx, e1])
        exact absurd hl (e2 l)
    · simp only [bind_ok, Except.ok.injEq, Asset.renewable.injEq] at hxf
      obtain ⟨g, _, rfl⟩ := hxf
      rfl
  obtain ⟨d, hperm, hdn, hdl, hda, hdlen, hdg⟩ := hfit
  have hbn : (Asset.renewable d).name = "renewable-generator" := hdn
  have hdpos : ∀ g ∈ d.generation, 0 ≤ g := by
    intro g hg
    obtain ⟨i, hi⟩ := List.mem_iff_getElem?.1 hg
    rw [hdg i (hdlen ▸ (List.getElem?_eq_some_iff.1 hi).1)] at hi
    exact hpos g (List.mem_of_getElem? hi)
  refine alone_returns H hperm ⟨?_, ⟨hdpos, hdl ▸ hl0⟩, ⟨hda, hdlen, hdl ▸ hl0, hdl ▸ hl1, hdpos⟩, ⟨by simp, by simp⟩, .inr ?_⟩ ?_ hcalm hf h0 ?_
    (.inr ⟨hheat, ?_⟩) hobj
  · simp only [Asset.WellNamed, hdn]; decide +kernel
  · rw [hbn]; decide +kernel
  · cases withSpill <;> simp [Beside]
  · rw [hbn]; cases withSpill <;> decide +kernel
  · rcases hgrid with h | h
    · left; rw [h]; simp
    · refine .inr fun i hi => ?_
      have hil : i < d.generation.length := hdlen ▸ hi
      have hx := List.getElem?_eq_getElem hil
      have := h i hi d.generation[i] (by rw [← hdg i hi, hx]; rfl)
      have e : (Asset.renewable d).restDemand i = -(d.generation[i] * lower) := by
        simp only [Asset.restDemand, hdl, List.getD_eq_getElem?_getD, hx, Option.getD_some]
      rw [e, ← sub_eq_add_neg]
      exact this

/-- C67: a stand-alone CHP that uses gas comes back with a spill whatever the loads; without heat loads a grid connection that carries the load is enough. -/
theorem C67_chp {c : ChpCfg} {ee pmax pmin he le freqMins : ℚ} (hm : Chp.new ee pmax pmin he le "chp" freqMins = .ok c)
    (hs : standaloneChp c args withSpill = .ok (some s)) (hcalm : Calm s args flags S) (h0 : 0 < s.data.n) (hf : 0 ≤ freqMins)
    (hp : 0 ≤ pmax) (heff : 0 < ee ∨ he ≠ 0 ∨ le ≠ 0)
    (hgrid : withSpill = true ∨ (∀ x ∈ s.data.htLoad ++ s.data.ltLoad ++ s.data.ltGeneration, x = 0) ∧
      ∀ i < s.data.n, s.data.electricLoad.getD i 0 ≤ args.importLimit * freqMins / 60)
    (hobj : name = "price" ∨ name = "carbon") : ∃ r, optimizeStandalone (some s) (.str name) flags S = .ok r ∧ r.feasible = true := by
  have H := C58_chp hs
  have hcf : c.name = "chp" ∧ c.freqMins = freqMins ∧ (Asset.chp c).CanRest ⟨freqMins⟩ s.data.n ∧ (Asset.chp c).Sensible := by
    simp only [Chp.new, bind_ok, pyValidate_ok, Except.ok.injEq] at hm
    obtain ⟨_, _, rfl⟩ := hm
    exact ⟨rfl, rfl, mw_nonneg hp hf, heff⟩
  obtain ⟨hn, hfr, hrest, hsens⟩ := hcf
  rw [hfr] at H
  obtain ⟨b, hb, hperm⟩ := H.assets
  simp only [OnSite] at hb
  subst hb
  have hbn : (Asset.chp c).name = "chp" := hn
  refine alone_returns H hperm ⟨?_, hsens, hrest, ⟨by simp, by simp⟩, .inr ?_⟩ ?_ hcalm hf h0 ?_ ?_ hobj
  · simp only [Asset.WellNamed, hn]; decide +kernel
  · rw [hbn]; decide +kernel
  · cases withSpill <;> simp [Beside]
  · rw [hbn]; cases withSpill <;> decide +kernel
  · rcases hgrid with h | ⟨hheat, h⟩
    · left; rw [h]; simp
    · exact .inr ⟨hheat, .inr fun i hi => calm_grid hcalm hf (le_refl _) (by simpa [Asset.restDemand] using h i hi)⟩

/-- C67: a stand-alone heat pump comes back with a spill and a valve whatever the loads; without heat loads a spill or a grid connection that carries the load
is enough. -/
theorem C67_heatPump {c : HeatPumpCfg} {cop power freqMins : ℚ} {withValve : Bool} (hm : HeatPump.new cop power "heat-pump" freqMins withValve = .ok c)
    (hs : standaloneHeatPump c args withSpill = .ok (some s)) (hcalm : Calm s args flags S) (h0 : 0 < s.data.n) (hf : 0 ≤ freqMins) (hp : 0 ≤ power)
    (hgrid : (withSpill = true ∧ withValve = true) ∨ (∀ x ∈ s.data.htLoad ++ s.data.ltLoad ++ s.data.ltGeneration, x = 0) ∧
      (withSpill = true ∨ ∀ i < s.data.n, s.data.electricLoad.getD i 0 ≤ args.importLimit * freqMins / 60))
    (hobj : name = "price" ∨ name = "carbon") : ∃ r, optimizeStandalone (some s) (.str name) flags S = .ok r ∧ r.feasible = true := by
  have H := C58_heatPump hs
  have hcf : c.name = "heat-pump" ∧ c.freqMins = freqMins ∧ c.includeValve = withValve ∧ (Asset.heatPump c).CanRest ⟨freqMins⟩ s.data.n := by
    unfold HeatPump.new at hm
    split at hm
    · simp at hm
    · rw [Except.ok.injEq] at hm
      subst hm
      exact ⟨rfl, rfl, rfl, mw_nonneg hp hf⟩
  obtain ⟨hn, hfr, hval, hrest⟩ := hcf
  rw [hfr, hval] at H
  obtain ⟨b, hb, hperm⟩ := H.assets
  simp only [OnSite] at hb
  subst hb
  have hbn : (Asset.heatPump c).name = "heat-pump" := hn
  refine alone_returns H hperm ⟨?_, trivial, hrest, ⟨by simp, by simp⟩, .inr ?_⟩ ?_ hcalm hf h0 ?_ ?_ hobj
  · simp only [Asset.WellNamed, hn]; decide +kernel
  · rw [hbn]; decide +kernel
  · cases withSpill <;> cases withValve <;> simp [Beside]
  · rw [hbn]; cases withSpill <;> cases withValve <;> decide +kernel
  · rcases hgrid with ⟨h, h'⟩ | ⟨hheat, h⟩
    · left; rw [h, h']; simp
    · refine .inr ⟨hheat, ?_⟩
      rcases h with h | h
      · left; rw [h]; simp
      · exact .inr fun i hi => calm_grid hcalm hf (le_refl _) (by simpa [Asset.restDemand] using h i hi)

end

section
variable {a : EvArgs} {c : EvsCfg} {args : SiteArgs} {withSpill : Bool} {s : Site} {flags : Flags} {S : Solver} {name : String}

/-- C67: a sane fleet, stand-alone under its default name, comes back if no heat is asked for and the grid connection carries the load and the demand of all
vehicles plugged in, or there is a spill. -/
theorem C67_evs (hm : a.make = .ok c) (hs : standaloneEvs c args withSpill = .ok (some s)) (hname : a.name = "evs") (ha : a.Sane)
    (hcalm : Calm s args flags S) (hheat : ∀ x ∈ s.data.htLoad ++ s.data.ltLoad ++ s.data.ltGeneration, x = 0)
    (hgrid : withSpill = true ∨ ∀ i < s.data.n, s.data.electricLoad.getD i 0 + a.pluggedDemand i ≤ args.importLimit * a.freqMins / 60)
    (hobj : name = "price" ∨ name = "carbon") : ∃ r, optimizeStandalone (some s) (.str name) flags S = .ok r ∧ r.feasible = true := by
  have M := ev_made hm
  obtain ⟨H, hv'⟩ := C58_evs hs
  have hv := validateEv_ok.2 hv'
  have hcn : c.name = "evs" := M.name.trans hname
  have served := evs_served hm ha hv
  have hlen : s.data.n = c.chargeEvents.length := hv'.1
  rw [made_freq hm] at H
  obtain ⟨b, hb, hperm⟩ := H.assets
  simp only [OnSite] at hb
  subst hb
  have hbn : (Asset.evs c).name = "evs" := hcn
  refine alone_returns H hperm ⟨evs_made_wellNamed hm, trivial, served, ⟨by simp, by simp⟩, .inl ⟨c, rfl⟩⟩ ?_ hcalm ha.freq served.horizon ?_
    (.inr ⟨hheat, ?_⟩) hobj
  · cases withSpill <;> simp [Beside]
  · rw [hbn]; cases withSpill <;> decide +kernel
  · rcases hgrid with h | h
    · left; rw [h]; simp
    · refine .inr fun i hi => ?_
      obtain ⟨d1, d2⟩ := evs_restDemand hm ha (hlen ▸ hi)
      exact calm_grid hcalm ha.freq d1 (by linarith [h i hi])

end

/-! ### The hypotheses are met -/

theorem alone_example {x : Res (Option Site)} {P : Site → Bool} (h : (match x with
    | .ok (some s) => P s
    | _ => false) = true) : ∃ s, x = .ok (some s) ∧ P s = true := by
  cases x with
  | error e => simp at h
  | ok y =>
    cases y with
    | none => simp at h
    | some s => exact ⟨s, rfl, h⟩

/-- Three hours with electric loads and a connection of 5 MW. -/
def demoAlone : SiteArgs where
  raw := { electricityPrices := prices [10, -100, 30], electricLoad := prices [1, 5, 0] }
  importLimit := 5
  exportLimit := 3

/-- The same with heat loads. -/
def demoAloneHeat : SiteArgs where
  raw := { electricityPrices := prices [10, -100, 30], electricLoad := prices [1, 50, 0], htLoad := prices [3, 20000, 0], ltLoad := prices [0, 7, 8] }
  importLimit := 5
  exportLimit := 3

/-- What C67 asks of the data, without heat loads: an interval, non-negative loads that the connection carries, no heat. -/
def demoAloneTest (s : Site) : Bool :=
  decide (s.data.n = 3) && (s.data.electricLoad ++ s.data.htLoad ++ s.data.ltLoad ++ s.data.ltGeneration).all (fun x => decide (0 ≤ x)) &&
    (s.data.htLoad ++ s.data.ltLoad ++ s.data.ltGeneration).all (fun x => decide (x = 0)) && s.data.electricLoad.all (fun x => decide (x ≤ 5 * 60 / 60))

/-- A battery that starts with more than it can hold, and a wind farm that must deliver half of its two repeated values. -/
example : ∃ (c : BatteryCfg) (s : Site) (w : RenewableCfg) (s' : Site), Battery.new 2 none 4 (9/10) 6 none "battery" 60 = .ok c ∧
    standaloneBattery c demoAlone false = .ok (some s) ∧ demoAloneTest s = true ∧
    Renewable.new (.array [4, 2]) (1/2) "renewable-generator" 60 = .ok w ∧ standaloneRenewable w demoAlone false = .ok (some s') ∧ demoAloneTest s' = true ∧
    (∀ i < 3, ∀ g ∈ cyclic (GenInput.array [4, 2]).values i, -(3 * 60 / 60 : ℚ) ≤ [1, 5, 0].getD i 0 - g * (1/2) ∧ [1, 5, 0].getD i 0 - g * (1/2) ≤ 5 * 60 / 60) := by
  obtain ⟨s, hs, ht⟩ := alone_example (x := standaloneBattery ⟨"battery", 2, 2, 4, 9/10, 4, 4, 60⟩ demoAlone false) (P := demoAloneTest) (by decide +kernel)
  obtain ⟨s', hs', ht'⟩ := alone_example (x := standaloneRenewable ⟨"renewable-generator", 1/2, [4, 2], true, 2, 60⟩ demoAlone false) (P := demoAloneTest)
    (by decide +kernel)
  refine ⟨_, s, _, s', ?_, hs, ht, ?_, hs', ht', ?_⟩
  · decide +kernel
  · decide +kernel
  · intro i hi
    have : i = 0 ∨ i = 1 ∨ i = 2 := by omega
    rcases this with rfl | rfl | rfl <;> simp [cyclic, GenInput.values] <;> norm_num

/-- A CHP and a heat pump with a spill, with heat loads nothing on the site can serve. -/
example : ∃ (c : ChpCfg) (s : Site) (h : HeatPumpCfg) (s' : Site), Chp.new (2/5) 100 50 (1/5) (1/5) "chp" 60 = .ok c ∧
    standaloneChp c demoAloneHeat true = .ok (some s) ∧ 0 < s.data.n ∧
    HeatPump.new 3 1 "heat-pump" 60 true = .ok h ∧ standaloneHeatPump h demoAloneHeat true = .ok (some s') ∧ 0 < s'.data.n := by
  obtain ⟨s, hs, ht⟩ := alone_example (x := standaloneChp ⟨"chp", 100, 50, 2/5, 1/5, 1/5, 60⟩ demoAloneHeat true) (P := fun s => decide (0 < s.data.n))
    (by decide +kernel)
  obtain ⟨s', hs', ht'⟩ := alone_example (x := standaloneHeatPump ⟨"heat-pump", 3, 1, 60, true⟩ demoAloneHeat true) (P := fun s => decide (0 < s.data.n))
    (by decide +kernel)
  exact ⟨_, s, _, s', by decide +kernel, hs, by simpa using ht, by decide +kernel, hs', by simpa using ht'⟩

/-- A fleet of two vehicles; the fleet and the load need the whole connection in the second hour. -/
def demoFleet : EvArgs where
  chargeEvents := [[1, 1, 0], [0, 1, 1]]
  powers := [3, 1/2]
  capacities := [4, 2]
  efficiency := 9/10
  turndown := 1/10
  name := "evs"
  freqMins := 60

example : demoFleet.Sane :=
  ⟨by decide +kernel, by decide +kernel, by norm_num [demoFleet], by simp [demoFleet], by decide +kernel, by norm_num [demoFleet]⟩

example : ∃ (c : EvsCfg) (s : Site), demoFleet.make = .ok c ∧ standaloneEvs c { raw := { electricityPrices := prices [10, -100, 30], electricLoad := prices [1, 5, 0] }, importLimit := 11 } false = .ok (some s) ∧
    (∀ i < s.data.n, s.data.electricLoad.getD i 0 + demoFleet.pluggedDemand i ≤ 11 * 60 / 60) := by
  have hm : ∃ c, demoFleet.make = .ok c := by
    have : (demoFleet.make).toOption.isSome = true := by decide +kernel
    cases h : demoFleet.make with
    | error e => rw [h] at this; simp [Except.toOption] at this
    | ok c => exact ⟨c, rfl⟩
  obtain ⟨c, hc⟩ := hm
  obtain ⟨s, hs, ht⟩ := alone_example (x := standaloneEvs c { raw := { electricityPrices := prices [10, -100, 30], electricLoad := prices [1, 5, 0] }, importLimit := 11 } false)
    (P := fun s => decide (∀ i < s.data.n, s.data.electricLoad.getD i 0 + demoFleet.pluggedDemand i ≤ 11 * 60 / 60)) (by
      have e : (match demoFleet.make with
        | .ok c => (match standaloneEvs c { raw := { electricityPrices := prices [10, -100, 30], electricLoad := prices [1, 5, 0] }, importLimit := 11 } false with
          | .ok (some s) => decide (∀ i < s.data.n, s.data.electricLoad.getD i 0 + demoFleet.pluggedDemand i ≤ 11 * 60 / 60)
          | _ => false)
        | _ => false) = true := by decide +kernel
      rw [hc] at e
      exact e)
  exact ⟨c, s, hc, hs, by simpa using ht⟩

end EPL
