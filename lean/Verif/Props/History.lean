/-
C50, C51, C52, C53, C58: names, repeated calls, shared assets, stand-alone assets.
-/
import Verif.Props.Results
import Verif.Props.Inputs
import Verif.Props.Assets
import Verif.Spec.DemoCustom
import Verif.Spec.Names

namespace EPL

/-! ### C50 -/

/-- Two assets with the same name: `optimize` raises, whatever the solver would answer. -/
theorem C50_duplicates {s : Site} (h : ¬ (s.assets.map Asset.name).Nodup) (objective : Objective) (flags : Flags) (S : Solver) :
    s.optimize objective flags S = .error (.assertion "Asset names must be unique") := by
  have : noDup (s.assets.map Asset.name) = false := by
    unfold noDup
    exact decide_eq_false h
  simp only [Site.optimize, Site.program, this, pyAssert]
  rfl

/-- When `optimize` returns, the names of the assets are distinct. -/
theorem C50_distinct {s : Site} {objective : Objective} {flags : Flags} {S : Solver} {r : SimResult}
    (h : s.optimize objective flags S = .ok r) : s.assets.Pairwise (fun a b => a.name ≠ b.name) := by
  by_contra hn
  rw [← List.pairwise_map (f := Asset.name) (R := fun x y => x ≠ y)] at hn
  rw [C50_duplicates hn] at h
  simp at h

/-! ### C51 -/

/-- When `optimize` returns, different variables of its program have different names for the solver. -/
theorem C51_distinct {s : Site} {objective : Objective} {flags : Flags} {S : Solver} {r : SimResult} {iv : IVars} {p : Prob}
    (h : s.optimize objective flags S = .ok r) (hp : s.program objective flags = .ok (iv, p)) :
    ∀ v ∈ p.vars, ∀ w ∈ p.vars, v.id.solverName = w.id.solverName → v.id = w.id := by
  simp only [Site.optimize, hp, ok_bind, Prob.solve, bind_ok] at h
  obtain ⟨_, ⟨_, ha, _⟩, _⟩ := h
  have hnd : p.noDuplicateVariables = true := by
    by_contra hc
    rw [Bool.not_eq_true] at hc
    rw [hc] at ha
    simp [pyAssert] at ha
  unfold Prob.noDuplicateVariables noDup at hnd
  rw [decide_eq_true_iff] at hnd
  intro v hv w hw he
  have hv' : v.id ∈ (p.vars.map LpVar.id).dedup := List.mem_dedup.2 (List.mem_map_of_mem hv)
  have hw' : w.id ∈ (p.vars.map LpVar.id).dedup := List.mem_dedup.2 (List.mem_map_of_mem hw)
  exact List.inj_on_of_nodup_map hnd hv' hw' he

/-- Two different variables with the same name for the solver: `optimize` raises. -/
theorem C51_rejected {s : Site} {objective : Objective} {flags : Flags} {iv : IVars} {p : Prob}
    (hp : s.program objective flags = .ok (iv, p)) {v w : LpVar} (hv : v ∈ p.vars) (hw : w ∈ p.vars) (hne : v.id ≠ w.id)
    (he : v.id.solverName = w.id.solverName) (S : Solver) : ∀ r, s.optimize objective flags S ≠ .ok r :=
  fun _ h => hne (C51_distinct h hp v hv w hw he)

/-- Two batteries, two boilers, two CHPs, two heat pumps or two valves. -/
inductive SameType : Asset → Asset → Prop
  | battery {c d} : SameType (.battery c) (.battery d)
  | boiler {c d} : SameType (.boiler c) (.boiler d)
  | chp {c d} : SameType (.chp c) (.chp d)
  | heatPump {c d} : SameType (.heatPump c) (.heatPump d)
  | valve {c d} : SameType (.valve c) (.valve d)

/-- A variable of an asset that occurs in every program. -/
def Asset.marker (i : Nat) : Asset → VarId
  | .battery c => .asset c.name "electric_charge_mwh" i
  | .boiler c => .asset c.name "gas_consumption_mwh" i
  | .chp c => .asset c.name "high_temperature_generation_mwh" i
  | .heatPump c => .tagged "low_temperature_load_mwh" i c.name
  | .valve c => .asset c.name "high_temperature_load_mwh" i
  | a => .site a.name i

theorem marker_mem {s : Site} {objective : Objective} {flags : Flags} {iv : IVars} {p : Prob}
    (hp : s.program objective flags = .ok (iv, p)) {i : Nat} (hi : i < s.data.n) {a b : Asset} (ha : a ∈ s.assets) (hab : SameType a b) :
    ∃ v ∈ p.vars, v.id = a.marker i := by
  have hpr := program_spec hp
  cases hab with
  | @battery c _ =>
    refine ⟨(c.oneInterval i s.freq).charge, prob_vars_iff.2 (.inl ⟨_, hpr.asset hi ha
      (c := (Expr.var (c.oneInterval i s.freq).initial + .var (c.oneInterval i s.freq).charge - .var (c.oneInterval i s.freq).discharge -
        .var (c.oneInterval i s.freq).loss).eqC (.var (c.oneInterval i s.freq).final)) ?_, ?_⟩), rfl⟩
    · simp [Asset.withinList, BatteryCfg.withinList, constrainBatteryElectricityBalance]
    · simp
  | @boiler c _ =>
    refine ⟨(c.oneInterval i s.freq).gas, prob_vars_iff.2 (.inl ⟨_, hpr.asset hi ha
      (c := (Expr.var (c.oneInterval i s.freq).gas).eqC (Expr.var (c.oneInterval i s.freq).heat * (1 / c.efficiency))) ?_, ?_⟩), rfl⟩
    · simp [Asset.withinList, BoilerCfg.withinList]
    · simp
  | @chp c _ =>
    refine ⟨(c.oneInterval i s.freq).ht, prob_vars_iff.2 (.inl ⟨_, hpr.asset hi ha
      (c := (Expr.var (c.oneInterval i s.freq).ht).eqC (Expr.var (c.oneInterval i s.freq).gas * c.htEfficiency)) ?_, ?_⟩), rfl⟩
    · simp [Asset.withinList, ChpCfg.withinList]
    · simp
  | @heatPump c _ =>
    refine ⟨(c.oneInterval i s.freq).ltLoad, prob_vars_iff.2 (.inl ⟨_, hpr.asset hi ha
      (c := (Expr.var (c.oneInterval i s.freq).ltLoad + .var (c.oneInterval i s.freq).load).eqC (.var (c.oneInterval i s.freq).ht)) ?_, ?_⟩), rfl⟩
    · simp [Asset.withinList, HeatPumpCfg.withinList]
    · simp
  | @valve c _ =>
    refine ⟨(c.oneInterval i).htLoad, prob_vars_iff.2 (.inl ⟨_, hpr.asset hi ha
      (c := (Expr.var (c.oneInterval i).htLoad).eqC (.var (c.oneInterval i).lt)) ?_, ?_⟩), rfl⟩
    · simp [Asset.withinList, ValveCfg.withinList]
    · simp

/-- Two assets of the same type whose names differ only in characters the solver replaces: `optimize` raises instead of merging their
variables. -/
theorem C51_names {s : Site} {a b : Asset} (ha : a ∈ s.assets) (hb : b ∈ s.assets) (hab : SameType a b) (hne : a.name ≠ b.name)
    (he : solverChars a.name = solverChars b.name) (hn : 0 < s.data.n) (objective : Objective) (flags : Flags) (S : Solver) :
    ∀ r, s.optimize objective flags S ≠ .ok r := by
  intro r h
  obtain ⟨p, hr⟩ := optimize_ran h
  obtain ⟨v, hv, hvi⟩ := marker_mem hr.program hn ha hab
  have hba : SameType b a := by cases hab <;> constructor
  obtain ⟨w, hw, hwi⟩ := marker_mem hr.program hn hb hba
  refine C51_rejected hr.program hv hw ?_ ?_ S r h
  · rw [hvi, hwi]
    cases hab <;> simpa [Asset.marker, Asset.name] using hne
  · rw [hvi, hwi]
    have e : ∀ name, solverChars name = name.toList.map sanitizeChar := by
      intro name
      have : "-+[] >/".toList = ['-', '+', '[', ']', ' ', '>', '/'] := by decide
      unfold solverChars sanitizeChar
      rw [this]
    rw [e, e] at he
    cases hab <;> simp only [Asset.name] at he <;>
      simp only [Asset.marker, VarId.solverName, VarId.pyName, String.toList_append, List.map_append, he]

theorem siteTest {x : Res Site} {P : Site → Bool} (h : (match x with | .ok s => P s | .error _ => false) = true) :
    ∃ s, x = .ok s ∧ P s = true := by
  cases x with
  | error e => simp at h
  | ok s => exact ⟨s, rfl, h⟩

/-- "battery-1" and "battery_1" cannot live on one site. -/
example : ∃ s, Site.new [.battery ⟨"battery-1", 2, 2, 4, 1, 0, 0, 60⟩, .battery ⟨"battery_1", 2, 2, 4, 1, 0, 0, 60⟩]
    { electricityPrices := prices [10, 20] } = .ok s ∧ ∀ S r, s.optimize (.str "price") {} S ≠ .ok r := by
  obtain ⟨s, hs, h⟩ := siteTest (x := Site.new [.battery ⟨"battery-1", 2, 2, 4, 1, 0, 0, 60⟩, .battery ⟨"battery_1", 2, 2, 4, 1, 0, 0, 60⟩]
    { electricityPrices := prices [10, 20] }) (P := fun s => decide (s.assets = [.battery ⟨"battery-1", 2, 2, 4, 1, 0, 0, 60⟩,
      .battery ⟨"battery_1", 2, 2, 4, 1, 0, 0, 60⟩]) && decide (s.data.n = 2)) (by decide +kernel)
  simp only [Bool.and_eq_true, decide_eq_true_eq] at h
  refine ⟨s, hs, fun S => C51_names (a := .battery ⟨"battery-1", 2, 2, 4, 1, 0, 0, 60⟩) (b := .battery ⟨"battery_1", 2, 2, 4, 1, 0, 0, 60⟩)
    (by rw [h.1]; simp) (by rw [h.1]; simp) .battery (by decide) (by decide) (by rw [h.2]; decide) _ _ S⟩

/-! ### C52 -/

/-- A call of `optimize` leaves the assets and what the sites are made of as they were. -/
theorem optimize_step (S : Solver) (w : World) (k : Nat) (objective : Objective) (flags : Flags) :
    (w.step S (.optimize k objective flags)).1.assets = w.assets ∧
    ∀ j : Nat, ((w.step S (.optimize k objective flags)).1.sites[j]?).map (fun o => w.deref o) = (w.sites[j]?).map (fun o => w.deref o) := by
  unfold World.step
  simp only
  cases hk : w.sites[k]? with
  | none => exact ⟨rfl, fun _ => rfl⟩
  | some o =>
    refine ⟨rfl, fun j => ?_⟩
    simp only [List.getElem?_set]
    by_cases hj : k = j
    · subst hj
      have hlt : k < w.sites.length := by
        by_contra hc
        rw [List.getElem?_eq_none (by omega)] at hk
        simp at hk
      simp only [if_true, hlt, hk, Option.map_some]
      rfl
    · simp only [hj, if_false]

theorem deref_assets {w w' : World} (h : w'.assets = w.assets) (o : SiteObj) : w'.deref o = w.deref o := by
  unfold World.deref
  rw [h]

/-- Any sequence of calls of `optimize`, on any sites and in any order of objectives and flags: every call returns what it would have
returned as the first one. -/
theorem C52_repeatable (S : Solver) (w : World) (ops : List Op) (hops : ∀ op ∈ ops, ∃ k objective flags, op = .optimize k objective flags) :
    (w.run S ops).2 = ops.map (fun op => (w.step S op).2) := by
  have key : ∀ (ops : List Op) (w' : World), w'.assets = w.assets →
      (∀ j : Nat, (w'.sites[j]?).map (fun o => w.deref o) = (w.sites[j]?).map (fun o => w.deref o)) →
      (∀ op ∈ ops, ∃ k objective flags, op = .optimize k objective flags) → (w'.run S ops).2 = ops.map (fun op => (w.step S op).2) := by
    intro ops
    induction ops with
    | nil => intro w' _ _ _; rfl
    | cons op ops ih =>
      intro w' ha hs hops
      obtain ⟨k, objective, flags, rfl⟩ := hops op List.mem_cons_self
      have hst := optimize_step S w' k objective flags
      simp only [World.run, List.map_cons]
      rw [ih (w'.step S (.optimize k objective flags)).1 (hst.1.trans ha) (fun j => by
        have := hst.2 j
        simp only [deref_assets ha] at this
        rw [this, hs j]) (fun op hop => hops op (List.mem_cons_of_mem _ hop))]
      congr 1
      have hk := hs k
      unfold World.step
      simp only
      cases h1 : w'.sites[k]? with
      | none =>
        rw [h1] at hk
        cases h2 : w.sites[k]? with
        | none => rfl
        | some o => rw [h2] at hk; simp at hk
      | some o =>
        rw [h1] at hk
        cases h2 : w.sites[k]? with
        | none => rw [h2] at hk; simp at hk
        | some o2 =>
          rw [h2] at hk
          simp only [Option.map_some, Option.some.injEq] at hk
          simp only [deref_assets ha, hk]
  exact key ops w rfl (fun _ => rfl) hops

theorem writeBack_length (assets : List Asset) (ws : List (Nat × Asset)) : (writeBack assets ws).length = assets.length := by
  induction ws generalizing assets with
  | nil => rfl
  | cons x ws ih => rw [writeBack, ih, List.length_set]

/-- What is in a place after writing back: the old asset, or one of those written. -/
theorem writeBack_get (assets : List Asset) (ws : List (Nat × Asset)) (r : Nat) :
    ((writeBack assets ws)[r]? = assets[r]? ∧ ∀ a, (r, a) ∉ ws) ∨ ∃ a, (r, a) ∈ ws ∧
      (writeBack assets ws)[r]? = (assets[r]?).map (fun _ => a) := by
  induction ws generalizing assets with
  | nil => exact .inl ⟨rfl, by simp⟩
  | cons x ws ih =>
    rw [writeBack]
    rcases ih (assets.set x.1 x.2) with ⟨h, hn⟩ | ⟨a, ha, h⟩
    · by_cases hx : x.1 = r
      · subst hx
        refine .inr ⟨x.2, List.mem_cons_self, ?_⟩
        rw [h, List.getElem?_set_self']
        rfl
      · refine .inl ⟨by rw [h, List.getElem?_set_ne hx], ?_⟩
        intro a ha
        rcases List.mem_cons.1 ha with ha | ha
        · exact hx (by rw [← ha])
        · exact hn a ha
    · refine .inr ⟨a, List.mem_cons_of_mem _ ha, ?_⟩
      rw [h]
      by_cases hx : x.1 = r
      · subst hx
        rw [List.getElem?_set_self']
        cases assets[x.1]? <;> rfl
      · rw [List.getElem?_set_ne hx]

theorem fitPrefix_zip {n : Nat} {refs : List Nat} {assets : List Asset} (hl : ∀ r ∈ refs, r < assets.length) {r : Nat} {a : Asset}
    (h : (r, a) ∈ refs.zip (fitPrefix n (refs.filterMap (fun r => assets[r]?)))) :
    ∃ a₀, assets[r]? = some a₀ ∧ a₀.fit n = .ok a := by
  induction refs with
  | nil => simp at h
  | cons x refs ih =>
    have hx := hl x List.mem_cons_self
    rw [List.filterMap_cons, List.getElem?_eq_getElem hx] at h
    simp only [fitPrefix] at h
    split at h
    · rename_i a' ha'
      rw [List.zip_cons_cons] at h
      rcases List.mem_cons.1 h with h | h
      · cases h
        exact ⟨_, List.getElem?_eq_getElem hx, ha'⟩
      · exact ih (fun r hr => hl r (List.mem_cons_of_mem _ hr)) h
    · simp at h

theorem fitPrefix_ok {n : Nat} {as bs : List Asset} (h : mapE (Asset.fit n) as = .ok bs) : fitPrefix n as = bs := by
  induction as generalizing bs with
  | nil => simp [mapE] at h; rw [h]; rfl
  | cons a as ih =>
    simp only [mapE, bind_ok, Except.ok.injEq] at h
    obtain ⟨b, hb, bs', hbs, rfl⟩ := h
    rw [fitPrefix, hb]
    simp only
    rw [ih hbs]

theorem length_of_new {assets : List Asset} {args : SiteArgs} {freqMins : ℚ} {s : Site}
    (h : Site.new assets args.raw freqMins args.importLimit args.exportLimit args.constraints args.kwargs = .ok s) :
    args.length = .ok s.data.n := by
  unfold Site.new at h
  unfold SiteArgs.length
  by_cases hk : (args.kwargs.any (fun kw => siteParams.contains kw.1) || !noDup (args.kwargs.map Prod.fst)) = true
  · rw [if_pos hk] at h; simp at h
  · rw [if_neg hk] at h ⊢
    simp only [bind_ok, Except.ok.injEq] at h ⊢
    obtain ⟨d, hd, e, he, as, has, c, hc, rfl⟩ := h
    exact ⟨d, hd, e, he, rfl⟩

/-- The asset objects after a site was built: the fitted ones for its references, the old ones elsewhere. -/
theorem heap_get {n : Nat} {assets bs : List Asset} {refs : List Nat} (hl : ∀ r ∈ refs, r < assets.length)
    (h : mapE (Asset.fit n) (refs.filterMap (fun r => assets[r]?)) = .ok bs) {r : Nat} (hr : r ∈ refs) :
    ∃ a₀ a, assets[r]? = some a₀ ∧ a₀.fit n = .ok a ∧
      (writeBack assets (refs.zip (fitPrefix n (refs.filterMap (fun r => assets[r]?)))))[r]? = some a := by
  rcases writeBack_get assets (refs.zip (fitPrefix n (refs.filterMap (fun r => assets[r]?)))) r with ⟨hleft, hn⟩ | ⟨a, ha, hg⟩
  · exfalso
    have hlen : refs.length = (fitPrefix n (refs.filterMap (fun r => assets[r]?))).length := by
      rw [fitPrefix_ok h, mapE_length h]
      clear h hn hr hleft
      induction refs with
      | nil => rfl
      | cons x refs ih =>
        have hx := hl x List.mem_cons_self
        rw [List.filterMap_cons, List.getElem?_eq_getElem hx]
        simp only [List.length_cons]
        rw [← ih fun r hr => hl r (List.mem_cons_of_mem _ hr)]
    have : ∀ (refs : List Nat) (as : List Asset), refs.length = as.length → r ∈ refs → ∃ a, (r, a) ∈ refs.zip as := by
      intro refs
      induction refs with
      | nil => simp
      | cons x refs ih =>
        intro as hla hm
        cases as with
        | nil => simp at hla
        | cons a as =>
          rcases List.mem_cons.1 hm with hm | hm
          · exact ⟨a, by rw [hm]; exact List.mem_cons_self⟩
          · obtain ⟨b, hb⟩ := ih as (by simpa using hla) hm
            exact ⟨b, List.mem_cons_of_mem _ hb⟩
    obtain ⟨a, ha⟩ := this _ _ hlen hr
    exact hn a ha
  · obtain ⟨a₀, h1, h2⟩ := fitPrefix_zip hl ha
    exact ⟨a₀, a, h1, h2, by rw [hg, h1]; rfl⟩

/-- What a successful `Site(...)` leaves behind: the new site object stands for the site the constructor built, so that its first
call of `optimize` is a call on a fresh site. -/
theorem C52_fresh (S : Solver) (w : World) (refs : List Nat) (args : SiteArgs) (freqMins : ℚ)
    (h : (w.step S (.newSite refs args freqMins)).2 = .done) :
    ∃ s o, Site.new (refs.filterMap (fun r => w.assets[r]?)) args.raw freqMins args.importLimit args.exportLimit args.constraints
        args.kwargs = .ok s ∧
      (w.step S (.newSite refs args freqMins)).1.sites = w.sites ++ [o] ∧
      (w.step S (.newSite refs args freqMins)).1.deref o = s := by
  unfold World.step at h ⊢
  simp only at h ⊢
  by_cases hr : refs.any (fun r => decide (w.assets.length ≤ r)) = true
  · rw [if_pos hr] at h; cases h
  · rw [if_neg hr] at h ⊢
    have hl : ∀ r ∈ refs, r < w.assets.length := by
      intro r hrm
      by_contra hc
      exact hr (List.any_eq_true.2 ⟨r, hrm, by simpa using hc⟩)
    cases hlen : args.length with
    | error e => rw [hlen] at h; cases h
    | ok n =>
      rw [hlen] at h
      simp only at h ⊢
      cases hs : Site.new (refs.filterMap (fun r => w.assets[r]?)) args.raw freqMins args.importLimit args.exportLimit args.constraints
          args.kwargs with
      | error e => rw [hs] at h; cases h
      | ok s =>
        have hnew := site_new hs
        have hn : n = s.data.n := by
          have := length_of_new hs
          rw [hlen] at this
          exact Except.ok.inj this
        subst hn
        refine ⟨s, _, rfl, rfl, ?_⟩
        have hassets : refs.filterMap (fun r => (writeBack w.assets
            (refs.zip (fitPrefix s.data.n (refs.filterMap (fun r => w.assets[r]?)))))[r]?) = s.assets := by
          have hheap := fun r (hr : r ∈ refs) => heap_get hl hnew.assets hr
          generalize writeBack w.assets (refs.zip (fitPrefix s.data.n (refs.filterMap (fun r => w.assets[r]?)))) = heap at hheap
          have hm := hnew.assets
          clear hr h hs hnew hl hlen
          generalize s.assets = bs at hm
          induction refs generalizing bs with
          | nil => simpa [mapE, eq_comm] using hm
          | cons x refs ih =>
            obtain ⟨a₀, a, h1, h2, h3⟩ := hheap x List.mem_cons_self
            rw [List.filterMap_cons, h1] at hm
            simp only [mapE, h2, ok_bind, bind_ok, Except.ok.injEq] at hm
            obtain ⟨bs', hbs, rfl⟩ := hm
            rw [List.filterMap_cons, h3]
            simp only
            rw [ih (fun r hr => hheap r (List.mem_cons_of_mem _ hr)) bs' hbs]
        unfold World.deref
        simp only [hassets]

/-! ### C53 -/

/-- What building sites may do to an asset: nothing, or a new time series for a renewable generator. -/
inductive Rewritten : Asset → Asset → Prop
  | same (a : Asset) : Rewritten a a
  | renewable {c d : RenewableCfg} : d.name = c.name → d.lowerBoundPct = c.lowerBoundPct → d.freqMins = c.freqMins →
      Rewritten (.renewable c) (.renewable d)

theorem Rewritten.trans {a b c : Asset} (h : Rewritten a b) (h' : Rewritten b c) : Rewritten a c := by
  cases h with
  | same => exact h'
  | renewable h1 h2 h3 =>
    cases h' with
    | same => exact .renewable h1 h2 h3
    | renewable g1 g2 g3 => exact .renewable (g1.trans h1) (g2.trans h2) (g3.trans h3)

theorem fit_rewritten {n : Nat} {a b : Asset} (h : a.fit n = .ok b) : Rewritten a b := by
  cases a with
  | renewable c =>
    simp only [Asset.fit] at h
    by_cases hc : c.idxLen = n
    · rw [if_pos hc] at h
      cases h
      exact .same _
    · rw [if_neg hc] at h
      simp only [bind_ok, Except.ok.injEq] at h
      obtain ⟨g, _, rfl⟩ := h
      exact .renewable rfl rfl rfl
  | _ => simp only [Asset.fit, Except.ok.injEq] at h; rw [← h]; exact .same _

/-- An asset after one operation: as before, or fitted to the length of a site that is built with it. -/
theorem step_asset (S : Solver) (w : World) (op : Op) {r : Nat} {a : Asset} (h : w.assets[r]? = some a) :
    ∃ b, (w.step S op).1.assets[r]? = some b ∧ (b = a ∨ ∃ refs args freqMins n, op = .newSite refs args freqMins ∧ r ∈ refs ∧
      args.length = .ok n ∧ a.fit n = .ok b) := by
  have hlt : r < w.assets.length := by
    by_contra hc
    rw [List.getElem?_eq_none (by omega)] at h
    simp at h
  cases op with
  | newAsset x =>
    refine ⟨a, ?_, .inl rfl⟩
    simp only [World.step]
    rw [List.getElem?_append_left hlt, h]
  | optimize k objective flags => exact ⟨a, by rw [(optimize_step S w k objective flags).1, h], .inl rfl⟩
  | newSite refs args freqMins =>
    unfold World.step
    simp only
    by_cases hr : refs.any (fun r => decide (w.assets.length ≤ r)) = true
    · rw [if_pos hr]
      exact ⟨a, h, .inl rfl⟩
    · rw [if_neg hr]
      have hl : ∀ r ∈ refs, r < w.assets.length := by
        intro r hrm
        by_contra hc
        exact hr (List.any_eq_true.2 ⟨r, hrm, by simpa using hc⟩)
      cases hlen : args.length with
      | error e => exact ⟨a, h, .inl rfl⟩
      | ok n =>
        simp only
        have key : ∃ b, (writeBack w.assets (refs.zip (fitPrefix n (refs.filterMap (fun r => w.assets[r]?)))))[r]? = some b ∧
            (b = a ∨ ∃ refs' args' freqMins' n', Op.newSite refs args freqMins = .newSite refs' args' freqMins' ∧ r ∈ refs' ∧
              args'.length = .ok n' ∧ a.fit n' = .ok b) := by
          rcases writeBack_get w.assets (refs.zip (fitPrefix n (refs.filterMap (fun r => w.assets[r]?)))) r with ⟨hg, _⟩ | ⟨b, hb, hg⟩
          · exact ⟨a, by rw [hg, h], .inl rfl⟩
          · obtain ⟨a₀, h1, h2⟩ := fitPrefix_zip hl hb
            rw [h] at h1
            cases h1
            exact ⟨b, by rw [hg, h]; rfl, .inr ⟨refs, args, freqMins, n, rfl, (List.of_mem_zip hb).1, hlen, h2⟩⟩
        cases Site.new (refs.filterMap (fun r => w.assets[r]?)) args.raw freqMins args.importLimit args.exportLimit args.constraints
            args.kwargs with
        | error e => exact key
        | ok s => exact key

/-- Whatever is built and optimised: batteries, boilers, CHPs, EVs, heat pumps, spills and valves are as they were made, and all that
can change in a renewable generator is its time series. -/
theorem C53_assets (S : Solver) (w : World) (ops : List Op) {r : Nat} {a : Asset} (h : w.assets[r]? = some a) :
    ∃ b, (w.run S ops).1.assets[r]? = some b ∧ Rewritten a b := by
  induction ops generalizing w a with
  | nil => exact ⟨a, h, .same a⟩
  | cons op ops ih =>
    obtain ⟨b, hb, hab⟩ := step_asset S w op h
    have hr : Rewritten a b := by
      rcases hab with rfl | ⟨_, _, _, _, _, _, _, hf⟩
      · exact .same _
      · exact fit_rewritten hf
    obtain ⟨c, hc, hbc⟩ := ih (w.step S op).1 hb
    exact ⟨c, hc, hr.trans hbc⟩

/-- What a site object is made of, apart from its assets. -/
structure SameSite (o o' : SiteObj) : Prop where
  refs : o'.refs = o.refs
  data : o'.data = o.data
  freqMins : o'.freqMins = o.freqMins
  importLimit : o'.importLimit = o.importLimit
  exportLimit : o'.exportLimit = o.exportLimit
  constraints : o'.constraints = o.constraints

theorem SameSite.refl (o : SiteObj) : SameSite o o := ⟨rfl, rfl, rfl, rfl, rfl, rfl⟩

theorem SameSite.trans {a b c : SiteObj} (h : SameSite a b) (g : SameSite b c) : SameSite a c :=
  ⟨g.refs.trans h.refs, g.data.trans h.data, g.freqMins.trans h.freqMins, g.importLimit.trans h.importLimit,
    g.exportLimit.trans h.exportLimit, g.constraints.trans h.constraints⟩

theorem step_site (S : Solver) (w : World) (op : Op) {k : Nat} {o : SiteObj} (h : w.sites[k]? = some o) :
    ∃ o', (w.step S op).1.sites[k]? = some o' ∧ SameSite o o' := by
  have hlt : k < w.sites.length := by
    by_contra hc
    rw [List.getElem?_eq_none (by omega)] at h
    simp at h
  cases op with
  | newAsset x => exact ⟨o, h, .refl o⟩
  | optimize j objective flags =>
    unfold World.step
    simp only
    cases hj : w.sites[j]? with
    | none => exact ⟨o, h, .refl o⟩
    | some o2 =>
      simp only [List.getElem?_set]
      by_cases hjk : j = k
      · subst hjk
        rw [h] at hj
        cases hj
        simp only [if_true, hlt]
        exact ⟨_, rfl, ⟨rfl, rfl, rfl, rfl, rfl, rfl⟩⟩
      · simp only [hjk, if_false]
        exact ⟨o, h, .refl o⟩
  | newSite refs args freqMins =>
    unfold World.step
    simp only
    by_cases hr : refs.any (fun r => decide (w.assets.length ≤ r)) = true
    · rw [if_pos hr]
      exact ⟨o, h, .refl o⟩
    · rw [if_neg hr]
      cases args.length with
      | error e => exact ⟨o, h, .refl o⟩
      | ok n =>
        simp only
        cases Site.new (refs.filterMap (fun r => w.assets[r]?)) args.raw freqMins args.importLimit args.exportLimit args.constraints
            args.kwargs with
        | error e => exact ⟨o, h, .refl o⟩
        | ok s =>
          simp only
          exact ⟨o, by rw [List.getElem?_append_left hlt, h], .refl o⟩

/-- Whatever is built and optimised: the interval data, the limits and the list of assets of a site stay. -/
theorem C53_sites (S : Solver) (w : World) (ops : List Op) {k : Nat} {o : SiteObj} (h : w.sites[k]? = some o) :
    ∃ o', (w.run S ops).1.sites[k]? = some o' ∧ SameSite o o' := by
  induction ops generalizing w o with
  | nil => exact ⟨o, h, .refl o⟩
  | cons op ops ih =>
    obtain ⟨o1, h1, e1⟩ := step_site S w op h
    obtain ⟨o2, h2, e2⟩ := ih (w.step S op).1 h1
    exact ⟨o2, h2, e1.trans e2⟩

/-- Every site refers to existing assets, and every renewable generator has as many values as its index. -/
structure World.Sound (w : World) : Prop where
  refs : ∀ o ∈ w.sites, ∀ r ∈ o.refs, r < w.assets.length
  series : ∀ (r : Nat) (c : RenewableCfg), w.assets[r]? = some (.renewable c) → c.idxLen = c.generation.length

theorem fit_series {n : Nat} {a : Asset} {d : RenewableCfg} (h : a.fit n = .ok (.renewable d))
    (ha : ∀ c, a = .renewable c → c.idxLen = c.generation.length) : d.idxLen = d.generation.length ∧ d.generation.length = n := by
  cases a with
  | renewable c =>
    simp only [Asset.fit] at h
    by_cases hc : c.idxLen = n
    · rw [if_pos hc] at h
      cases h
      exact ⟨ha _ rfl, by rw [← ha _ rfl, hc]⟩
    · rw [if_neg hc] at h
      simp only [bind_ok, Except.ok.injEq, Asset.renewable.injEq] at h
      obtain ⟨g, hg, rfl⟩ := h
      have hne : c.generation ≠ [] := by
        intro he
        obtain ⟨e, he'⟩ := (C30_repeat c.generation n).1 he
        rw [hg] at he'
        simp at he'
      obtain ⟨b, hb, hbl, _⟩ := (C30_repeat c.generation n).2 hne
      rw [hg] at hb
      cases hb
      exact ⟨hbl.symm, hbl⟩
  | _ => simp [Asset.fit] at h

theorem step_length (S : Solver) (w : World) (op : Op) : w.assets.length ≤ (w.step S op).1.assets.length := by
  by_contra hc
  have h : w.assets[(w.step S op).1.assets.length]? = some (w.assets[(w.step S op).1.assets.length]'(by omega)) :=
    List.getElem?_eq_getElem _
  obtain ⟨b, hb, _⟩ := step_asset S w op h
  rw [List.getElem?_eq_none (le_refl _)] at hb
  simp at hb

theorem step_sound (S : Solver) {w : World} (hw : w.Sound) (op : Op) (hop : ∀ a, op = .newAsset a → a.Made) : (w.step S op).1.Sound := by
  have hlen := step_length S w op
  constructor
  · intro o ho r hr
    have old : ∀ o' ∈ w.sites, o.refs = o'.refs → r < (w.step S op).1.assets.length := fun o' ho' he =>
      lt_of_lt_of_le (hw.refs o' ho' r (he ▸ hr)) hlen
    cases op with
    | newAsset a => exact old o ho rfl
    | optimize k objective flags =>
      unfold World.step at ho
      simp only at ho
      cases hk : w.sites[k]? with
      | none => rw [hk] at ho; exact old o ho rfl
      | some o2 =>
        rw [hk] at ho
        rcases List.mem_or_eq_of_mem_set ho with ho | rfl
        · exact old o ho rfl
        · exact old o2 (List.mem_of_getElem? hk) rfl
    | newSite refs args freqMins =>
      by_cases hrr : refs.any (fun r => decide (w.assets.length ≤ r)) = true
      · unfold World.step at ho
        simp only at ho
        rw [if_pos hrr] at ho
        exact old o ho rfl
      · have hl : ∀ r ∈ refs, r < w.assets.length := by
          intro r hrm
          by_contra hc
          exact hrr (List.any_eq_true.2 ⟨r, hrm, by simpa using hc⟩)
        unfold World.step at ho
        simp only at ho
        rw [if_neg hrr] at ho
        cases hlen' : args.length with
        | error e => rw [hlen'] at ho; exact old o ho rfl
        | ok n =>
          rw [hlen'] at ho
          simp only at ho
          cases hs : Site.new (refs.filterMap (fun r => w.assets[r]?)) args.raw freqMins args.importLimit args.exportLimit
              args.constraints args.kwargs with
          | error e => rw [hs] at ho; exact old o ho rfl
          | ok s =>
            rw [hs] at ho
            simp only at ho
            rcases List.mem_append.1 ho with ho | ho
            · exact old o ho rfl
            · rw [List.mem_singleton] at ho
              subst ho
              exact lt_of_lt_of_le (hl r hr) hlen
  · intro r d hd
    by_cases hr : r < w.assets.length
    · have h : w.assets[r]? = some w.assets[r] := List.getElem?_eq_getElem _
      obtain ⟨b, hb, hab⟩ := step_asset S w op h
      rw [hd] at hb
      cases hb
      rcases hab with hab | ⟨_, _, _, n, _, _, _, hf⟩
      · exact hw.series r d (by rw [h, ← hab])
      · exact (fit_series hf fun c hc => hw.series r c (by rw [h, hc])).1
    · cases op with
      | newAsset a =>
        simp only [World.step] at hd
        rw [List.getElem?_append_right (by omega)] at hd
        have : a = .renewable d := by
          cases hi : r - w.assets.length with
          | zero => rw [hi] at hd; simpa using hd
          | succ m => rw [hi] at hd; simp at hd
        subst this
        cases hop _ rfl with
        | renewable hnew =>
          obtain ⟨_, _, h3, h4, _⟩ := renewable_new hnew
          rw [h4, h3]
      | optimize k objective flags =>
        rw [(optimize_step S w k objective flags).1, List.getElem?_eq_none (by omega)] at hd
        simp at hd
      | newSite refs args freqMins =>
        exfalso
        have : (w.step S (.newSite refs args freqMins)).1.assets.length = w.assets.length := by
          unfold World.step
          simp only
          split
          · rfl
          · cases args.length with
            | error e => rfl
            | ok n =>
              simp only
              cases Site.new (refs.filterMap (fun r => w.assets[r]?)) args.raw freqMins args.importLimit args.exportLimit
                  args.constraints args.kwargs with
              | error e => exact writeBack_length _ _
              | ok s => exact writeBack_length _ _
        rw [List.getElem?_eq_none (by omega)] at hd
        simp at hd

theorem run_sound (S : Solver) {w : World} (hw : w.Sound) (ops : List Op) (hops : ∀ a, Op.newAsset a ∈ ops → a.Made) :
    (w.run S ops).1.Sound := by
  induction ops generalizing w with
  | nil => exact hw
  | cons op ops ih =>
    exact ih (step_sound S hw op fun a ha => hops a (ha ▸ List.mem_cons_self)) fun a ha => hops a (List.mem_cons_of_mem _ ha)

/-- The worlds a user can reach: start from nothing, make assets with their constructors, build sites, optimise. -/
def World.Reachable (w : World) (S : Solver) : Prop :=
  ∃ ops, (∀ a, Op.newAsset a ∈ ops → a.Made) ∧ w = (({} : World).run S ops).1

theorem World.Reachable.sound {S : Solver} {w : World} (h : w.Reachable S) : w.Sound := by
  obtain ⟨ops, hm, rfl⟩ := h
  exact run_sound S ⟨by simp, by simp⟩ ops hm

/-- A later history leaves a site alone: no site of another length is built with a renewable generator of it. -/
def Apart (w : World) (o : SiteObj) (ops : List Op) : Prop :=
  ∀ refs args freqMins, Op.newSite refs args freqMins ∈ ops → ∀ r ∈ refs, r ∈ o.refs → ∀ c, w.assets[r]? = some (.renewable c) →
    ∀ n, args.length = .ok n → n = c.idxLen

theorem run_assets_same (S : Solver) (w : World) (ops : List Op) {o : SiteObj} (h : Apart w o ops) {r : Nat} (hr : r ∈ o.refs)
    (hlt : r < w.assets.length) : (w.run S ops).1.assets[r]? = w.assets[r]? := by
  have key : ∀ (ops : List Op) (w' : World), w'.assets[r]? = w.assets[r]? → Apart w o ops → (w'.run S ops).1.assets[r]? = w.assets[r]? := by
    intro ops
    induction ops with
    | nil => intro w' h' _; exact h'
    | cons op ops ih =>
      intro w' h' hap
      refine ih (w'.step S op).1 ?_ fun refs args f hm => hap refs args f (List.mem_cons_of_mem _ hm)
      have h1 : w.assets[r]? = some w.assets[r] := List.getElem?_eq_getElem _
      obtain ⟨b, hb, hab⟩ := step_asset S w' op (h'.trans h1)
      rw [hb, h1]
      rcases hab with hab | ⟨refs, args, f, n, rfl, hrr, hlen, hf⟩
      · rw [hab]
      · congr 1
        cases ha : w.assets[r] with
        | renewable c =>
          have hn := hap refs args f List.mem_cons_self r hrr hr c (by rw [h1, ha]) n hlen
          rw [ha] at hf
          simp only [Asset.fit, hn, if_true, Except.ok.injEq] at hf
          exact hf.symm
        | _ => rw [ha] at hf; simp only [Asset.fit, Except.ok.injEq] at hf; exact hf.symm
  exact key ops w rfl h

/-- Building and optimising other sites leaves a site alone, unless one of them has another length and shares a renewable generator
with it: afterwards its `optimize` does what it would have done before. -/
theorem C53_undisturbed (S : Solver) {w : World} (hw : w.Reachable S) (ops : List Op) {k : Nat} {o : SiteObj} (h : w.sites[k]? = some o)
    (hap : Apart w o ops) (objective : Objective) (flags : Flags) :
    ((w.run S ops).1.step S (.optimize k objective flags)).2 = (w.step S (.optimize k objective flags)).2 := by
  obtain ⟨o', h', hs⟩ := C53_sites S w ops h
  have hd : (w.run S ops).1.deref o' = w.deref o := by
    unfold World.deref
    rw [hs.refs, hs.data, hs.freqMins, hs.importLimit, hs.exportLimit, hs.constraints]
    congr 1
    exact List.filterMap_congr fun r hr => run_assets_same S w ops hap hr (hw.sound.refs o (List.mem_of_getElem? h) r hr)
  unfold World.step
  simp only [h, h', hd]

/-- A renewable generator after a site was built with it: its series has the length of that site and repeats the old one. -/
theorem shared_series (S : Solver) {w : World} (hw : w.Reachable S) {refs : List Nat} {args : SiteArgs} {freqMins : ℚ}
    (h : (w.step S (.newSite refs args freqMins)).2 = .done) {n : Nat} (hn : args.length = .ok n) {r : Nat} (hr : r ∈ refs)
    {c : RenewableCfg} (hc : w.assets[r]? = some (.renewable c)) :
    ∃ d, (w.step S (.newSite refs args freqMins)).1.assets[r]? = some (.renewable d) ∧ d.name = c.name ∧
      d.lowerBoundPct = c.lowerBoundPct ∧ d.generation.length = n ∧ ∀ i < n, d.generation[i]? = cyclic c.generation i := by
  have hse := hw.sound.series r c hc
  unfold World.step at h ⊢
  simp only at h ⊢
  by_cases hrr : refs.any (fun r => decide (w.assets.length ≤ r)) = true
  · rw [if_pos hrr] at h; cases h
  · rw [if_neg hrr] at h ⊢
    have hl : ∀ r ∈ refs, r < w.assets.length := by
      intro r hrm
      by_contra hc
      exact hrr (List.any_eq_true.2 ⟨r, hrm, by simpa using hc⟩)
    rw [hn] at h ⊢
    simp only at h ⊢
    cases hs : Site.new (refs.filterMap (fun r => w.assets[r]?)) args.raw freqMins args.importLimit args.exportLimit args.constraints
        args.kwargs with
    | error e => rw [hs] at h; cases h
    | ok s =>
      have hnew := site_new hs
      have hns : n = s.data.n := by
        have := length_of_new hs
        rw [hn] at this
        exact Except.ok.inj this
      obtain ⟨a₀, a, h1, h2, h3⟩ := heap_get hl (hns ▸ hnew.assets) hr
      rw [hc] at h1
      cases h1
      simp only
      rw [h3]
      simp only [Asset.fit] at h2
      by_cases hi : c.idxLen = n
      · rw [if_pos hi] at h2
        cases h2
        refine ⟨c, rfl, rfl, rfl, by rw [← hse, hi], fun i hin => ?_⟩
        unfold cyclic
        rw [Nat.mod_eq_of_lt (by rw [← hse, hi]; exact hin)]
      · rw [if_neg hi] at h2
        simp only [bind_ok, Except.ok.injEq] at h2
        obtain ⟨g, hg, rfl⟩ := h2
        have hne : c.generation ≠ [] := by
          intro he
          obtain ⟨e, he'⟩ := (C30_repeat c.generation n).1 he
          rw [hg] at he'
          simp at he'
        obtain ⟨b, hb, hbl, hbc⟩ := (C30_repeat c.generation n).2 hne
        rw [hg] at hb
        cases hb
        exact ⟨_, rfl, rfl, rfl, hbl, hbc⟩

/-- A shorter site built with a renewable generator of a longer one: the longer site can never be optimised again (as long as nothing
rewrites the generator once more). -/
theorem C53_shorter (S : Solver) {w : World} (hw : w.Reachable S) {k : Nat} {o : SiteObj} (ho : w.sites[k]? = some o) {r : Nat}
    (hro : r ∈ o.refs) {c : RenewableCfg} (hc : w.assets[r]? = some (.renewable c)) {refs : List Nat} {args : SiteArgs} {freqMins : ℚ}
    (h : (w.step S (.newSite refs args freqMins)).2 = .done) (hr : r ∈ refs) {n : Nat} (hn : args.length = .ok n)
    (hshort : n < o.data.n) (objective : Objective) (flags : Flags) :
    ∃ e, ((w.step S (.newSite refs args freqMins)).1.step S (.optimize k objective flags)).2 = .result (.error e) := by
  obtain ⟨d, hd, _, _, hdl, _⟩ := shared_series S hw h hn hr hc
  obtain ⟨o', ho', hs⟩ := step_site S w (.newSite refs args freqMins) ho
  generalize (w.step S (.newSite refs args freqMins)).1 = w' at hd ho'
  unfold World.step
  simp only [ho']
  cases hopt : (w'.deref o').optimize objective flags S with
  | error e => exact ⟨e, rfl⟩
  | ok res =>
    exfalso
    obtain ⟨p, hran⟩ := optimize_ran hopt
    have hm : Asset.renewable d ∈ (w'.deref o').assets := List.mem_filterMap.2 ⟨r, by rw [hs.refs]; exact hro, hd⟩
    have := ((program_spec hran.program).buildable (i := n) (by
      show n < o'.data.n
      rw [hs.data]; exact hshort) hm : d.isArray = true ∧ n < d.generation.length).2
    omega

/-- A site that is at least as long, built with a renewable generator of an earlier site: the earlier site still finds its own values in
its intervals. -/
theorem C53_longer (S : Solver) {w : World} (hw : w.Reachable S) {r : Nat} {c : RenewableCfg} (hc : w.assets[r]? = some (.renewable c))
    {refs : List Nat} {args : SiteArgs} {freqMins : ℚ} (h : (w.step S (.newSite refs args freqMins)).2 = .done) (hr : r ∈ refs) {n : Nat}
    (hn : args.length = .ok n) (hlong : c.generation.length ≤ n) :
    ∃ d, (w.step S (.newSite refs args freqMins)).1.assets[r]? = some (.renewable d) ∧ d.name = c.name ∧
      d.lowerBoundPct = c.lowerBoundPct ∧ d.generation.length = n ∧ ∀ i < c.generation.length, d.generation[i]? = c.generation[i]? := by
  obtain ⟨d, hd, h1, h2, h3, h4⟩ := shared_series S hw h hn hr hc
  refine ⟨d, hd, h1, h2, h3, fun i hi => ?_⟩
  rw [h4 i (by omega)]
  unfold cyclic
  rw [Nat.mod_eq_of_lt hi]

/-- A wind farm with two values, and two sites of three and two intervals. -/
def windFarm : RenewableCfg := ⟨"wind", 1, [1, 2], true, 2, 60⟩
/-- see `windFarm` -/
def sharedOps : List Op :=
  [.newAsset (.renewable windFarm), .newSite [0] { raw := { electricityPrices := prices [10, 20, 30] } } 60]
/-- see `windFarm` -/
def shortArgs : SiteArgs := { raw := { electricityPrices := prices [10, 20] } }
/-- see `windFarm` -/
def longArgs : SiteArgs := { raw := { electricityPrices := prices [10, 20, 30, 40, 50] } }

theorem shared_reachable (S : Solver) : (({} : World).run S sharedOps).1.Reachable S := by
  refine ⟨sharedOps, ?_, rfl⟩
  intro a ha
  simp only [sharedOps, List.mem_cons, Op.newAsset.injEq, reduceCtorEq, List.not_mem_nil, or_false] at ha
  subst ha
  exact .renewable (gen := .array [1, 2]) (lowerBoundPct := 1) (name := "wind") (freqMins := 60) (by decide +kernel)

/-- Building assets and sites does not call the solver. -/
theorem step_solver (S T : Solver) (w : World) (op : Op) (h : ∀ k objective flags, op ≠ .optimize k objective flags) :
    w.step S op = w.step T op := by
  cases op with
  | optimize k objective flags => exact absurd rfl (h k objective flags)
  | _ => rfl

/-- A solver that never finds anything. -/
def idleSolver : Solver := fun _ => ⟨"Not Solved", fun _ => none⟩

theorem shared_solver (S T : Solver) : (({} : World).run S sharedOps).1 = (({} : World).run T sharedOps).1 := rfl

def Obs.isDone : Obs → Bool
  | .done => true
  | _ => false

theorem Obs.eq_done {o : Obs} (h : o.isDone = true) : o = .done := by
  cases o <;> simp_all [Obs.isDone]

/-- `shared_reachable`, `C53_shorter`: after the second site is built the first one fails. -/
example (S : Solver) (objective : Objective) (flags : Flags) :
    ∃ e, (((({} : World).run S sharedOps).1.step S (.newSite [0] shortArgs 60)).1.step S (.optimize 0 objective flags)).2 =
      .result (.error e) := by
  have h1 : ((({} : World).run S sharedOps).1.sites[0]?).any (fun o => decide (o.refs = [0]) && decide (o.data.n = 3)) = true := by
    rw [shared_solver S idleSolver]; decide +kernel
  have h2 : ((({} : World).run S sharedOps).1.assets[0]?) = some (.renewable { windFarm with generation := [1, 2, 1], idxLen := 3 }) := by
    rw [shared_solver S idleSolver]; decide +kernel
  cases ho : (({} : World).run S sharedOps).1.sites[0]? with
  | none => rw [ho] at h1; simp at h1
  | some o =>
    rw [ho] at h1
    simp only [Option.any_some, Bool.and_eq_true, decide_eq_true_eq] at h1
    exact C53_shorter S (shared_reachable S) ho (r := 0) (by rw [h1.1]; simp) h2 (Obs.eq_done (by
      rw [shared_solver S idleSolver, step_solver S idleSolver _ _ (by simp)]; decide +kernel)) (by simp) (n := 2)
      (by decide +kernel) (by rw [h1.2]; decide) objective flags

/-- `C53_longer`: a third site of five intervals. -/
example (S : Solver) : ∃ d, ((({} : World).run S sharedOps).1.step S (.newSite [0] longArgs 60)).1.assets[0]? = some (.renewable d) ∧
    d.generation.length = 5 ∧ d.generation[2]? = some 1 := by
  have h2 : ((({} : World).run S sharedOps).1.assets[0]?) = some (.renewable { windFarm with generation := [1, 2, 1], idxLen := 3 }) := by
    rw [shared_solver S idleSolver]; decide +kernel
  obtain ⟨d, hd, _, _, hl, hv⟩ := C53_longer S (shared_reachable S) (r := 0) h2 (refs := [0]) (args := longArgs) (freqMins := 60)
    (Obs.eq_done (by
      rw [shared_solver S idleSolver, step_solver S idleSolver _ _ (by simp)]; decide +kernel)) (by simp) (n := 5) (by decide +kernel) (by decide)
  exact ⟨d, hd, hl, by rw [hv 2 (by decide)]; rfl⟩

/-- `C53_undisturbed`: building a site of the same length on the shared generator, and one on a new asset. -/
example (S : Solver) (objective : Objective) (flags : Flags) :
    (((({} : World).run S sharedOps).1.run S [.newSite [0] { raw := { electricityPrices := prices [7, 8, 9] } } 60,
      .newAsset (.spill { name := "spill" }), .newSite [1] shortArgs 60]).1.step S (.optimize 0 objective flags)).2 =
    ((({} : World).run S sharedOps).1.step S (.optimize 0 objective flags)).2 := by
  have h1 : ((({} : World).run S sharedOps).1.sites[0]?).any (fun o => decide (o.refs = [0])) = true := by
    rw [shared_solver S idleSolver]; decide +kernel
  have h2 : ((({} : World).run S sharedOps).1.assets[0]?) = some (.renewable { windFarm with generation := [1, 2, 1], idxLen := 3 }) := by
    rw [shared_solver S idleSolver]; decide +kernel
  cases ho : (({} : World).run S sharedOps).1.sites[0]? with
  | none => rw [ho] at h1; simp at h1
  | some o =>
    rw [ho] at h1
    simp only [Option.any_some, decide_eq_true_eq] at h1
    refine C53_undisturbed S (shared_reachable S) _ ho ?_ objective flags
    intro refs args f hm r hr hro c hc n hn
    simp only [List.mem_cons, Op.newSite.injEq, reduceCtorEq, false_or, List.not_mem_nil, or_false] at hm
    rw [h1] at hro
    simp only [List.mem_singleton] at hro
    subst hro
    rw [h2] at hc
    cases hc
    rcases hm with ⟨_, rfl, _⟩ | ⟨rfl, _, _⟩
    · have : SiteArgs.length { raw := { electricityPrices := prices [7, 8, 9] } } = .ok 3 := by decide +kernel
      rw [this] at hn
      cases hn
      rfl
    · simp at hr

end EPL
