/-
C58: stand-alone assets optimise the documented site.
-/
import Verif.Props.Results
import Verif.Props.Assets
import Verif.Props.History

namespace EPL

/-- The asset as it sits on a site: a renewable generator has its series repeated to the length of the site. -/
def OnSite (n : Nat) (a b : Asset) : Prop :=
  match a with
  | .renewable c => ∃ d, b = .renewable d ∧ d.name = c.name ∧ d.lowerBoundPct = c.lowerBoundPct ∧
      (c.idxLen = c.generation.length → ∀ i < n, d.generation[i]? = cyclic c.generation i)
  | a => b = a

/-- A site that holds exactly these assets, with the limits, custom constraints and time step asked for. -/
structure Holds (s : Site) (a : Asset) (others : List Asset) (args : SiteArgs) (freqMins : ℚ) : Prop where
  assets : ∃ b, OnSite s.data.n a b ∧ s.assets.Perm (b :: others)
  built : ∃ l, l.Perm (a :: others) ∧
    Site.new l args.raw freqMins args.importLimit args.exportLimit args.constraints args.kwargs = .ok s
  freqMins : s.freqMins = freqMins
  importLimit : s.importLimit = args.importLimit
  exportLimit : s.exportLimit = args.exportLimit
  constraints : s.constraints = args.constraints

theorem fit_onSite {n : Nat} {a b : Asset} (h : a.fit n = .ok b) : OnSite n a b := by
  cases a with
  | renewable c =>
    simp only [Asset.fit] at h
    by_cases hc : c.idxLen = n
    · rw [if_pos hc] at h
      cases h
      refine ⟨c, rfl, rfl, rfl, fun hs i hi => ?_⟩
      unfold cyclic
      rw [Nat.mod_eq_of_lt (by omega)]
    · rw [if_neg hc] at h
      simp only [bind_ok, Except.ok.injEq] at h
      obtain ⟨g, hg, rfl⟩ := h
      have hne : c.generation ≠ [] := by
        intro he
        obtain ⟨e, he'⟩ := (C30_repeat c.generation n).1 he
        rw [hg] at he'
        simp at he'
      obtain ⟨b, hb, _, hbc⟩ := (C30_repeat c.generation n).2 hne
      rw [hg] at hb
      cases hb
      exact ⟨_, rfl, rfl, rfl, fun _ => hbc⟩
  | _ => simp only [Asset.fit, Except.ok.injEq] at h; exact h.symm

theorem fit_plain {n : Nat} {l : List Asset} (h : ∀ a ∈ l, ∀ c, a ≠ .renewable c) : mapE (Asset.fit n) l = .ok l := by
  induction l with
  | nil => rfl
  | cons a l ih =>
    have ha : a.fit n = .ok a := by
      cases a with
      | renewable c => exact absurd rfl (h _ List.mem_cons_self c)
      | _ => rfl
    simp only [mapE, ha, ok_bind, ih fun b hb => h b (List.mem_cons_of_mem _ hb)]

theorem holds_of_site {a : Asset} {others l : List Asset} {args : SiteArgs} {freqMins : ℚ} {s : Site} (hl : l.Perm (a :: others))
    (hh : l = a :: others) (h : args.site l freqMins = .ok (some s)) (ho : ∀ x ∈ others, ∀ c, x ≠ .renewable c) :
    Holds s a others args freqMins := by
  unfold SiteArgs.site at h
  by_cases hs : args.hasSite = true
  · rw [if_pos hs] at h
    simp only [bind_ok, Except.ok.injEq, Option.some.injEq] at h
    obtain ⟨s', hs', rfl⟩ := h
    have hn := site_new hs'
    refine ⟨?_, ⟨l, hl, hs'⟩, hn.freq, hn.importLimit, hn.exportLimit, hn.constraints⟩
    have ha := hn.assets
    rw [hh] at ha
    simp only [mapE, bind_ok, Except.ok.injEq, fit_plain ho] at ha
    obtain ⟨b, hb, _, rfl, he⟩ := ha
    exact ⟨b, fit_onSite hb, by rw [← he]⟩
  · rw [if_neg hs] at h
    simp at h

/-- The default boiler and valve of a stand-alone CHP or heat pump are the ones `Boiler()` and `Valve()` make. -/
theorem C58_defaults : Boiler.new = .ok defaultBoiler ∧ Valve.new = .ok defaultValve ∧ Spill.new = .ok { name := "spill" } := by
  decide +kernel

/-- A stand-alone battery: the battery and, if asked for, a spill. -/
theorem C58_battery {c : BatteryCfg} {args : SiteArgs} {withSpill : Bool} {s : Site}
    (h : standaloneBattery c args withSpill = .ok (some s)) :
    Holds s (.battery c) (if withSpill then [.spill { name := "spill" }] else []) args c.freqMins :=
  holds_of_site (by rfl) rfl h (by cases withSpill <;> simp)

/-- A stand-alone renewable generator: the generator and, if asked for, a spill. -/
theorem C58_renewable {c : RenewableCfg} {args : SiteArgs} {withSpill : Bool} {s : Site}
    (h : standaloneRenewable c args withSpill = .ok (some s)) :
    Holds s (.renewable c) (if withSpill then [.spill { name := "spill" }] else []) args c.freqMins :=
  holds_of_site (by rfl) rfl h (by cases withSpill <;> simp)

/-- A stand-alone CHP: the CHP, a valve, a boiler and, if asked for, a spill. -/
theorem C58_chp {c : ChpCfg} {args : SiteArgs} {withSpill : Bool} {s : Site} (h : standaloneChp c args withSpill = .ok (some s)) :
    Holds s (.chp c) ([.valve defaultValve, .boiler defaultBoiler] ++ if withSpill then [.spill { name := "spill" }] else []) args
      c.freqMins :=
  holds_of_site (by rfl) rfl h (by cases withSpill <;> simp)

/-- A stand-alone heat pump: the heat pump, a boiler, a valve unless it is disabled and, if asked for, a spill. -/
theorem C58_heatPump {c : HeatPumpCfg} {args : SiteArgs} {withSpill : Bool} {s : Site}
    (h : standaloneHeatPump c args withSpill = .ok (some s)) :
    Holds s (.heatPump c) (([.boiler defaultBoiler] ++ if withSpill then [.spill { name := "spill" }] else []) ++
      if c.includeValve then [.valve defaultValve] else []) args c.freqMins :=
  holds_of_site (by rfl) rfl h (by cases withSpill <;> cases c.includeValve <;> simp)

theorem validateEv_ok {n : Nat} {c : EvsCfg} : validateEvIntervalData n c = .ok () ↔
    n = c.chargeEvents.length ∧ ∀ e < c.events.length, 0 < (c.chargeEvents.map (fun row => row.getD e 0)).sum := by
  unfold validateEvIntervalData
  simp only [bind_ok, pyAssert_ok, decide_eq_true_eq, List.all_eq_true, List.mem_range]
  constructor
  · rintro ⟨_, h1, h2⟩; exact ⟨h1, h2⟩
  · rintro ⟨h1, h2⟩; exact ⟨(), h1, h2⟩

/-- A stand-alone EVs asset: the EVs and, if asked for, a spill; the charge event matrix has as many rows as the site has intervals. -/
theorem C58_evs {c : EvsCfg} {args : SiteArgs} {withSpill : Bool} {s : Site} (h : standaloneEvs c args withSpill = .ok (some s)) :
    Holds s (.evs c) (if withSpill then [.spill { name := "spill" }] else []) args c.freqMins ∧
    s.data.n = c.chargeEvents.length ∧ ∀ e < c.events.length, 0 < (c.chargeEvents.map (fun row => row.getD e 0)).sum := by
  unfold standaloneEvs at h
  rw [bind_ok] at h
  obtain ⟨x, hx, h⟩ := h
  cases x with
  | none => simp at h
  | some s' =>
    simp only [bind_ok, Except.ok.injEq, Option.some.injEq] at h
    obtain ⟨u, hv, rfl⟩ := h
    exact ⟨holds_of_site (by rfl) rfl hx (by cases withSpill <;> simp), validateEv_ok.1 hv⟩

/-- Without prices and carbon intensities there is no site to optimise: every stand-alone asset raises. -/
theorem C58_no_prices {args : SiteArgs} (h1 : args.raw.electricityPrices = .missing) (h2 : args.raw.electricityCarbonIntensities = .missing)
    (withSpill : Bool) (objective : Objective) (flags : Flags) (S : Solver) :
    (∀ c, standaloneBattery c args withSpill = .ok none) ∧ (∀ c, standaloneChp c args withSpill = .ok none) ∧
    (∀ c, standaloneHeatPump c args withSpill = .ok none) ∧ (∀ c, standaloneRenewable c args withSpill = .ok none) ∧
    (∀ c, standaloneEvs c args withSpill = .ok none) ∧ ∃ e, optimizeStandalone none objective flags S = .error e := by
  have hs : args.hasSite = false := by simp [SiteArgs.hasSite, h1, h2]
  have : ∀ l f, args.site l f = .ok none := fun l f => by unfold SiteArgs.site; rw [hs]; rfl
  refine ⟨fun c => this _ _, fun c => this _ _, fun c => this _ _, fun c => this _ _, fun c => ?_, _, rfl⟩
  unfold standaloneEvs
  rw [this]
  rfl

/-- With prices or carbon intensities there is a site whenever the constructor returns. -/
theorem C58_prices {args : SiteArgs} (h : args.raw.electricityPrices ≠ .missing ∨ args.raw.electricityCarbonIntensities ≠ .missing)
    {l : List Asset} {f : ℚ} {x : Option Site} (hx : args.site l f = .ok x) : ∃ s, x = some s := by
  have hs : args.hasSite = true := by rcases h with h | h <;> simp [SiteArgs.hasSite, h]
  unfold SiteArgs.site at hx
  rw [if_pos hs] at hx
  simp only [bind_ok, Except.ok.injEq] at hx
  obtain ⟨s, _, rfl⟩ := hx
  exact ⟨s, rfl⟩

/-- What the user sees: the columns of the results of a stand-alone asset are those of the site, the totals, the custom data, the asset
and the assets put beside it - so a spill shows up exactly when it was asked for. -/
theorem C58_columns {s : Site} {a : Asset} {others : List Asset} {args : SiteArgs} {freqMins : ℚ} (hh : Holds s a others args freqMins)
    {objective : Objective} {flags : Flags} {S : Solver} {r : SimResult} (h : optimizeStandalone (some s) objective flags S = .ok r)
    (ha : a.WellNamed) (ho : ∀ b ∈ others, b.WellNamed) :
    ∀ k, k ∈ r.results.columns ↔ k ∈ siteColumns ∨ k ∈ totalColumns ∨ (∃ f ∈ s.data.custom, k = "site-" ++ f.1) ∨
      k ∈ a.documentedColumns ∨ ∃ b ∈ others, k ∈ b.documentedColumns := by
  obtain ⟨l, _, hl⟩ := hh.built
  obtain ⟨b, hb, hp⟩ := hh.assets
  have hcb : a.documentedColumns = b.documentedColumns ∧ (a.WellNamed → b.WellNamed) := by
    cases a with
    | renewable c =>
      obtain ⟨d, rfl, hn, _⟩ := hb
      simp [Asset.documentedColumns, Asset.WellNamed, hn]
    | _ => simp only [OnSite] at hb; rw [hb]; exact ⟨rfl, id⟩
  have hc : s.Constructed := ⟨_, _, _, _, _, _, _, hl⟩
  intro k
  rw [(C23_columns hc h ?_).2.2.2 k]
  · refine or_congr_right (or_congr_right (or_congr_right ?_))
    constructor
    · rintro ⟨x, hx, hk⟩
      rcases List.mem_cons.1 (hp.mem_iff.1 hx) with rfl | hx
      · exact .inl (hcb.1 ▸ hk)
      · exact .inr ⟨x, hx, hk⟩
    · rintro (hk | ⟨x, hx, hk⟩)
      · exact ⟨b, hp.mem_iff.2 List.mem_cons_self, hcb.1 ▸ hk⟩
      · exact ⟨x, hp.mem_iff.2 (List.mem_cons_of_mem _ hx), hk⟩
  · intro x hx
    rcases List.mem_cons.1 (hp.mem_iff.1 hx) with rfl | hx
    · exact hcb.2 ha
    · exact ho x hx

/-- A stand-alone heat pump with a spill and no valve, and a stand-alone battery without prices. -/
example : ∃ s, standaloneHeatPump ⟨"heat-pump", 3, 2, 60, false⟩ { raw := { electricityPrices := prices [10, 20] } } true = .ok (some s) ∧
    s.assets = [.heatPump ⟨"heat-pump", 3, 2, 60, false⟩, .boiler defaultBoiler, .spill { name := "spill" }] := by
  have h : (match standaloneHeatPump ⟨"heat-pump", 3, 2, 60, false⟩ { raw := { electricityPrices := prices [10, 20] } } true with
    | .ok (some s) => decide (s.assets = [.heatPump ⟨"heat-pump", 3, 2, 60, false⟩, .boiler defaultBoiler, .spill { name := "spill" }])
    | _ => false) = true := by decide +kernel
  cases hx : standaloneHeatPump ⟨"heat-pump", 3, 2, 60, false⟩ { raw := { electricityPrices := prices [10, 20] } } true with
  | error e => rw [hx] at h; simp at h
  | ok x =>
    cases x with
    | none => rw [hx] at h; simp at h
    | some s => rw [hx] at h; exact ⟨s, rfl, by simpa using h⟩

end EPL
