/-
The exact constraints every method adds, as explicit lists.
-/
import Verif.Proofs.Filter

namespace EPL

/-- Building succeeded for the variables of the first `n` intervals and asset names are distinct. -/
structure VarsOk (s : Site) (flags : Flags) (n : Nat) : Prop where
  nodup : (s.assets.map Asset.name).Nodup
  ok : ∀ i < n, s.intervalVars flags i = .ok (s.ones flags i)

theorem VarsOk.mono {s : Site} {flags : Flags} {n m : Nat} (h : VarsOk s flags n) (hm : m ≤ n) : VarsOk s flags m :=
  ⟨h.nodup, fun i hi => h.ok i (by omega)⟩

theorem filter_at {s : Site} {flags : Flags} {n i : Nat} (h : VarsOk s flags n) (hi : i < n) {a : Asset}
    (ha : a ∈ s.assets) {k : Kind} (hk : k ≠ .site) :
    IVars.filter (s.ivarsTo flags n) (i : Int) (some k) (some a.name) =
      .ok ((a.ois i s.freq flags).filter (fun o => o.kind == k)) := by
  simp only [IVars.filter, ivarsTo_index s flags hi, ok_bind, filter_ones (h.ok i hi) h.nodup ha hk]

theorem filter_last {s : Site} {flags : Flags} {k : Nat} (h : VarsOk s flags (k + 1)) {a : Asset}
    (ha : a ∈ s.assets) {kd : Kind} (hk : kd ≠ .site) :
    IVars.filter (s.ivarsTo flags (k + 1)) (-1) (some kd) (some a.name) =
      .ok ((a.ois k s.freq flags).filter (fun o => o.kind == kd)) := by
  simp only [IVars.filter, ivarsTo_last, ok_bind, filter_ones (h.ok k (by omega)) h.nodup ha hk]

theorem filter_zero {s : Site} {flags : Flags} {n : Nat} (h : VarsOk s flags (n + 1)) {a : Asset}
    (ha : a ∈ s.assets) {k : Kind} (hk : k ≠ .site) :
    IVars.filter (s.ivarsTo flags (n + 1)) 0 (some k) (some a.name) =
      .ok ((a.ois 0 s.freq flags).filter (fun o => o.kind == k)) := by
  have := filter_at h (i := 0) (by omega) ha hk
  simpa using this

theorem filterAll_eq {s : Site} {flags : Flags} {n : Nat} (h : VarsOk s flags n) {a : Asset}
    (ha : a ∈ s.assets) {k : Kind} (hk : k ≠ .site) :
    IVars.filterAll (s.ivarsTo flags n) (some k) (some a.name) =
      (List.range n).map (fun i => (a.ois i s.freq flags).filter (fun o => o.kind == k)) := by
  simp only [IVars.filterAll, Site.ivarsTo, List.map_map]
  apply List.map_congr_left
  intro i hi
  simp only [Function.comp, filter_ones (h.ok i (List.mem_range.1 hi)) h.nodup ha hk]

/-! ### Batteries -/

section battery
variable {s : Site} {flags : Flags} {c : BatteryCfg}

theorem ois_battery (i : Nat) (f : Freq) (fl : Flags) :
    (Asset.battery c).ois i f fl = [.battery (c.oneInterval i f)] := rfl

/-- The constraints of one battery in one interval. -/
def BatteryCfg.withinList (c : BatteryCfg) (i : Nat) (f : Freq) : List Con :=
  constrainOnlyChargeOrDischarge (c.oneInterval i f) ++ constrainBatteryElectricityBalance (c.oneInterval i f) ++
    (if i = 0 then [] else [(Expr.var (c.oneInterval (i - 1) f).final).eqC (.var (c.oneInterval i f).initial)])

theorem battery_within {i : Nat} (h : VarsOk s flags (i + 1)) (hc : Asset.battery c ∈ s.assets) :
    c.constrainWithin (s.ivarsTo flags (i + 1)) = .ok (c.withinList i s.freq) := by
  have e1 := filter_last h hc (kd := .battery) (by simp)
  have e2 := filterAll_eq h hc (k := .battery) (by simp)
  simp only [Asset.name, ois_battery] at e1 e2
  simp only [BatteryCfg.constrainWithin, e1, e2, ok_bind]
  have e3 : firstBattery (List.filter (fun o => o.kind == Kind.battery) [OneInterval.battery (c.oneInterval i s.freq)]) =
      .ok (c.oneInterval i s.freq) := rfl
  rw [e3, ok_bind]
  have e4 : constrainConnectionBatteries ((List.range (i + 1)).map (fun j =>
      List.filter (fun o => o.kind == Kind.battery) [OneInterval.battery (c.oneInterval j s.freq)])) =
      .ok (if i = 0 then [] else
        [(Expr.var (c.oneInterval (i - 1) s.freq).final).eqC (.var (c.oneInterval i s.freq).initial)]) := by
    unfold constrainConnectionBatteries
    cases i with
    | zero => rfl
    | succ j =>
      have hlen : ¬ (List.map (fun j => List.filter (fun o => o.kind == Kind.battery)
          [OneInterval.battery (c.oneInterval j s.freq)]) (List.range (j + 1 + 1))).length < 2 := by simp
      rw [if_neg hlen]
      have h1 := pyIndex_neg (l := (List.range (j + 1 + 1)).map (fun j =>
        List.filter (fun o => o.kind == Kind.battery) [OneInterval.battery (c.oneInterval j s.freq)])) (k := 2)
        (by omega) (by simp)
      have h2 := pyIndex_neg (l := (List.range (j + 1 + 1)).map (fun j =>
        List.filter (fun o => o.kind == Kind.battery) [OneInterval.battery (c.oneInterval j s.freq)])) (k := 1)
        (by omega) (by simp)
      simp [OneInterval.kind] at h1 h2
      simp [OneInterval.kind, h1, h2, connectBatteries]
  rw [e4, ok_bind]
  rfl

/-- The constraints of one battery after the intervals. -/
def BatteryCfg.afterList (c : BatteryCfg) (n : Nat) (f : Freq) : List Con :=
  [ (Expr.var (c.oneInterval 0 f).initial).eqC (.num c.initialCharge),
    (Expr.var (c.oneInterval (n - 1) f).final).eqC (.num c.finalCharge) ]

theorem battery_after {n : Nat} (h : VarsOk s flags (n + 1)) (hc : Asset.battery c ∈ s.assets) :
    c.constrainAfter (s.ivarsTo flags (n + 1)) = .ok (c.afterList (n + 1) s.freq) := by
  have e1 := filter_last h hc (kd := .battery) (by simp)
  have e2 := filter_zero h hc (k := .battery) (by simp)
  simp only [Asset.name, ois_battery] at e1 e2
  simp only [BatteryCfg.constrainAfter, e1, e2, ok_bind]
  rfl

end battery

/-! ### Boilers, CHPs, heat pumps, valves, renewables, spills -/

section others
variable {s : Site} {flags : Flags}

/-- The constraints of one boiler in one interval. -/
def BoilerCfg.withinList (c : BoilerCfg) (i : Nat) (f : Freq) : List Con :=
  let b := c.oneInterval i f
  [ (Expr.var b.gas).eqC (Expr.var b.heat * (1 / c.efficiency)),
    constrainMax (.var b.heat) (.var b.bin) (f.mwToMwh c.heatMax),
    constrainMin (.var b.heat) (.var b.bin) (f.mwToMwh c.heatMin) ]

theorem boiler_within {i : Nat} {c : BoilerCfg} (h : VarsOk s flags (i + 1)) (hc : Asset.boiler c ∈ s.assets) :
    c.constrainWithin (s.ivarsTo flags (i + 1)) s.freq =
      if c.efficiency = 0 then .error .zeroDivision else .ok (c.withinList i s.freq) := by
  have e1 := filter_last h hc (kd := .boiler) (by simp)
  simp only [Asset.name] at e1
  simp only [BoilerCfg.constrainWithin, e1, ok_bind]
  rfl

/-- The constraints of one CHP in one interval. -/
def ChpCfg.withinList (c : ChpCfg) (i : Nat) (f : Freq) : List Con :=
  let x := c.oneInterval i f
  (if 0 < c.electricEfficiency then
    [(Expr.var x.gas).eqC (Expr.var x.electric * (1 / c.electricEfficiency))]
   else []) ++
  [ (Expr.var x.ht).eqC (Expr.var x.gas * c.htEfficiency),
    (Expr.var x.lt).eqC (Expr.var x.gas * c.ltEfficiency),
    constrainMax (.var x.electric) (.var x.bin) (f.mwToMwh c.powerMax),
    constrainMin (.var x.electric) (.var x.bin) (f.mwToMwh c.powerMin) ]

theorem chp_within {i : Nat} {c : ChpCfg} (h : VarsOk s flags (i + 1)) (hc : Asset.chp c ∈ s.assets) :
    c.constrainWithin (s.ivarsTo flags (i + 1)) i s.freq = .ok (c.withinList i s.freq) := by
  have e1 := filter_at h (i := i) (by omega) hc (k := .chp) (by simp)
  simp only [Asset.name] at e1
  simp only [ChpCfg.constrainWithin, e1, ok_bind]
  rfl

/-- The constraints of one heat pump in one interval. -/
def HeatPumpCfg.withinList (c : HeatPumpCfg) (i : Nat) (f : Freq) : List Con :=
  let h := c.oneInterval i f
  [ constrainMax (.var h.load) (.var h.bin) (f.mwToMwh c.power),
    (Expr.var h.ht).eqC (Expr.var h.load * c.cop),
    (Expr.var h.ltLoad + .var h.load).eqC (.var h.ht) ]

theorem heatPump_within {i : Nat} {c : HeatPumpCfg} (h : VarsOk s flags (i + 1)) (hc : Asset.heatPump c ∈ s.assets) :
    c.constrainWithin (s.ivarsTo flags (i + 1)) i s.freq = .ok (c.withinList i s.freq) := by
  have e1 := filter_at h (i := i) (by omega) hc (k := .heatPump) (by simp)
  simp only [Asset.name] at e1
  simp only [HeatPumpCfg.constrainWithin, e1, ok_bind]
  rfl

/-- The constraints of one valve in one interval. -/
def ValveCfg.withinList (c : ValveCfg) (i : Nat) : List Con :=
  [ (Expr.var (c.oneInterval i).htLoad).eqC (.var (c.oneInterval i).lt) ]

theorem valve_within {i : Nat} {c : ValveCfg} (h : VarsOk s flags (i + 1)) (hc : Asset.valve c ∈ s.assets) :
    c.constrainWithin (s.ivarsTo flags (i + 1)) = .ok (c.withinList i) := by
  have e1 := filter_last h hc (kd := .valve) (by simp)
  simp only [Asset.name] at e1
  simp only [ValveCfg.constrainWithin, e1, ok_bind]
  rfl

end others

/-! ### The site -/

section site
variable {s : Site} {flags : Flags}

theorem firstSite_last {i : Nat} (h : VarsOk s flags (i + 1)) :
    firstSite (s.ivarsTo flags (i + 1)) (-1) = .ok (s.oneInterval i) := by
  have e : IVars.filter (s.ivarsTo flags (i + 1)) (-1) (some .site) (some "site") = .ok [.site (s.oneInterval i)] := by
    simp only [IVars.filter, ivarsTo_last, ok_bind, filter_ones_site (h.ok i (by omega))]
  simp only [firstSite, e, ok_bind]
  rfl

theorem firstSite_at {n i : Nat} (h : VarsOk s flags n) (hi : i < n) :
    IVars.filter (s.ivarsTo flags n) (i : Int) (some .site) (some "site") = .ok [.site (s.oneInterval i)] := by
  simp only [IVars.filter, ivarsTo_index s flags hi, ok_bind, filter_ones_site (h.ok i hi)]

/-- The constraints of the site in one interval, given the loads. -/
def Site.withinList (s : Site) (flags : Flags) (i : Nat) (el hl ll lg : ℚ) : List Con :=
  let assets := s.ones flags i
  let site := s.oneInterval i
  [ (Expr.var site.importPower - .var site.exportPower - .num el
      + sumOver Base.electricGeneration assets
      - sumOver Base.electricLoad assets
      - sumOver Base.electricCharge assets
      + sumOver Base.electricDischarge assets).eqC (.num 0),
    (Expr.var site.importPower - Expr.var site.importBin * site.importLimit).leC (.num 0),
    (Expr.var site.exportPower - Expr.var site.exportBin * site.exportLimit).leC (.num 0),
    (Expr.var site.importBin + .var site.exportBin).eqC (.num 1),
    (sumOver Base.htGeneration assets - sumOver Base.htLoad assets - .num hl).eqC (.num 0),
    (sumOver Base.ltGeneration assets - sumOver Base.ltLoad assets - .num ll + .num lg).eqC (.num 0) ]

theorem site_within_iff {i : Nat} (h : VarsOk s flags (i + 1)) {l : List Con} :
    s.constrainWithin (s.ivarsTo flags (i + 1)) i = .ok l ↔
      ∃ el hl ll lg, s.data.electricLoad[i]? = some el ∧ s.data.htLoad[i]? = some hl ∧
        s.data.ltLoad[i]? = some ll ∧ s.data.ltGeneration[i]? = some lg ∧
        l = s.withinList flags i el hl ll lg := by
  simp only [Site.constrainWithin, constrainSiteElectricityBalance, constrainSiteImportExport,
    constrainSiteHighTemperature, constrainSiteLowTemperature, ivarsTo_last, firstSite_last h, ok_bind, bind_ok,
    Except.ok.injEq, pyIndex_nat]
  constructor
  · rintro ⟨c1, ⟨el, hel, rfl⟩, c3, ⟨hl, hhl, rfl⟩, c4, ⟨ll, hll, lg, hlg, rfl⟩, rfl⟩
    exact ⟨el, hl, ll, lg, hel, hhl, hll, hlg, rfl⟩
  · rintro ⟨el, hl, ll, lg, hel, hhl, hll, hlg, rfl⟩
    exact ⟨_, ⟨el, hel, rfl⟩, _, ⟨hl, hhl, rfl⟩, _, ⟨ll, hll, lg, hlg, rfl⟩, rfl⟩

end site

end EPL
