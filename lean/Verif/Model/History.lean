/-
Objects over time: stand-alone assets, repeated calls of `optimize`, assets shared between sites.
-/
import Verif.Model.Accounting

namespace EPL

/-! ### Stand-alone assets -/

/-- The arguments of a stand-alone constructor that end up in `Site`: the named ones and everything in `**kwargs`. -/
structure SiteArgs where
  raw : RawSiteData
  importLimit : ℚ := 10000
  exportLimit : ℚ := 10000
  constraints : List Constraint := []
  kwargs : List (String × KwData) := []
  deriving DecidableEq, Repr

/-- `electricity_prices is not None or electricity_carbon_intensities is not None` -/
def SiteArgs.hasSite (a : SiteArgs) : Bool :=
  decide (a.raw.electricityPrices ≠ .missing) || decide (a.raw.electricityCarbonIntensities ≠ .missing)

/-- `epl.Site(assets=assets, freq_mins=self.cfg.freq_mins, ...)` if there are prices or carbon intensities; otherwise the
asset has no site. -/
def SiteArgs.site (a : SiteArgs) (assets : List Asset) (freqMins : ℚ) : Res (Option Site) :=
  if a.hasSite then do
    let s ← Site.new assets a.raw freqMins a.importLimit a.exportLimit a.constraints a.kwargs
    .ok (some s)
  else .ok none

/-- `assets.append(epl.Spill())` -/
def spillAsset (flag : Bool) : List Asset := if flag then [.spill { name := "spill" }] else []

/-- `epl.Valve()`, `epl.Boiler()` with their defaults.  assets/valve.py:37-39, assets/boiler.py:39-52 -/
def defaultValve : ValveCfg := { name := "valve" }
/-- see `defaultValve` -/
def defaultBoiler : BoilerCfg :=
  { name := "boiler", heatMax := Defaults.boilerMax, heatMin := 0, efficiency := Defaults.boilerEfficiency }

/-- The site of a stand-alone battery.  assets/battery.py:235-247 -/
def standaloneBattery (c : BatteryCfg) (a : SiteArgs) (includeSpill : Bool) : Res (Option Site) :=
  a.site ([.battery c] ++ spillAsset includeSpill) c.freqMins

/-- The site of a stand-alone CHP.  assets/chp.py:115-131 -/
def standaloneChp (c : ChpCfg) (a : SiteArgs) (includeSpill : Bool) : Res (Option Site) :=
  a.site ([.chp c, .valve defaultValve, .boiler defaultBoiler] ++ spillAsset includeSpill) c.freqMins

/-- The site of a stand-alone heat pump.  assets/heat_pump.py:100-121 -/
def standaloneHeatPump (c : HeatPumpCfg) (a : SiteArgs) (includeSpill : Bool) : Res (Option Site) :=
  a.site ([.heatPump c, .boiler defaultBoiler] ++ spillAsset includeSpill ++
    (if c.includeValve then [.valve defaultValve] else [])) c.freqMins

/-- The site of a stand-alone renewable generator.  assets/renewable_generator.py:161-176 -/
def standaloneRenewable (c : RenewableCfg) (a : SiteArgs) (includeSpill : Bool) : Res (Option Site) :=
  a.site ([.renewable c] ++ spillAsset includeSpill) c.freqMins

/-- The site of a stand-alone EVs asset, with the validation of the charge events.  assets/evs.py:665-682 -/
def standaloneEvs (c : EvsCfg) (a : SiteArgs) (includeSpill : Bool) : Res (Option Site) := do
  match ← a.site ([.evs c] ++ spillAsset includeSpill) c.freqMins with
  | none => .ok none
  | some s => do
    validateEvIntervalData s.data.n c
    .ok (some s)

/-- `asset.optimize(...)`: without a site `self.site` raises `AttributeError`.  assets/battery.py:360-384 (chp.py:208-232,
heat_pump.py:188-210, renewable_generator.py:247-270, evs.py:801-823) -/
def optimizeStandalone (site : Option Site) (objective : Objective) (flags : Flags) (S : Solver) : Res SimResult :=
  match site with
  | some s => s.optimize objective flags S
  | none => .error (.attribute "site")

/-! ### Histories over shared objects -/

/-- A `Site` object: references to asset objects and its own data; `lastObjective` and `lastProgram` are what `optimize`
leaves on the object (`self.objective`, `self.optimizer`).  assets/site.py:377-402, 462, 519 -/
structure SiteObj where
  refs : List Nat
  data : SiteData
  freqMins : ℚ
  importLimit : ℚ
  exportLimit : ℚ
  constraints : List Constraint
  lastObjective : Option Objective := none
  lastProgram : Option Prob := none

/-- The asset objects and site objects alive. -/
structure World where
  assets : List Asset := []
  sites : List SiteObj := []

/-- What a user does. -/
inductive Op where
  /-- create an asset (a constructor without prices) -/
  | newAsset (a : Asset)
  /-- `epl.Site(assets=[...], ...)` with the assets given by their position -/
  | newSite (refs : List Nat) (args : SiteArgs) (freqMins : ℚ)
  /-- `site.optimize(objective, flags)` -/
  | optimize (site : Nat) (objective : Objective) (flags : Flags)

/-- What the user sees. -/
inductive Obs where
  | done
  | failed (e : Err)
  | result (r : Res SimResult)

/-- Writing back the assets `validate_interval_data` rewrote, one after the other. -/
def writeBack (assets : List Asset) : List (Nat × Asset) → List Asset
  | [] => assets
  | (r, a) :: rest => writeBack (assets.set r a) rest

/-- The `Site` value a site object stands for at the moment. -/
def World.deref (w : World) (o : SiteObj) : Site where
  assets := o.refs.filterMap (fun r => w.assets[r]?)
  data := o.data
  freqMins := o.freqMins
  importLimit := o.importLimit
  exportLimit := o.exportLimit
  constraints := o.constraints

/-- The assets `validate_interval_data` has gone through before the first exception, as it leaves them.
assets/site.py:51-70 -/
def fitPrefix (n : Nat) : List Asset → List Asset
  | [] => []
  | a :: as => match a.fit n with
    | .ok a' => a' :: fitPrefix n as
    | .error _ => []

/-- The number of intervals of a site, or the exception its constructor raises before it touches any asset. -/
def SiteArgs.length (args : SiteArgs) : Res Nat := do
  if args.kwargs.any (fun kw => siteParams.contains kw.1) || !noDup (args.kwargs.map Prod.fst) then
    .error (.type "got multiple values for argument")
  else
    let d ← validateSiteData args.raw
    let d ← d.toFinite
    .ok d.n

/-- One operation.  The assets of a new site are fitted to its length in place (assets/site.py:51-70 mutates
`asset.cfg.interval_data`); this stays even if the constructor then raises, for instance for empty custom data. -/
def World.step (S : Solver) (w : World) : Op → World × Obs
  | .newAsset a => ({ w with assets := w.assets ++ [a] }, .done)
  | .newSite refs args freqMins =>
    if refs.any (fun r => decide (w.assets.length ≤ r)) then (w, .failed .index)
    else
      let assets := refs.filterMap (fun r => w.assets[r]?)
      match args.length with
      | .error e => (w, .failed e)
      | .ok n =>
        let heap := writeBack w.assets (refs.zip (fitPrefix n assets))
        match Site.new assets args.raw freqMins args.importLimit args.exportLimit args.constraints args.kwargs with
        | .error e => ({ w with assets := heap }, .failed e)
        | .ok s =>
          ({ assets := heap,
             sites := w.sites ++ [{ refs, data := s.data, freqMins := s.freqMins, importLimit := s.importLimit,
                                    exportLimit := s.exportLimit, constraints := s.constraints }] }, .done)
  | .optimize k objective flags =>
    match w.sites[k]? with
    | none => (w, .failed .index)
    | some o =>
      let s := w.deref o
      let prog := match s.program objective flags with
        | .ok (_, p) => some p
        | .error _ => none
      ({ w with sites := w.sites.set k { o with lastObjective := some objective, lastProgram := prog } },
       .result (s.optimize objective flags S))

/-- A history of operations and what the user saw. -/
def World.run (S : Solver) (w : World) : List Op → World × List Obs
  | [] => (w, [])
  | op :: ops =>
    let (w', o) := w.step S op
    let (w'', os) := World.run S w' ops
    (w'', o :: os)

end EPL
