/-
Site interval data, the `Site` constructor and the site constraints.
-/
import Verif.Model.Assets

namespace EPL

/-! ### Interval data -/

/-- A Python float as the interval data constructor sees it: `none` is NaN. -/
abbrev PyFloat := Option ℚ

/-- An interval data argument: `None`, a float, or a one dimensional list or array.  assets/site.py:95-102.
Zero and two dimensional arrays are not modelled. -/
inductive RawField where
  | missing
  | scalar (x : PyFloat)
  | array (l : List PyFloat)
  deriving DecidableEq, Repr

/-- The arguments of `SiteIntervalData`.  assets/site.py:92-105 -/
structure RawSiteData where
  electricityPrices : RawField := .missing
  exportElectricityPrices : RawField := .missing
  electricityCarbonIntensities : RawField := .missing
  gasPrices : RawField := .missing
  electricLoad : RawField := .missing
  htLoad : RawField := .missing
  ltLoad : RawField := .missing
  ltGeneration : RawField := .missing
  deriving DecidableEq, Repr

/-- Validated interval data; `n` is `len(idx)`. -/
structure SiteDataF where
  n : Nat
  electricityPrices : List PyFloat
  exportElectricityPrices : List PyFloat
  electricityCarbonIntensities : List PyFloat
  gasPrices : List PyFloat
  electricLoad : List PyFloat
  htLoad : List PyFloat
  ltLoad : List PyFloat
  ltGeneration : List PyFloat
  deriving DecidableEq, Repr

/-- The loop body of `validate_all_things` for one non-anchor field.  assets/site.py:137-156 -/
def completeField (n : Nat) (dflt : ℚ) : RawField → Res (List PyFloat)
  | .missing => .ok (List.replicate n (some dflt))
  | .scalar x => do
    let l := List.replicate n x
    pyValidate (l.all Option.isSome) "nan"
    .ok l
  | .array l => do
    pyValidate (decide (l.length = n)) "length"
    pyValidate (l.all Option.isSome) "nan"
    .ok l

/-- Export prices when import prices are the anchor: missing ones are the import prices.  assets/site.py:119-121, 137-156 -/
def completeExport (prices : List PyFloat) : RawField → Res (List PyFloat)
  | .missing => .ok prices
  | f => completeField prices.length Defaults.exportElectricityPrices f

/-- `SiteIntervalData.validate_all_things`.  assets/site.py:107-158.  The anchor field itself (and export prices
copied from it) is not checked for NaN. -/
def validateSiteData (r : RawSiteData) : Res SiteDataF :=
  match r.electricityPrices with
  | .array prices => do
    let n := prices.length
    let export' ← completeExport prices r.exportElectricityPrices
    let carbon ← completeField n Defaults.electricityCarbonIntensities r.electricityCarbonIntensities
    let gas ← completeField n Defaults.gasPrices r.gasPrices
    let el ← completeField n Defaults.electricLoad r.electricLoad
    let ht ← completeField n Defaults.highTemperatureLoad r.htLoad
    let lt ← completeField n Defaults.lowTemperatureLoad r.ltLoad
    let lg ← completeField n Defaults.lowTemperatureGeneration r.ltGeneration
    .ok { n, electricityPrices := prices, exportElectricityPrices := export',
          electricityCarbonIntensities := carbon, gasPrices := gas, electricLoad := el, htLoad := ht,
          ltLoad := lt, ltGeneration := lg }
  | .scalar _ => .error (.validation "electricity_prices")
  | .missing =>
    match r.electricityCarbonIntensities with
    | .array carbon => do
      let n := carbon.length
      let prices ← completeField n Defaults.electricityPrices .missing
      let export' ← completeField n Defaults.exportElectricityPrices r.exportElectricityPrices
      let gas ← completeField n Defaults.gasPrices r.gasPrices
      let el ← completeField n Defaults.electricLoad r.electricLoad
      let ht ← completeField n Defaults.highTemperatureLoad r.htLoad
      let lt ← completeField n Defaults.lowTemperatureLoad r.ltLoad
      let lg ← completeField n Defaults.lowTemperatureGeneration r.ltGeneration
      .ok { n, electricityPrices := prices, exportElectricityPrices := export',
            electricityCarbonIntensities := carbon, gasPrices := gas, electricLoad := el, htLoad := ht,
            ltLoad := lt, ltGeneration := lg }
    | .scalar _ => .error (.validation "electricity_carbon_intensities")
    | .missing =>
      .error (.validation "One of electricity_prices or carbon_intensities should be specified.")

/-- `site.cfg.interval_data` with finite numbers; `custom` are the extra attributes set by
`validate_interval_data`, in order. -/
structure SiteData where
  n : Nat
  electricityPrices : List ℚ
  exportElectricityPrices : List ℚ
  electricityCarbonIntensities : List ℚ
  gasPrices : List ℚ
  electricLoad : List ℚ
  htLoad : List ℚ
  ltLoad : List ℚ
  ltGeneration : List ℚ
  custom : List (String × List ℚ)
  deriving DecidableEq, Repr

/-- The finite numbers of an array; NaN prices reach pulp and are not modelled. -/
def finite (l : List PyFloat) : Res (List ℚ) :=
  mapE (fun x => match x with
    | some q => .ok q
    | none => .error (.unmodelled "NaN in interval data")) l

/-- Interval data with finite numbers. -/
def SiteDataF.toFinite (d : SiteDataF) : Res SiteData := do
  .ok { n := d.n
        electricityPrices := ← finite d.electricityPrices
        exportElectricityPrices := ← finite d.exportElectricityPrices
        electricityCarbonIntensities := ← finite d.electricityCarbonIntensities
        gasPrices := ← finite d.gasPrices
        electricLoad := ← finite d.electricLoad
        htLoad := ← finite d.htLoad
        ltLoad := ← finite d.ltLoad
        ltGeneration := ← finite d.ltGeneration
        custom := [] }

/-- `interval_data.model_dump()` without `idx`, in field order.  assets/site.py:95-102; results/extract.py:67-69 -/
def SiteData.dump (d : SiteData) : List (String × List ℚ) :=
  [ ("electricity_prices", d.electricityPrices),
    ("export_electricity_prices", d.exportElectricityPrices),
    ("electricity_carbon_intensities", d.electricityCarbonIntensities),
    ("gas_prices", d.gasPrices),
    ("electric_load_mwh", d.electricLoad),
    ("high_temperature_load_mwh", d.htLoad),
    ("low_temperature_load_mwh", d.ltLoad),
    ("low_temperature_generation_mwh", d.ltGeneration) ] ++ d.custom

/-- `getattr(interval_data, name)[i]`; `idx` itself is an attribute too. -/
def SiteData.at (d : SiteData) (name : String) (i : Nat) : Res ℚ :=
  if name = "idx" then (if i < d.n then .ok (i : ℚ) else .error .index)
  else match d.dump.lookup name with
    | some l => pyIndex l i
    | none => .error (.attribute name)

/-! ### Custom constraints (constraints.py) -/

/-- constraints.py:12-61 -/
structure ConstraintTerm where
  attr : String
  assetType : Option String := none
  intervalData : Option String := none
  assetName : Option String := none
  coefficient : ℚ := 1
  deriving DecidableEq, Repr

/-- One entry of a constraint side: a float or a term.  constraints.py:82-83; dictionaries are not modelled. -/
inductive CEntry where
  | num (q : ℚ)
  | term (t : ConstraintTerm)
  deriving DecidableEq, Repr

/-- A constraint side: a single entry or a list of entries.  constraints.py:82-83 -/
inductive CSide where
  | one (e : CEntry)
  | many (es : List CEntry)
  deriving DecidableEq, Repr

/-- `_add_terms` treats a single entry as a list of one.  constraints.py:191-211 -/
def CSide.entries : CSide → List CEntry
  | .one e => [e]
  | .many es => es

/-- constraints.py:68-85; `sumAgg` is `interval_aggregation == "sum"`. -/
structure Constraint where
  lhs : CSide
  rhs : CSide
  sense : Sense
  sumAgg : Bool
  deriving DecidableEq, Repr

/-- `isinstance(t, float)` -/
def CEntry.isNum : CEntry → Bool
  | .num _ => true
  | .term _ => false

/-- `Constraint.validate_all`.  constraints.py:117-139 -/
def Constraint.new (lhs rhs : CSide) (sense : Sense) (sumAgg : Bool) : Res Constraint :=
  if lhs.entries.all CEntry.isNum && rhs.entries.all CEntry.isNum then
    .error (.validation "lhs and rhs cannot be all floats")
  else .ok { lhs, rhs, sense, sumAgg }

/-! ### Site -/

/-- A `Site`.  assets/site.py:331-402 -/
structure Site where
  assets : List Asset
  data : SiteData
  freqMins : ℚ
  importLimit : ℚ
  exportLimit : ℚ
  constraints : List Constraint
  deriving Repr

/-- A keyword argument of `Site`: a one dimensional sequence, another sequence, or anything else. -/
inductive KwData where
  | seq (l : List ℚ)
  | nested
  | other
  deriving DecidableEq, Repr

/-- The named parameters of `Site.__init__`, which cannot also be keyword arguments.  assets/site.py:338-355 -/
def siteParams : List String :=
  [ "self", "assets", "electricity_prices", "export_electricity_prices", "electricity_carbon_intensities",
    "gas_prices", "electric_load_mwh", "high_temperature_load_mwh", "low_temperature_load_mwh",
    "low_temperature_generation_mwh", "name", "freq_mins", "import_limit_mw", "export_limit_mw",
    "constraints" ]

/-- `get_custom_interval_data` and the custom data part of `validate_interval_data`.
assets/site.py:20-39, 49, 72-84 -/
def customData (n : Nat) : List (String × KwData) → Res (List (String × List ℚ))
  | [] => .ok []
  | (name, .seq l) :: kws => do
    if name = "idx" then .error (.unmodelled "custom interval data named idx")
    else
      let l' ← repeatToMatchLength l n
      let rest ← customData n kws
      .ok ((name, l') :: rest)
  | (_, .nested) :: kws => customData n kws
  | (_, .other) :: kws => customData n kws

/-- The asset part of `validate_interval_data`: only renewable generators have interval data; if the length differs
it is repeated or cut to the site length.  assets/site.py:51-70 -/
def Asset.fit (n : Nat) : Asset → Res Asset
  | .renewable c =>
    if c.idxLen = n then .ok (.renewable c)
    else do
      let g ← repeatToMatchLength c.generation n
      .ok (.renewable { c with generation := g, isArray := true, idxLen := n })
  | a => .ok a

/-- `Site.__init__`.  assets/site.py:338-402 -/
def Site.new (assets : List Asset) (raw : RawSiteData) (freqMins : ℚ := Defaults.freqMins)
    (importLimit : ℚ := 10000) (exportLimit : ℚ := 10000) (constraints : List Constraint := [])
    (kwargs : List (String × KwData) := []) : Res Site := do
  if kwargs.any (fun kw => siteParams.contains kw.1) || !noDup (kwargs.map Prod.fst) then
    .error (.type "got multiple values for argument")
  else
    let d ← validateSiteData raw
    let d ← d.toFinite
    let assets ← mapE (Asset.fit d.n) assets
    let custom ← customData d.n kwargs
    .ok { assets, data := { d with custom }, freqMins, importLimit, exportLimit, constraints }

/-- `Freq(self.cfg.freq_mins)`.  assets/site.py:463 -/
def Site.freq (s : Site) : Freq := ⟨s.freqMins⟩

/-- `Site.one_interval`.  assets/site.py:408-424 -/
def Site.oneInterval (s : Site) (i : Nat) : SiteOI where
  importPower := continuous (.site "import_power_mw" i) (up := some (s.freq.mwToMwh s.importLimit))
  exportPower := continuous (.site "export_power_mw" i) (up := some (s.freq.mwToMwh s.exportLimit))
  importBin := binary (.site "import_power_bin" i)
  exportBin := binary (.site "export_power_bin" i)
  importLimit := s.freq.mwToMwh s.importLimit
  exportLimit := s.freq.mwToMwh s.exportLimit

/-- `optimizer.sum([a.<quantity> for a in assets])` -/
def sumOver (q : Base → Val) (assets : List OneInterval) : Expr :=
  Expr.sum (assets.map (fun a => (q a.base).toExpr))

/-- `ivars.filter_objective_variables(SiteOneInterval, i=-1, asset_name="site")[0]` -/
def firstSite (iv : IVars) (i : Int) : Res SiteOI := do
  match ← pyIndex (← iv.filter i (some .site) (some "site")) 0 with
  | .site s => .ok s
  | _ => .error (.assertion "isinstance SiteOneInterval")

/-- `constrain_site_electricity_balance`.  assets/site.py:228-260 -/
def constrainSiteElectricityBalance (d : SiteData) (iv : IVars) (i : Nat) : Res (List Con) := do
  let assets ← pyIndex iv (-1)
  let site ← firstSite iv (-1)
  let load ← pyIndex d.electricLoad i
  .ok [ (Expr.var site.importPower - .var site.exportPower - .num load
          + sumOver Base.electricGeneration assets
          - sumOver Base.electricLoad assets
          - sumOver Base.electricCharge assets
          + sumOver Base.electricDischarge assets).eqC (.num 0) ]

/-- `constrain_site_import_export`.  assets/site.py:263-279 -/
def constrainSiteImportExport (iv : IVars) : Res (List Con) := do
  let site ← firstSite iv (-1)
  .ok [ (Expr.var site.importPower - Expr.var site.importBin * site.importLimit).leC (.num 0),
        (Expr.var site.exportPower - Expr.var site.exportBin * site.exportLimit).leC (.num 0),
        (Expr.var site.importBin + .var site.exportBin).eqC (.num 1) ]

/-- `constrain_site_high_temperature_heat_balance`.  assets/site.py:282-302 -/
def constrainSiteHighTemperature (d : SiteData) (iv : IVars) (i : Nat) : Res (List Con) := do
  let assets ← pyIndex iv (-1)
  let load ← pyIndex d.htLoad i
  .ok [ (sumOver Base.htGeneration assets - sumOver Base.htLoad assets - .num load).eqC (.num 0) ]

/-- `constrain_site_low_temperature_heat_balance`.  assets/site.py:305-327 -/
def constrainSiteLowTemperature (d : SiteData) (iv : IVars) (i : Nat) : Res (List Con) := do
  let assets ← pyIndex iv (-1)
  let load ← pyIndex d.ltLoad i
  let gen ← pyIndex d.ltGeneration i
  .ok [ (sumOver Base.ltGeneration assets - sumOver Base.ltLoad assets - .num load + .num gen).eqC (.num 0) ]

/-- `Site.constrain_within_interval`.  assets/site.py:426-441 -/
def Site.constrainWithin (s : Site) (iv : IVars) (i : Nat) : Res (List Con) := do
  let c1 ← constrainSiteElectricityBalance s.data iv i
  let c2 ← constrainSiteImportExport iv
  let c3 ← constrainSiteHighTemperature s.data iv i
  let c4 ← constrainSiteLowTemperature s.data iv i
  .ok (c1 ++ c2 ++ c3 ++ c4)

/-- The variables of one interval: the site first, then every asset.  assets/site.py:479-486 -/
def Site.intervalVars (s : Site) (flags : Flags) (i : Nat) : Res (List OneInterval) := do
  let rest ← flatMapE (fun a => a.oneInterval i s.freq flags) s.assets
  .ok (.site (s.oneInterval i) :: rest)

/-- The loop over the intervals of `Site.optimize`.  assets/site.py:478-496 -/
def Site.buildLoop (s : Site) (flags : Flags) : List Nat → IVars → List Con → Res (IVars × List Con)
  | [], iv, cs => .ok (iv, cs)
  | i :: is, iv, cs => do
    let one ← s.intervalVars flags i
    let iv := iv ++ [one]
    let c1 ← s.constrainWithin iv i
    let c2 ← flatMapE (fun a => a.constrainWithin iv i s.freq flags) s.assets
    s.buildLoop flags is iv (cs ++ c1 ++ c2)

/-- The variables and constraints of all intervals.  assets/site.py:477-502 -/
def Site.build (s : Site) (flags : Flags) : Res (IVars × List Con) := do
  let (iv, cs) ← s.buildLoop flags (List.range s.data.n) [] []
  let after ← flatMapE (fun a => a.constrainAfter iv) s.assets
  .ok (iv, cs ++ after)

/-- `_resolve_constraint_term`.  constraints.py:142-176 -/
def resolveConstraintTerm (d : SiteData) (iv : IVars) (i : Nat) (divide : Bool) : CEntry → Res (List Expr)
  | .num q => .ok [.num (q / (if divide then (d.n : ℚ) else 1))]
  | .term t => do
    let vars ← iv.filterStr i t.assetType t.assetName
    mapE (fun v => do
      let x ← v.getattr t.attr
      let data ← match t.intervalData with
        | some name => d.at name i
        | none => .ok 1
      .ok (x.toExpr * data * t.coefficient)) vars

/-- `_add_terms`.  constraints.py:179-211 -/
def addTerms (d : SiteData) (iv : IVars) (i : Nat) (divide : Bool) (side : CSide) : Res (List Expr) :=
  flatMapE (resolveConstraintTerm d iv i divide) side.entries

/-- The loop of `add_custom_constraint`: the pending terms of both sides are carried along and, without aggregation,
emptied after every interval.  constraints.py:237-268 -/
def customLoop (d : SiteData) (iv : IVars) (c : Constraint) :
    List Nat → List Expr → List Expr → Res (List Con × List Expr × List Expr)
  | [], lhs, rhs => .ok ([], lhs, rhs)
  | i :: is, lhs, rhs => do
    let l ← addTerms d iv i c.sumAgg c.lhs
    let r ← addTerms d iv i c.sumAgg c.rhs
    let lhs := lhs ++ l
    let rhs := rhs ++ r
    pyAssert (decide (0 < lhs.length)) "len(lhs) > 0"
    pyAssert (decide (0 < rhs.length)) "len(rhs) > 0"
    if c.sumAgg then customLoop d iv c is lhs rhs
    else
      let con : Con := ⟨Expr.sum lhs - Expr.sum rhs, c.sense⟩
      let (cs, l', r') ← customLoop d iv c is [] []
      .ok (con :: cs, l', r')

/-- `add_custom_constraint`.  constraints.py:214-277 -/
def addCustomConstraint (d : SiteData) (iv : IVars) (c : Constraint) : Res (List Con) := do
  let (cs, lhs, rhs) ← customLoop d iv c (List.range d.n) [] []
  if c.sumAgg then .ok (cs ++ [⟨Expr.sum lhs - Expr.sum rhs, c.sense⟩])
  else .ok cs

end EPL
