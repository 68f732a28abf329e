/-
What the constructors should do with their arguments, stated without the model's functions.
-/
import Verif.Model.Site

namespace EPL

/-- What becomes of an interval data argument on a site with `n` intervals: a missing one is the default in every interval, a
number is repeated, an array must have one finite number per interval. -/
def Completed (n : Nat) (dflt : ℚ) (given : RawField) (out : List PyFloat) : Prop :=
  match given with
  | .missing => out = List.replicate n (some dflt)
  | .scalar x => ∃ q : ℚ, (0 < n → x = some q) ∧ out = List.replicate n (some q)
  | .array l => l.length = n ∧ (∀ x ∈ l, x ≠ none) ∧ out = l

/-- The fields that are completed the same way whatever the anchor is. -/
structure CompletedRest (r : RawSiteData) (d : SiteDataF) : Prop where
  gas : Completed d.n 20 r.gasPrices d.gasPrices
  electricLoad : Completed d.n 0 r.electricLoad d.electricLoad
  htLoad : Completed d.n 0 r.htLoad d.htLoad
  ltLoad : Completed d.n 0 r.ltLoad d.ltLoad
  ltGeneration : Completed d.n 0 r.ltGeneration d.ltGeneration

/-- The documented reading of the interval data arguments: import prices are the anchor, otherwise carbon intensities. -/
def SiteDataSpec (r : RawSiteData) (d : SiteDataF) : Prop :=
  (∃ prices, r.electricityPrices = .array prices ∧ d.n = prices.length ∧ d.electricityPrices = prices ∧
    (r.exportElectricityPrices = .missing → d.exportElectricityPrices = prices) ∧
    (r.exportElectricityPrices ≠ .missing → Completed d.n 100 r.exportElectricityPrices d.exportElectricityPrices) ∧
    Completed d.n (1/10) r.electricityCarbonIntensities d.electricityCarbonIntensities ∧ CompletedRest r d) ∨
  (r.electricityPrices = .missing ∧ ∃ carbon, r.electricityCarbonIntensities = .array carbon ∧ d.n = carbon.length ∧
    d.electricityCarbonIntensities = carbon ∧ d.electricityPrices = List.replicate d.n (some 100) ∧
    Completed d.n 100 r.exportElectricityPrices d.exportElectricityPrices ∧ CompletedRest r d)

/-- The `j`-th element of `a` repeated for ever. -/
def cyclic {α : Type} (a : List α) (j : Nat) : Option α := a[j % a.length]?

end EPL
