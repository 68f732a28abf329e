/-
Random interval data for electric vehicles (data_generation.py).
-/
import Verif.Model.Py
import Mathlib.Tactic.Linarith

namespace EPL

/-- The numbers `np.random` will draw, as arbitrary streams: one stream for each call of a distribution.  Normal draws are standard normal numbers, uniform
draws are fractions, `randint` draws are reduced to the range asked for.  Seeds only select the stream. -/
structure Draws where
  price : Nat → ℚ
  intensity : Nat → ℚ
  charger : Nat → Nat
  length : Nat → Nat
  start : Nat → Nat
  normal : Nat → ℚ
  uniform : Nat → ℚ

/-- numpy refuses negative sizes with a `ValueError`. -/
def npSize (n : Int) : Res Nat := if n < 0 then .error (.value "negative dimensions are not allowed") else .ok n.toNat

/-- `np.random.seed(seed)`: seeds are `None` or between 0 and 2**32 - 1.  data_generation.py:21 -/
def npSeed : Option Int → Res Unit
  | none => .ok ()
  | some k => if k < 0 ∨ 2 ^ 32 ≤ k then .error (.value "Seed must be between 0 and 2**32 - 1") else .ok ()

/-- `np.random.normal(mu, std, n)` -/
def npNormal (mu std : ℚ) (n : Int) (z : Nat → ℚ) : Res (List ℚ) :=
  if std < 0 then .error (.value "scale < 0")
  else do
    let k ← npSize n
    .ok ((List.range k).map (fun i => mu + std * z i))

/-- `np.random.uniform(low, high, n)` -/
def npUniform (low high : ℚ) (n : Int) (u : Nat → ℚ) : Res (List ℚ) := do
  let k ← npSize n
  .ok ((List.range k).map (fun i => low + (high - low) * u i))

/-- `np.random.randint(low, high)`: the upper end is excluded, an empty range is a `ValueError`. -/
def npRandint (low high : Int) (u : Nat) : Res Int :=
  if high ≤ low then .error (.value "low >= high") else .ok (low + (u : Int) % (high - low))

/-- `np.random.randint(low, high, n)` with a range that is not empty -/
def npRandints (low high : Int) (n : Int) (u : Nat → Nat) : Res (List Int) := do
  let k ← npSize n
  mapE (fun i => npRandint low high (u i)) (List.range k)

/-- A row of `np.zeros` with `row[start: start + length] = 1`; both ends are not negative here.  data_generation.py:34 -/
def chargeRow (idxLength start length : Nat) : List ℚ :=
  (List.range idxLength).map (fun t => if start ≤ t ∧ t < start + length then 1 else 0)

/-- The arguments of `generate_random_ev_input_data` with their defaults.  data_generation.py:5-19 -/
structure GenArgs where
  idxLength : Int
  nChargers : Int
  chargeLength : Int
  normalMu : ℚ := 0
  normalStd : ℚ := 1
  uniformMin : ℚ := 0
  uniformMax : ℚ := 10
  nChargeEvents : Int := 10
  pricesMu : ℚ := 100
  pricesStd : ℚ := 20
  seed : Option Int := some 2
  intensityMu : ℚ := 1/2
  intensityStd : ℚ := 1

/-- The dictionary it returns.  data_generation.py:42-48 -/
structure GenData where
  electricityPrices : List ℚ
  electricityCarbonIntensities : List ℚ
  chargersPower : List ℚ
  capacities : List ℚ
  chargeEvents : List (List ℚ)
  deriving DecidableEq, Repr

/-- The body of the loop over the charge events: `length` is drawn first, then `start`.  data_generation.py:31-34 -/
def drawRow (idxLength : Nat) (chargeLength : Int) (d : Draws) (step : Nat) : Res (List ℚ) := do
  let length ← npRandint 1 chargeLength (d.length step)
  let start ← npRandint 0 (idxLength - length - 1) (d.start step)
  .ok (chargeRow idxLength start.toNat length.toNat)

/-- `generate_random_ev_input_data`.  data_generation.py:5-48.  Floating point numbers are rationals, and the draws are arbitrary. -/
def generateEvData (a : GenArgs) (d : Draws) : Res GenData := do
  npSeed a.seed
  let prices ← npNormal a.pricesMu a.pricesStd a.idxLength d.price
  let intensities ← npNormal a.intensityMu a.intensityStd a.idxLength d.intensity
  let chargers ← npRandints 10 100 a.nChargers d.charger
  let events ← npSize a.nChargeEvents
  let idx ← npSize a.idxLength
  let chargeLength := min (a.idxLength - 2) a.chargeLength
  let rows ← mapE (drawRow idx chargeLength d) (List.range events)
  let normals ← npNormal a.normalMu a.normalStd a.nChargeEvents d.normal
  let uniforms ← npUniform a.uniformMin a.uniformMax a.nChargeEvents d.uniform
  .ok { electricityPrices := prices
        electricityCarbonIntensities := intensities
        chargersPower := chargers.map (fun (k : Int) => (k : ℚ))
        capacities := (List.zipWith (· + ·) normals uniforms).map (fun x => max x 0)
        chargeEvents := rows }

end EPL
