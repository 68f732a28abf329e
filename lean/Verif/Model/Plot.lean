/-
Plots of results and the debugging helpers: plot.py, debug.py.

The model follows what these functions read from and write to `simulation.results`, and the numbers handed to matplotlib and seaborn.
Titles, axis labels, legends, positions and the image file are not modelled.
-/
import Verif.Model.Accounting
import Mathlib.Data.Rat.Floor

namespace EPL

/-- The numbers of one call of `results.plot`, `ax.bar`: the axis, the column that gives the label, positions, heights, bottoms. -/
structure Drawn where
  axis : Nat
  label : String
  xs : List ℚ
  ys : List ℚ
  bottom : List ℚ := []
  deriving DecidableEq, Repr

/-- What a plot function does with the results, one statement at a time. -/
inductive PlotStep where
  /-- `results[col] = value` -/
  | put (col : String) (value : Table → Res (List ℚ))
  /-- a call that draws -/
  | draw (drawn : Table → Res Drawn)

/-- Runs the statements.  The results are changed in place, so the changes stay when a later statement raises. -/
def runSteps : List PlotStep → Table → Table × Res (List Drawn)
  | [], t => (t, .ok [])
  | .put col value :: rest, t =>
    match value t with
    | .ok v => runSteps rest (t.set col v)
    | .error e => (t, .error e)
  | .draw drawn :: rest, t =>
    match drawn t with
    | .ok d =>
      match runSteps rest t with
      | (t', .ok ds) => (t', .ok (d :: ds))
      | (t', .error e) => (t', .error e)
    | .error e => (t, .error e)

/-- `find_column`.  plot.py:15-21 -/
def findColumn (t : Table) (start stop : String) : Res String :=
  match t.columns.filter (fun c => pyStartsWith c start && pyEndsWith c stop) with
  | [c] => .ok c
  | _ => .error (.assertion "len(cols) == 1")

/-- `np.arange(results.shape[0]).tolist()`.  plot.py:32, 254, 312 -/
def arange (t : Table) : List ℚ := (List.range t.rows).map (fun i : Nat => (i : ℚ))

/-- `results[a] - results[b]` -/
def Table.difference (t : Table) (a b : String) : Res (List ℚ) := do
  let x ← t.get a
  let y ← t.get b
  .ok (List.zipWith (· - ·) x y)

/-- `results.plot(ax=axes[axis], x=x, y=col)` -/
def drawColumn (axis : Nat) (x col : String) : PlotStep :=
  .draw (fun t => do
    let ys ← t.get col
    let xs ← t.get x
    .ok { axis, label := col, xs, ys })

/-- The two columns `plot_battery` and `plot_chp` begin with, and the first line.  plot.py:32-41, 254-263 -/
def balanceSteps : List PlotStep :=
  [ .put "Index" (fun t => .ok (arange t)),
    .put "import-export-balance" (fun t => t.difference "site-import_power_mwh" "site-export_power_mwh"),
    drawColumn 0 "Index" "import-export-balance" ]

/-- `plot_battery`; the site is called "site".  plot.py:24-91 -/
def plotBattery : List PlotStep :=
  balanceSteps ++
  [ .put "net-battery-charge" (fun t => do
      let a ← findColumn t "battery-" "-electric_charge_mwh"
      let b ← findColumn t "battery-" "-electric_discharge_mwh"
      t.difference a b),
    drawColumn 1 "Index" "net-battery-charge",
    drawColumn 2 "Index" "battery-electric_final_charge_mwh",
    drawColumn 3 "Index" "site-electricity_prices",
    drawColumn 4 "Index" "site-electricity_carbon_intensities" ]

/-- `plot_chp`.  plot.py:250-302 -/
def plotChp : List PlotStep :=
  balanceSteps ++
  [ drawColumn 1 "Index" "boiler-high_temperature_generation_mwh",
    drawColumn 2 "Index" "spill-low_temperature_load_mwh",
    drawColumn 3 "Index" "site-electricity_prices",
    drawColumn 4 "Index" "site-electricity_carbon_intensities" ]

/-- numpy's `rint`: to the nearest integer, halves to the even neighbour. -/
def rint (q : ℚ) : ℤ :=
  if q - ⌊q⌋ < 1 / 2 then ⌊q⌋
  else if 1 / 2 < q - ⌊q⌋ then ⌊q⌋ + 1
  else if ⌊q⌋ % 2 = 0 then ⌊q⌋ else ⌊q⌋ + 1

/-- `.round(4)` -/
def round4 (q : ℚ) : ℚ := rint (q * 10000) / 10000

/-- The body of the two loops over columns of `plot_heat_pump`; the bars stand on those drawn before.  plot.py:341-350, 358-363 -/
def stackSteps (shift : ℚ) (before : List String) (col : String) : List PlotStep :=
  [ .put col (fun t => do
      let y ← t.get col
      .ok (y.map round4)),
    .draw (fun t => do
      let ys ← t.get col
      let x ← t.get "index"
      let below ← mapE t.get before
      .ok { axis := 1, label := col, xs := x.map (· + shift), ys,
            bottom := below.foldl (List.zipWith (· + ·)) (List.replicate x.length 0) }) ]

/-- `plot_heat_pump`.  plot.py:305-384 -/
def plotHeatPump (name : String) : List PlotStep :=
  [ .put "index" (fun t => .ok (arange t)),
    drawColumn 0 "index" "site-high_temperature_load_mwh",
    drawColumn 0 "index" (name ++ "-high_temperature_generation_mwh") ] ++
  stackSteps (-15/100) [] "spill-low_temperature_load_mwh" ++
  stackSteps (-15/100) ["spill-low_temperature_load_mwh"] "site-low_temperature_load_mwh" ++
  stackSteps (-15/100) ["spill-low_temperature_load_mwh", "site-low_temperature_load_mwh"] (name ++ "-low_temperature_load_mwh") ++
  stackSteps (15/100) [] "site-low_temperature_generation_mwh" ++
  stackSteps (15/100) ["site-low_temperature_generation_mwh"] "spill-low_temperature_generation_mwh" ++
  stackSteps (15/100) ["site-low_temperature_generation_mwh", "spill-low_temperature_generation_mwh"]
    "valve-low_temperature_generation_mwh" ++
  [ drawColumn 2 "index" "site-electricity_prices",
    drawColumn 2 "index" "site-electricity_carbon_intensities" ]

/-- The numbers of the four heat maps of `plot_evs`, column by column. -/
structure EvsPicture where
  chargers : List (List ℚ)
  events : List (List ℚ)
  /-- the text in the cells of the second heat map: initial state of charge, charge, final state of charge -/
  annotations : List (List (ℚ × ℚ × ℚ))
  /-- the cells of the second heat map that are hidden -/
  hidden : List (List Bool)
  spill : List ℚ
  prices : List ℚ
  deriving DecidableEq, Repr

/-- `results[[c for c in results.columns if part in c and c.endswith(stop)]].values`, column by column. -/
def Table.selected (t : Table) (part stop : String) : List (List ℚ) :=
  (t.filter (fun c => pyIn part c.1 && pyEndsWith c.1 stop)).map Prod.snd

/-- `a - b` on two arrays of the same number of rows: numpy repeats a single column, other widths do not fit. -/
def minusArrays (a b : List (List ℚ)) : Res (List (List ℚ)) :=
  let minus : List ℚ → List ℚ → List ℚ := List.zipWith (· - ·)
  if a.length = b.length then .ok (List.zipWith minus a b)
  else match a, b with
    | [x], _ => .ok (b.map (minus x))
    | _, [y] => .ok (a.map (fun x => minus x y))
    | _, _ => .error (.value "operands could not be broadcast together")

/-- `plot_evs`; it only reads the results.  The second heat map hides the cells in which the charge event is not plugged in.
plot.py:94-247 -/
def plotEvs (t : Table) (name : String) (assets : List Asset) : Res EvsPicture := do
  let chargers ← minusArrays (t.selected "charger-" "-electric_charge_mwh") (t.selected "charger-" "-electric_discharge_mwh")
  let events ← minusArrays (t.selected "charge-event-" "electric_charge_mwh")
    (t.selected "charge-event-" "electric_discharge_mwh")
  let initial := t.selected "charge-event-" "initial_soc_mwh"
  let final := t.selected "charge-event-" "final_soc_mwh"
  if (chargers.flatten ++ events.flatten).isEmpty then .error (.value "zero-size array to reduction operation minimum") else do
  match assets.filter (fun a => a.name == name) with
  | [.evs c] => do
    let hidden := (List.range c.events.length).map (fun e => c.chargeEvents.map (fun row => decide (row.getD e 0 = 0)))
    if hidden.length ≠ events.length ∨ initial.length ≠ events.length ∨ (c.chargeEvents.length ≠ t.rows) then
      .error (.value "Mask must have the same shape as data.")
    else do
      let spill ← t.get (name ++ "-charger-spill-evs-electric_charge_mwh")
      let prices ← t.get "site-electricity_prices"
      .ok { chargers, events, hidden, spill, prices,
            annotations := List.zipWith (fun a bc => List.zipWith (fun x yz => (x, yz.1, yz.2)) a bc) initial
              (List.zipWith (fun b c => List.zip b c) events final) }
  | [_] => .error (.attribute "charge_events")
  | _ => .error (.assertion "len(assets) == 1")

/-- `debug_asset`: the columns with `name` in their name.  debug.py:47-55 -/
def debugAsset (t : Table) (name : String) : Table := t.filter (fun c => pyIn name c.1)

/-- `_debug_column`, but for the shortened labels: the table it prints.  debug.py:12-18 -/
def debugColumn (t : Table) (col : String) : Table := t.filter (fun c => pyIn col c.1)

/-- `debug_simulation`: the tables it prints.  debug.py:21-36 -/
def debugSimulation (t : Table) : Res (List Table) := do
  let first ← mapE (fun k => do
    let col ← t.get k
    .ok (k, col)) ["site-import_power_mwh", "site-export_power_mwh", "site-electricity_carbon_intensities"]
  .ok (first :: ["electric_charge_mwh", "electric_discharge_mwh", "initial_soc_mwh", "final_soc_mwh", "electric_loss_mwh"].map (debugColumn t))

/-- `debug_balances`.  debug.py:39-43 -/
def debugBalances (t : Table) : Res Unit := do
  checkElectricityBalance t
  checkHeatBalance t "total-high_temperature_generation_mwh" "total-high_temperature_load_mwh"
  checkHeatBalance t "total-low_temperature_generation_mwh" "total-low_temperature_load_mwh"

end EPL
