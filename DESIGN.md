# Formal model of energy-py-linear in Lean 4

## What is modelled
The library turns a *site* (interval data, assets, custom constraints) and an *objective* into a
mixed-integer linear program, hands it to a solver and turns the solver's answer into a table.
The model (`lean/Verif/Model/*.lean`) follows the Python function by function; every definition
cites file and lines.  The pipeline `Site.optimize` of the model is a total computable function

    Site -> Objective -> Flags -> Solver -> Except Err SimResult

where the solver is a *parameter*: any function from a program to (status, values, objective).
Theorems that need it assume `Solver.Sound` (status "Optimal" implies that the values satisfy the
constraints, bounds and integrality of the program) or, for optimality claims, that the answer is
optimal.  Nothing else about CBC is assumed.

## Modelling decisions
* Numbers are rationals: float rounding, infinities and NaN are not modelled, except in the
  interval data constructor, where NaN is a value.  The solver is exact up to its relative gap (C97); its numerical tolerances are not modelled.
* Python exceptions are values of `Err`; every `assert`, index, key and attribute error of the modelled
  code paths is an explicit branch.  Behaviour of third party code that we cannot read here
  (a `None` in a pandas column, exotic keyword arguments) is an explicit `Err.unmodelled` branch.
* A pulp expression is a list of (variable, coefficient) plus a constant; a variable carries its
  bounds and category; the variables of a program are those that occur in a constraint or in the
  objective (as in pulp); multiplication by zero drops the variable (as in pulp).
* A pandas frame is an insertion ordered list of named columns.
* Logging, drawing, timing, file output and the CBC process are not modelled.

## Trusted base
* **Lean 4.33.0's kernel** (and Mathlib's definitions of `ℚ`, `List`, `min`, `max`, sums).  No `native_decide`, no
  `bv_decide`, no compiled code: the concrete runs of the demonstrations are `decide +kernel`, evaluated by the kernel.
* **Axioms.**  No axiom of our own.  Every theorem of MANIFEST.json depends on `propext`, `Classical.choice` and `Quot.sound` and
  nothing else, except `EPL.C30_repeat`, which needs `propext` and `Quot.sound` only (`#print axioms` over the manifest).
* **The correspondence between model and Python**, which is by reading: each definition of `lean/Verif/Model` cites file and lines.
* **The specification files** `lean/Verif/Spec`, in which the properties are stated (what a run is, how a cell of the results is read,
  what the balance, the cost, the account of a dispatch are); they are small and do not use the program builder.
* **The solver**, where a theorem assumes `Solver.Sound` (an answer "Optimal" satisfies the program exactly) or `Solver.Exact` (it is
  also optimal).  Theorems that hold for every solver have no such hypothesis.

### Which code is modelled
| file | modelled | not modelled |
|---|---|---|
| `optimizer.py` | variables, `constrain`, `constrain_max/min`, min/max of two and many variables, `sum`, `dot`, `solve` (statuses, fallback), `value`, name sanitising, duplicate names | CBC itself, timeouts, verbose output, writing the LP file, `variables()`, `constraints()` listings; pulp cancelling a variable that occurs on both sides of a constraint |
| `interval_data.py` | `IntervalVars` with both filters | - |
| `freq.py`, `flags.py`, `defaults.py`, `utils.py` | all (`repeat_to_match_length`, `check_array_lengths`) | - |
| `assets/*.py` | configuration validation, one-interval creation, within- and after-interval constraints of battery, boiler, CHP, EVs, heat pump, renewable generator, spill, valve; stand-alone `optimize` of battery, CHP, EVs, heat pump and renewable | `__repr__` |
| `assets/site.py` | `SiteIntervalData` (defaults, scalars, repeats, lengths, NaN, custom data), constructor, import/export limits, three balances, custom constraints, `optimize` | timing of optimisation |
| `constraints.py` | all: terms, the shapes accepted by `constraint`, per-interval and summed | exotic types that pydantic coerces |
| `objectives.py` | price, carbon, custom simple / two-variable / many-variable terms, the dictionary form | - |
| `results/*.py` | extraction of every column, totals, schema, balances, valve check, spill warnings and `fail_on_spill_asset_use` | the text of warnings and logs |
| `accounting/accounting.py` | electricity, gas and custom accounts, `get_accounts`, subtraction | printing |
| `data_generation.py` | all, with the draws of numpy as arbitrary streams | the distributions of the draws |
| `plot.py` | what the four plots read and write in the results, and the numbers they draw | titles, labels, legends, colours, the image file |
| `debug.py` | the columns every helper selects, and when it raises | printing |
| `logger.py` | nothing | all |

## Properties: what is modelled and how each is proved
* **C01** Electricity balance in the results — Site.optimize end to end; balance constraint of every interval is in the program, Feasible gives the equality, cell lemma transfers it to the table.
* **C02** High temperature heat balance in the results — as C01
* **C03** Low temperature heat balance in the results — as C01
* **C04** Site import and export stay within limits and never overlap — bounds of the import/export variables and the three import/export constraints; integrality of the two binaries.
* **C05** Battery state of charge stays between empty and full — variable bounds + cell lemma
* **C06** Battery charge is conserved from row to row and over the horizon — constraints per interval, connection constraint, induction over rows (telescoping sum)
* **C07** Battery power and per-interval energy limits — bounds + big-M constraints
* **C08** A battery never charges and discharges in the same interval — integrality + big-M constraints
* **C09** Battery construction clamps the initial and final charge — pure constructor model, case split
* **C10** CHP converts gas to electricity and heat at the configured efficiencies — constraints of the interval
* **C11** Boiler converts gas to heat and respects its bounds — constraints of the interval
* **C12** Heat pump heat balance — constraints of the interval + constructor model
* **C13** The valve passes on exactly the heat it takes — constraints of the interval
* **C14** Renewable generation stays between the turn-down bound and the available generation — variable bounds + repeat lemma (C30)
* **C15** The spill flag says whether spill columns carry energy — decision logic of warn_spills stated outright, and a corollary for sites without spill assets
* **C16** EVs only charge and discharge during an active charge event — binary <= charge_events[i,e] and big-M
* **C17** One charger per charge event and one charge event per charger — sum of binaries <= 1
* **C18** Every charge event starts empty and is full at the end — SOC constraints
* **C19** EV energy accounting over the horizon — balance constraint, telescoping
* **C20** Vehicle to grid needs the flag — number-valued discharge cells
* **C21** EV charger power limits and turn-down — semi-continuity lemma (C33)
* **C22** limit_charge_variables_to_valid_events does not change what can be dispatched — two-way transfer of assignments between the two programs
* **C23** The results table has one row per interval and all columns of every asset — invariant of the defaultdict fold + check_array_lengths
* **C24** Total columns sum the matching asset columns — fold of add_totals; substring lemma on dash separated names
* **C25** Result checks never reject an exact feasible answer — checks evaluated on the table built from a feasible assignment
* **C26** Inputs are echoed in the results — cell lemma
* **C27** Infeasible programs are reported, never silently returned — decision logic of Optimizer.solve
* **C28** fail_on_spill_asset_use rejects exactly the runs that spill — relation between two runs
* **C29** Interval data is validated and completed — pure constructor model over optional/scalar/array inputs with NaN as a value
* **C30** repeat_to_match_length repeats cyclically — pure function
* **C31** Custom interval data is repeated to the site length and available everywhere — constructor model + cell lemma
* **C32** Power and energy conversion are inverse — pure functions over the rationals
* **C33** constrain_max and constrain_min give semi-continuous variables — LP semantics
* **C34** min_two_variables and max_two_variables are exact — LP semantics, both directions
* **C35** min_many_variables is exact — LP semantics, induction over the list
* **C36** max_many_variables is the maximum at an optimum — LP semantics; counterexample to exactness + optimality theorem
* **C37** Custom constraints hold in every interval — fold over intervals
* **C38** Summed custom constraints hold over the horizon and count constants once — fold over intervals; n * (c/n) = c
* **C39** Meaningless custom constraints are rejected — decision logic
* **C40** The price objective is the cost of the dispatch — evaluation of the objective expression
* **C41** The carbon objective is the emission of the dispatch — as C40
* **C42** Custom objective terms add up — as C40
* **C43** The documented custom price objective is the price objective — as C40
* **C44** Two variable objective terms price the minimum or maximum of each interval — C34 inside the full program
* **C45** Many variable objective terms price the peak — C35/C36 inside the full program
* **C46** Electricity and gas accounts are the dot products of the results — pure functions on tables
* **C47** Profit is minus cost and accounts add up — pure functions
* **C48** Accounts agree with the price objective — C40 + C24 + C46
* **C49** Actuals accounting uses actual prices with forecast dispatch — pure functions
* **C50** Asset names are unique within a site — decision logic
* **C51** Two variables never share a name — rendered and sanitised names
* **C52** Optimising is repeatable and has no memory — state machine over call histories
* **C53** Building a site does not disturb other sites, except through shared renewable data — heap model of assets shared by sites
* **C54** Spill is the last resort — arithmetic on optimal assignments
* **C55** Adding a battery never makes the optimum worse — assignment extension
* **C56** Extra custom constraints never improve the optimum — constraint lists grow
* **C57** Spill and valve make any site feasible — explicit feasible assignment
* **C58** Stand-alone assets optimise the documented site — constructor model
* **C59** Flat prices leave nothing to arbitrage — telescoping + balance
* **C60** Larger capacities never hurt — transfer of assignments between two programs
* **C61** Each objective is best at what it optimises — feasible sets of two objectives agree on the plant; optimality; cells read cost
* **C62** Perfect foresight is never beaten — prices do not occur in the plant's constraints; transfer of dispatches; C46 for the accounts
* **C63** Dearer prices never make the optimum cheaper — C62 both ways and flows that are not negative
* **C64** Wrong answers of the solver are not returned as feasible results — the check functions, for an arbitrary solver; C24 for the sums
* **C65** Custom accounts agree with the custom objective — the name filters of the accounts find exactly the column of the term; C44_terms and C45_terms_optimum for the objective
* **C66** A site that can rest within its grid connection always gets an answer — the resting point of every asset (EVs: charged on arrival by the spill charger), import/export of the net demand; C25_inputs for the result
* **C67** Stand-alone assets always come back — C58 for the site, C57/C66 for feasibility, C25 for the checks
* **C68** Random EV data is what it says — model of data_generation.py with arbitrary draws; C67 for the optimisation
* **C69** Plots show the results and leave them alone — model of plot.py as statements on the results table; frame lemmas, C23, C24, C03
* **C70** Columns come in a documented order — list of columns through extraction and totals
* **C71** Debug helpers show the asset — filters over the columns of C70
* **C72** Losses and stored energy add up — loss constraints of EvFacts and battery, the loss total over C24, telescoping sums
* **C73** Energy is neither created nor destroyed — the three balances (C01-C03) added up, with each asset's conversion constraint; telescoping sums over the horizon
* **C74** Constructors accept exactly what they document — unfolding of the constructors against a separate specification
* **C75** The order of the assets does not matter — the programs have the same constraints up to reordered sums and renamed auxiliary variables; assignments are carried over in both directions; the table is read back up to the order of columns
* **C76** The order of custom constraints and objective terms does not matter — the same transfer, with auxiliary variables renumbered
* **C77** Demand moves against prices — the plans of one run are plans of the other (C62), twice, added up; one interval is singled out of the sum
* **C78** Weighing part of a custom objective more never increases it — the same exchange of plans between two custom objectives that differ only in coefficients
* **C79** Looking further ahead never costs more, and parts of an optimal plan are optimal — a program is feasible iff every interval is on its own and the battery charges are tied (Proofs/Horizon); moving a plan in time carries every constraint of a part to the whole; plans are joined and spliced, values added
* **C80** Letting the vehicles discharge never makes the optimum worse — the program without discharging is the one with it after dropping the discharge variables (Proofs/V2g, as for C22); setting them to zero keeps every constraint
* **C81** optimize returns a cheapest valid dispatch — Spec/Dispatch describes a valid dispatch as a table; C81_valid collects the asset and balance theorems; for minimality every valid dispatch is turned into a feasible point of the program with the same cost (Proofs/DispatchPlan per asset, Proofs/DispatchPoint for the site)
* **C82** shorter intervals never make the optimum worse — the finer table divides energies by k and moves states of charge along straight lines (Proofs/Finer, Proofs/FinerPlays); it is a valid dispatch of the finer site, so C81 applies
* **C83** the optimum scales with the plant — tables multiplied by q are valid dispatches of the scaled site and back (Proofs/Stretch, Proofs/Scale), then C81 in both directions
* **C84** two sites behind one meter never cost more — the joint table keeps the columns of the assets and nets imports and exports (Proofs/DispatchEdit, Proofs/Pool); it is a valid dispatch of the joint site, so C81 applies
* **C85** no valuable renewable energy is curtailed — a small change of one asset, met by the grid connection, is again a valid dispatch (Proofs/Bump: change of one column; Proofs/Margin: room of the connection, no change gains anything at an optimum by C81); apply it to the generator
* **C86** efficient boilers run first — shift a little heat from one boiler to the other (Proofs/MarginAssets)
* **C87** spill is the last resort — replace a little spill by the connection, a generator or a boiler (Proofs/MarginAssets)
* **C88** batteries leave no profitable move and make no losing one — charge a little more in one interval and discharge what is left of it in the other, or the reverse; the charge between the two shifts by the same amount (Proofs/MarginBattery)
* **C89** vehicles charge in the cheapest intervals they can — move a little charging of one vehicle from one interval to the other, in the first through the charger it uses, in the second through the one it uses or a free one; the state of charge in between shifts by the same amount (Proofs/MarginEvs)
* **C90** a CHP runs exactly when its spark spread pays — a little more or less gas into the CHP, the boiler makes up for the heat, the spill asset for the low temperature heat, the connection for the electricity (Proofs/MarginHeat: changes of three assets)
* **C91** a heat pump runs exactly when its electricity is cheaper than the boiler's gas — as C90 with the electricity of the heat pump (Proofs/MarginHeat)
* **C92** the spill charger is the last resort — a charger does a little of what the spill charger does, in the same or another interval, and the penalty saved cannot exceed the cost (Proofs/MarginSpill)
* **C93–C95** exchanging assets — a valid dispatch of one site is turned into a valid dispatch of the other that gives every other asset the same energy (Spec/Swap, Proofs/Swap), and C81 compares it with the optimum (Proofs/Upgrade)
* **C96** a peak charge finds the cheapest mix of cost and peak — C36_max_values extends the feasible point of a valid dispatch (Proofs/DispatchCustom) to the variables of the charge (Proofs/DispatchPeak); C81 and exchange of two optima for the comparison
* **C97** the relative tolerance bounds what is given away — the feasible point of a valid dispatch (C81) against the answer of a solver within the tolerance (Spec/Tolerance)
* **C98** additional load costs between its export value and its import cost — the old dispatch with the change of load netted on the connection is a valid dispatch of the new site (Proofs/Load), compared by C81
* **C99** a fixed schedule needs only the expected prices — the cost is linear in the prices, weighted sums of C62 over the scenarios
* **C100** small price errors cost little — C62 in both directions and the bounds of import and export (C04)

## Findings: behaviour of the code that the model exposed
Where the code differs from what its names or documentation suggest, the properties above are stated so that they are true, and the
difference is in their hypotheses.
* `max_many_variables` is not exact: the variable may lie above the maximum (C36 gives the exact range); it is the maximum at an optimum.
  With `limit_charge_variables_to_valid_events`, dropped operands drop its constraints (hence the exception in C22).
* Coefficients on the operands of two- and many-variable objective terms are ignored, and many-variable terms with a name ignore the type.
* Low temperature heat taken by the spill asset is not penalised; EV spill charge is penalised twice when flags count it (C54 says what is).
* The battery's big-M is its capacity: charge per interval is at most the capacity, whatever the power.  With efficiency above one the loss
  forces the battery to stay idle.
* A CHP with electric efficiency zero has no gas link; with all efficiencies zero its gas variable may be in no constraint and its column
  becomes `None` (an `Err.unmodelled` branch).  Hence `Asset.GasTied` / `Asset.GasLinked`.
* A boiler with a positive minimum can never turn off.
* A scalar renewable generation on a one-interval site, zero chargers, zero-interval sites and an asset type "valve" in a custom term end in
  assertion, index or key errors.
* In custom constraints `"*"` with a name filters by name; in objectives `"*"` ignores the name.
* A valve that is not named "valve" makes the results check fail with a `KeyError`; an asset that is not an EV but has "evs" in its name, beside
  EVs, with an `IndexError`.
* An EV asset named like "evs-two" is counted twice in `total-electric_loss_mwh`.
* `total-spills_mwh` counts only EV spill chargers.
* Custom interval data whose name begins with a quantity, contains "charge-event" or repeats a reserved column breaks totals or checks
  (hence `Site.PlainNames`).
* Negative loads and negative boiler minima are rejected by the results schema after solving, not by the constructor.
* Exports are valued at import prices in the accounts (C48 states by how much that differs from the objective).
* Custom accounts find columns by name: a term by type alone, or on all assets, also counts the `total-` column (an example in
  Props/CustomAccounts.lean: 15 in the objective, 30 in the accounts) and the assets of all other types; a term without type and name counts
  nothing in the accounts and everything in the objective; the name "battery" also finds the columns of "battery-2"; the name of an EV asset
  finds chargers and charge events, twice the energy; constants are truncated to integers; two variable terms with interval data raise.
* The name of a heat pump is not checked and may be "site" or "total".
* Unknown function names in complex objective terms are ignored for `CustomObjectiveFunction` objects and raise for dictionaries.
* "battery-1" and "battery_1" collide after sanitising and are rejected by the duplicate check (C51); two identical complex terms too.
* The site constructor writes repeated data back into a renewable generator shared with other sites (C53).
* `charge_events` are not validated for sites; negative charger power or entries outside 0..1 change what the limit flag means.
* The subset check on chargers in the valve check never matches any column.
* Binary variables multiplied by zero (zero power) leave the program; hence C60 asks boiler, CHP and heat pump for positive capacity before growing.
* `plot` of a battery works only for a battery called "battery" and `plot` of EVs only for EVs called "evs": one column name is hard-coded.
  `plot` of a CHP needs a spill and a boiler; `plot` of a heat pump needs a spill and a valve and rounds six columns of the results in place.
* `total-electric_loss_mwh` counts the losses of EVs twice (and those of the spill charger, which lose nothing) unless the name of the EVs
  ends with "evs"; `total-spills_mwh` adds charge, discharge and loss of the spill charger, so it is `(2 - efficiency)` times what it gives.
* A CHP with `electric_efficiency_pct=0` is accepted, and then nothing ties its electricity to its gas: it makes electricity from nothing
  (`C73_untied_chp`).  Battery and charge event efficiencies above one are accepted too.
* `debug_asset("spill")` also returns `total-spills_mwh`.
