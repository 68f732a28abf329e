{"id": "C01", "title": "Electricity balance in the results", "statement": "Whenever Site.optimize returns a feasible result, in every row: site-import_power_mwh + the electricity generated and discharged by all assets = site-export_power_mwh + site-electric_load_mwh + the electricity consumed and charged by all assets (EVs counted per charger, spill charger included), as read from the asset columns.", "quantifier": "every site (any number and mix of assets, any configuration), every interval data, every custom constraint and objective, every sound solver answer, every row of the results", "why_tests_cant": "Tests run a handful of sites through CBC; the statement is about every feasible answer of the program for every site and horizon length, including answers no test ever makes the solver return.", "anchors": ["energypylinear/assets/site.py:constrain_site_electricity_balance", "energypylinear/assets/site.py:Site.optimize", "energypylinear/results/extract.py:extract_results"]}
{"id": "C02", "title": "High temperature heat balance in the results", "statement": "Whenever Site.optimize returns a feasible result, in every row the high temperature heat generated by all assets equals the high temperature load of the site plus the high temperature loads of all assets.", "quantifier": "every site (any number and mix of assets, any configuration), every interval data, every custom constraint and objective, every sound solver answer, every row of the results", "why_tests_cant": "Tests run a handful of sites through CBC; the statement is about every feasible answer of the program for every site and horizon length, including answers no test ever makes the solver return.", "anchors": ["energypylinear/assets/site.py:constrain_site_high_temperature_heat_balance"]}
{"id": "C03", "title": "Low temperature heat balance in the results", "statement": "Whenever Site.optimize returns a feasible result, in every row the low temperature heat generated by all assets plus site-low_temperature_generation_mwh equals site-low_temperature_load_mwh plus the low temperature loads of all assets.", "quantifier": "every site (any number and mix of assets, any configuration), every interval data, every custom constraint and objective, every sound solver answer, every row of the results", "why_tests_cant": "Tests run a handful of sites through CBC; the statement is about every feasible answer of the program for every site and horizon length, including answers no test ever makes the solver return.", "anchors": ["energypylinear/assets/site.py:constrain_site_low_temperature_heat_balance"]}
{"id": "C04", "title": "Site import and export stay within limits and never overlap", "statement": "In every row of a feasible result site-import_power_mwh lies in [0, import_limit_mw * freq_mins / 60], site-export_power_mwh lies in [0, export_limit_mw * freq_mins / 60], and at least one of the two is zero.", "quantifier": "every site (any number and mix of assets, any configuration), every interval data, every custom constraint and objective, every sound solver answer, every row of the results", "why_tests_cant": "Tests run a handful of sites through CBC; the statement is about every feasible answer of the program for every site and horizon length, including answers no test ever makes the solver return.", "anchors": ["energypylinear/assets/site.py:constrain_site_import_export", "energypylinear/assets/site.py:Site.one_interval"]}
{"id": "C05", "title": "Battery state of charge stays between empty and full", "statement": "In every row of a feasible result the initial and the final state of charge of every battery lie in [0, capacity_mwh].", "quantifier": "every site (any number and mix of assets, any configuration), every interval data, every custom constraint and objective, every sound solver answer, every row of the results, every battery", "why_tests_cant": "Tests run a handful of sites through CBC; the statement is about every feasible answer of the program for every site and horizon length, including answers no test ever makes the solver return.", "anchors": ["energypylinear/assets/battery.py:Battery.one_interval"]}
{"id": "C06", "title": "Battery charge is conserved from row to row and over the horizon", "statement": "In every row final = initial + charge - discharge - loss with loss = (1 - efficiency) * charge; the final charge of a row is the initial charge of the next; the first row starts at initial_charge_mwh and the last ends at final_charge_mwh. Over the horizon the total discharge equals efficiency * total charge + initial - final.", "quantifier": "every site (any number and mix of assets, any configuration), every interval data, every custom constraint and objective, every sound solver answer, every row of the results, every battery, every horizon length", "why_tests_cant": "Tests run a handful of sites through CBC; the statement is about every feasible answer of the program for every site and horizon length, including answers no test ever makes the solver return.", "anchors": ["energypylinear/assets/battery.py:constrain_battery_electricity_balance", "energypylinear/assets/battery.py:constrain_connection_batteries_between_intervals", "energypylinear/assets/battery.py:constrain_initial_final_charge"]}
{"id": "C07", "title": "Battery power and per-interval energy limits", "statement": "In every row of a feasible result battery charge lies in [0, min(power_mw * freq_mins/60, capacity_mwh)] and discharge in [0, min(discharge_power_mw * freq_mins/60, capacity_mwh)], with freq_mins the site frequency, not the one given to the battery.", "quantifier": "every site (any number and mix of assets, any configuration), every interval data, every custom constraint and objective, every sound solver answer, every row of the results, every battery", "why_tests_cant": "Tests run a handful of sites through CBC; the statement is about every feasible answer of the program for every site and horizon length, including answers no test ever makes the solver return.", "anchors": ["energypylinear/assets/battery.py:Battery.one_interval", "energypylinear/assets/battery.py:constrain_only_charge_or_discharge"]}
{"id": "C08", "title": "A battery never charges and discharges in the same interval", "statement": "In every row of a feasible result at least one of electric_charge_mwh and electric_discharge_mwh of a battery is zero, the binary columns are 0 or 1, they are not both 1, and a non-zero flow has its binary at 1.", "quantifier": "every site (any number and mix of assets, any configuration), every interval data, every custom constraint and objective, every sound solver answer, every row of the results, every battery", "why_tests_cant": "Tests run a handful of sites through CBC; the statement is about every feasible answer of the program for every site and horizon length, including answers no test ever makes the solver return.", "anchors": ["energypylinear/assets/battery.py:constrain_only_charge_or_discharge"]}
{"id": "C09", "title": "Battery construction clamps the initial and final charge", "statement": "epl.Battery clamps initial_charge_mwh and final_charge_mwh to capacity_mwh, a missing final charge becomes the (clamped) initial charge, a missing discharge power becomes the charge power, a zero discharge power is rejected, and so is a name without 'battery'.", "quantifier": "every argument of the constructor", "why_tests_cant": "The interesting cases are orderings of three real numbers with two optional arguments; tests pick a few.", "anchors": ["energypylinear/assets/battery.py:setup_initial_final_charge", "energypylinear/assets/battery.py:Battery.__init__"]}
{"id": "C10", "title": "CHP converts gas to electricity and heat at the configured efficiencies", "statement": "In every row of a feasible result a CHP with positive electric efficiency consumes gas = electricity / electric_efficiency, and always generates high and low temperature heat equal to gas times the matching efficiency. Its electricity is either 0 or between electric_power_min_mw and electric_power_max_mw (times freq).", "quantifier": "every site (any number and mix of assets, any configuration), every interval data, every custom constraint and objective, every sound solver answer, every row of the results, every CHP", "why_tests_cant": "Tests run a handful of sites through CBC; the statement is about every feasible answer of the program for every site and horizon length, including answers no test ever makes the solver return.", "anchors": ["energypylinear/assets/chp.py:CHP.constrain_within_interval"]}
{"id": "C11", "title": "Boiler converts gas to heat and respects its bounds", "statement": "In every row of a feasible result boiler gas times efficiency equals its heat, and heat lies between the minimum and maximum power times freq. A boiler with a positive minimum never switches off.", "quantifier": "every site (any number and mix of assets, any configuration), every interval data, every custom constraint and objective, every sound solver answer, every row of the results, every boiler", "why_tests_cant": "Tests run a handful of sites through CBC; the statement is about every feasible answer of the program for every site and horizon length, including answers no test ever makes the solver return.", "anchors": ["energypylinear/assets/boiler.py:Boiler.constrain_within_interval", "energypylinear/assets/boiler.py:Boiler.one_interval"]}
{"id": "C12", "title": "Heat pump heat balance", "statement": "In every row of a feasible result heat pump high temperature heat = COP * electricity, low temperature heat consumed = (COP - 1) * electricity, and electricity lies in [0, electric_power_mw * freq_mins/60]. A COP below one is rejected at construction.", "quantifier": "every site (any number and mix of assets, any configuration), every interval data, every custom constraint and objective, every sound solver answer, every row of the results, every heat pump", "why_tests_cant": "Tests run a handful of sites through CBC; the statement is about every feasible answer of the program for every site and horizon length, including answers no test ever makes the solver return.", "anchors": ["energypylinear/assets/heat_pump.py:HeatPump.constrain_within_interval", "energypylinear/assets/heat_pump.py:HeatPumpConfig.validate_cop"]}
{"id": "C13", "title": "The valve passes on exactly the heat it takes", "statement": "In every row of a feasible result the high temperature load of a valve equals its low temperature generation and both are non-negative: heat only flows from high to low temperature.", "quantifier": "every site (any number and mix of assets, any configuration), every interval data, every custom constraint and objective, every sound solver answer, every row of the results, every valve", "why_tests_cant": "Tests run a handful of sites through CBC; the statement is about every feasible answer of the program for every site and horizon length, including answers no test ever makes the solver return.", "anchors": ["energypylinear/assets/valve.py:Valve.constrain_within_interval"]}
{"id": "C14", "title": "Renewable generation stays between the turn-down bound and the available generation", "statement": "In every row i of a feasible result generation lies in [available[i] * lower_bound_pct, available[i]], where available is the generation given to the asset, repeated cyclically (or cut) to the length of the site.", "quantifier": "every site (any number and mix of assets, any configuration), every interval data, every custom constraint and objective, every sound solver answer, every row of the results, every renewable generator, every pair of data lengths", "why_tests_cant": "Tests run a handful of sites through CBC; the statement is about every feasible answer of the program for every site and horizon length, including answers no test ever makes the solver return.", "anchors": ["energypylinear/assets/renewable_generator.py:RenewableGenerator.one_interval", "energypylinear/assets/site.py:validate_interval_data"]}
{"id": "C15", "title": "The spill flag says whether spill columns carry energy", "statement": "SimulationResult.spill is true exactly when the sum of all cells of all columns whose name contains 'spill' and not 'charge_binary' exceeds 1e-4; on a feasible result with exact non-negative values and no Spill asset or EVs, it is false.", "quantifier": "every site (any number and mix of assets, any configuration), every interval data, every custom constraint and objective, every sound solver answer, every row of the results", "why_tests_cant": "Tests run a handful of sites through CBC; the statement is about every feasible answer of the program for every site and horizon length, including answers no test ever makes the solver return.", "anchors": ["energypylinear/results/warnings.py:warn_spills"]}
{"id": "C16", "title": "EVs only charge and discharge during an active charge event", "statement": "In every row i of a feasible result, for every charge event whose charge_events entry at i is 0, electric_charge_mwh and electric_discharge_mwh of that event are zero, and the spill charger puts no energy into that event either.", "quantifier": "every site (any number and mix of assets, any configuration), every interval data, every custom constraint and objective, every sound solver answer, every row of the results, every EV asset, every 0/1 charge event matrix", "why_tests_cant": "Tests run a handful of sites through CBC; the statement is about every feasible answer of the program for every site and horizon length, including answers no test ever makes the solver return.", "anchors": ["energypylinear/assets/evs.py:constrain_charge_discharge_min_max"]}
{"id": "C17", "title": "One charger per charge event and one charge event per charger", "statement": "In every interval of a feasible answer, each charge event exchanges energy with at most one (non-spill) charger and in one direction, and each charger serves at most one charge event in one direction.", "quantifier": "every site (any number and mix of assets, any configuration), every interval data, every custom constraint and objective, every sound solver answer, every row of the results, every EV asset, any number of chargers and events", "why_tests_cant": "Tests run a handful of sites through CBC; the statement is about every feasible answer of the program for every site and horizon length, including answers no test ever makes the solver return.", "anchors": ["energypylinear/assets/evs.py:constrain_single_charger_charge_event"]}
{"id": "C18", "title": "Every charge event starts empty and is full at the end", "statement": "In a feasible result the SOC of every charge event is 0 at the start of the first row, equals its capacity at the end of the last row, stays in [0, capacity], and the final SOC of a row is the initial SOC of the next.", "quantifier": "every site (any number and mix of assets, any configuration), every interval data, every custom constraint and objective, every sound solver answer, every row of the results, every EV asset, every horizon length", "why_tests_cant": "Tests run a handful of sites through CBC; the statement is about every feasible answer of the program for every site and horizon length, including answers no test ever makes the solver return.", "anchors": ["energypylinear/assets/evs.py:constrain_initial_final_charge", "energypylinear/assets/evs.py:constrain_connection_charge_events_between_intervals"]}
{"id": "C19", "title": "EV energy accounting over the horizon", "statement": "For every charge event of a feasible answer: efficiency * (energy from the chargers) + (energy from the spill charger, without losses) - discharged energy = capacity, summed over the horizon; per row the SOC moves by exactly that row's terms.", "quantifier": "every site (any number and mix of assets, any configuration), every interval data, every custom constraint and objective, every sound solver answer, every row of the results, every EV asset, every horizon length", "why_tests_cant": "Tests run a handful of sites through CBC; the statement is about every feasible answer of the program for every site and horizon length, including answers no test ever makes the solver return.", "anchors": ["energypylinear/assets/evs.py:constrain_charge_event_electricity_balance"]}
{"id": "C20", "title": "Vehicle to grid needs the flag", "statement": "Without allow_evs_discharge every EV discharge column is zero in every row; the spill charger never discharges, whatever the flags.", "quantifier": "every site (any number and mix of assets, any configuration), every interval data, every custom constraint and objective, every sound solver answer, every row of the results, every flag setting", "why_tests_cant": "Tests run a handful of sites through CBC; the statement is about every feasible answer of the program for every site and horizon length, including answers no test ever makes the solver return.", "anchors": ["energypylinear/assets/evs.py:evs_one_interval"]}
{"id": "C21", "title": "EV charger power limits and turn-down", "statement": "In every interval of a feasible answer, the energy a charger gives to a charge event is either 0 or between turndown * power and power (times freq_mins/60), and likewise for discharge; so every charger column is at most power * freq_mins/60.", "quantifier": "every site (any number and mix of assets, any configuration), every interval data, every custom constraint and objective, every sound solver answer, every row of the results, every EV asset", "why_tests_cant": "Tests run a handful of sites through CBC; the statement is about every feasible answer of the program for every site and horizon length, including answers no test ever makes the solver return.", "anchors": ["energypylinear/assets/evs.py:constrain_charge_discharge_min_max", "energypylinear/assets/evs.py:EVs.__init__"]}
{"id": "C22", "title": "limit_charge_variables_to_valid_events does not change what can be dispatched", "statement": "For charge event matrices with entries between 0 and 1 and chargers without negative power, the flag only removes variables that are forced to zero: there is a feasible answer with the flag exactly when there is one without it, every result returned without the flag (every column and the objective) is a result with it and conversely, and the optimal objective is the same. Excepted are custom objectives with a maximum over many variables, whose constraints the flag changes.", "quantifier": "every site with EVs, every price/carbon/custom objective without max_many_variables, every custom constraint, flag and solver answer", "why_tests_cant": "Equivalence of two families of mixed-integer programs; a test compares one optimum of one instance.", "anchors": ["energypylinear/assets/evs.py:evs_one_interval"]}
{"id": "C23", "title": "The results table has one row per interval and all columns of every asset", "statement": "Whenever Site.optimize returns, every column has exactly as many rows as there are intervals, and every asset contributes all of its documented columns.", "quantifier": "every site (any number and mix of assets, any configuration), every interval data, every custom constraint and objective, every sound solver answer, every row of the results", "why_tests_cant": "Quantifies over every asset mix and horizon; column collisions appear only for particular names.", "anchors": ["energypylinear/results/extract.py:extract_results", "energypylinear/utils.py:check_array_lengths"]}
{"id": "C24", "title": "Total columns sum the matching asset columns", "statement": "total-<quantity> in every row is the sum of that quantity over the site load columns and all asset columns (EVs per charger, charge-event columns excluded), provided no name contains another quantity or 'charge-event'; without that proviso it is the sum over the columns whose name contains '-<quantity>' and not 'charge-event'. total-electric_loss_mwh collects the loss columns of batteries and charge events (and of chargers, unless the EVs name ends with 'evs'); total-spills_mwh collects charge, discharge and loss of the EV spill chargers.", "quantifier": "every site (any number and mix of assets, any configuration), every interval data, every custom constraint and objective, every sound solver answer, every row of the results, every quantity", "why_tests_cant": "Column selection is by substring over every possible asset name; tests use the default names.", "anchors": ["energypylinear/results/extract.py:add_totals"]}
{"id": "C25", "title": "Result checks never reject an exact feasible answer", "statement": "When the solver answer satisfies the program exactly and asset and custom data names do not clash with quantity names, the schema and balance checks of extract_results pass, so optimize returns instead of raising.", "quantifier": "every site (any number and mix of assets, any configuration), every interval data, every custom constraint and objective, every sound solver answer, every row of the results", "why_tests_cant": "Tests run a handful of sites through CBC; the statement is about every feasible answer of the program for every site and horizon length, including answers no test ever makes the solver return.", "anchors": ["energypylinear/results/checks.py:check_results", "energypylinear/results/schema.py:simulation_schema"]}
{"id": "C26", "title": "Inputs are echoed in the results", "statement": "In every row i of the results the columns site-electricity_prices, site-export_electricity_prices, site-electricity_carbon_intensities, site-gas_prices and the site loads hold the i-th value of the interval data the site was built with.", "quantifier": "every site (any number and mix of assets, any configuration), every interval data, every custom constraint and objective, every sound solver answer, every row of the results", "why_tests_cant": "Tests run a handful of sites through CBC; the statement is about every feasible answer of the program for every site and horizon length, including answers no test ever makes the solver return.", "anchors": ["energypylinear/results/extract.py:extract_site_results"]}
{"id": "C27", "title": "Infeasible programs are reported, never silently returned", "statement": "Site.optimize raises when the solver status is not Optimal unless allow_infeasible is set; with allow_infeasible the returned feasible flag is true exactly when the status is Optimal.", "quantifier": "every site, objective, flags and solver answer", "why_tests_cant": "Depends on what the solver answers, including answers tests cannot provoke.", "anchors": ["energypylinear/optimizer.py:Optimizer.solve"]}
{"id": "C28", "title": "fail_on_spill_asset_use rejects exactly the runs that spill", "statement": "With fail_on_spill_asset_use a run that would otherwise return with spill = true raises ValueError, and a run that would return with spill = false returns the same result; without the flag spill never raises.", "quantifier": "every site, objective and solver answer", "why_tests_cant": "Relational property between two runs for every input.", "anchors": ["energypylinear/results/warnings.py:warn_spills"]}
{"id": "C29", "title": "Interval data is validated and completed", "statement": "SiteIntervalData takes its length from electricity_prices, else from electricity_carbon_intensities, and fails if both are missing; scalars are broadcast, missing fields take the documented defaults, missing export prices equal import prices, any field of another length is rejected and any NaN outside the anchor field is rejected; afterwards all fields have the same length.", "quantifier": "every combination of missing, scalar and array inputs of every length", "why_tests_cant": "Combinatorial: eight fields with three shapes each and arbitrary lengths.", "anchors": ["energypylinear/assets/site.py:SiteIntervalData.validate_all_things"]}
{"id": "C30", "title": "repeat_to_match_length repeats cyclically", "statement": "For every non-empty a and every b the result has length len(b) and its j-th element is a[j mod len(a)]; an empty a raises.", "quantifier": "all arrays of all lengths", "why_tests_cant": "Universally quantified over lengths (shorter, longer, multiples, non multiples).", "anchors": ["energypylinear/utils.py:repeat_to_match_length"]}
{"id": "C31", "title": "Custom interval data is repeated to the site length and available everywhere", "statement": "A one dimensional keyword argument of Site is repeated cyclically to the number of intervals and appears in the results as site-<name>; other keyword arguments are ignored.", "quantifier": "every set of keyword arguments and every length", "why_tests_cant": "Quantifies over all lengths and names.", "anchors": ["energypylinear/assets/site.py:validate_interval_data", "energypylinear/assets/site.py:get_custom_interval_data"]}
{"id": "C32", "title": "Power and energy conversion are inverse", "statement": "For every interval length other than zero Freq.mwh_to_mw inverts Freq.mw_to_mwh and vice versa, both are linear and monotone for positive lengths, and at 60 minutes they are the identity.", "quantifier": "every value and every interval length", "why_tests_cant": "Universally quantified over reals.", "anchors": ["energypylinear/freq.py:Freq"]}
{"id": "C33", "title": "constrain_max and constrain_min give semi-continuous variables", "statement": "With a binary variable, constrain_max with max and constrain_min with min hold for an assignment exactly when the variable is at most 0 and at least 0 if the binary is 0, and within [min, max] if it is 1.", "quantifier": "every variable, bound and assignment", "why_tests_cant": "An equivalence over all assignments, not over the optimum of one test program.", "anchors": ["energypylinear/optimizer.py:Optimizer.constrain_max", "energypylinear/optimizer.py:Optimizer.constrain_min"]}
{"id": "C34", "title": "min_two_variables and max_two_variables are exact", "statement": "In every assignment satisfying the added constraints the new variable equals the minimum (maximum) of the two operands; and an assignment of the operands can be extended exactly when they differ by at most M.", "quantifier": "every pair of operands (variable or number), every M, every assignment", "why_tests_cant": "Tests minimise or maximise one program; exactness must hold at every feasible point because the variable may be used in any objective.", "anchors": ["energypylinear/optimizer.py:Optimizer.min_two_variables", "energypylinear/optimizer.py:Optimizer.max_two_variables"]}
{"id": "C35", "title": "min_many_variables is exact", "statement": "In every assignment satisfying the added constraints the new variable equals the minimum of the list, for a list of any length; an assignment of the list can be extended exactly when every element is within M of the minimum.", "quantifier": "every list of operands of every length, every M", "why_tests_cant": "Unbounded list length and every feasible point.", "anchors": ["energypylinear/optimizer.py:Optimizer.min_many_variables"]}
{"id": "C36", "title": "max_many_variables is the maximum at an optimum", "statement": "In every assignment satisfying the added constraints the new variable is at least the maximum of the list; it may exceed it (the constraints do not force equality), but in an optimal assignment in which the variable has a positive objective coefficient and appears nowhere else it equals the maximum whenever M is at least the spread.", "quantifier": "every list of operands of every length, every M, every objective coefficient", "why_tests_cant": "The gap is only visible at feasible points that a minimising test never visits.", "anchors": ["energypylinear/optimizer.py:Optimizer.max_many_variables"]}
{"id": "C37", "title": "Custom constraints hold in every interval", "statement": "In a feasible answer, a custom constraint without aggregation holds in every interval i: the sum of its left terms compared with the sum of its right terms, where a term is the sum over matching assets of variable * interval_data[i] * coefficient and a number counts as itself.", "quantifier": "every constraint, every site, every interval, every feasible answer", "why_tests_cant": "Tests run a handful of sites through CBC; the statement is about every feasible answer of the program for every site and horizon length, including answers no test ever makes the solver return.", "anchors": ["energypylinear/constraints.py:add_custom_constraint", "energypylinear/constraints.py:_resolve_constraint_term"]}
{"id": "C38", "title": "Summed custom constraints hold over the horizon and count constants once", "statement": "In a feasible answer a custom constraint with interval_aggregation='sum' holds for the sums of its terms over all intervals, where each number counts once for the whole horizon, for any number of intervals.", "quantifier": "every constraint, every site and horizon length", "why_tests_cant": "The constant is split in n parts and re-added; must hold for every n.", "anchors": ["energypylinear/constraints.py:add_custom_constraint"]}
{"id": "C39", "title": "Meaningless custom constraints are rejected", "statement": "A constraint with only numbers on both sides is rejected at construction; one whose side matches no asset in the first interval makes optimize raise, and so does an unknown asset type.", "quantifier": "every constraint and site", "why_tests_cant": "Quantifies over all terms and sites.", "anchors": ["energypylinear/constraints.py:Constraint.validate_all", "energypylinear/constraints.py:add_custom_constraint"]}
{"id": "C40", "title": "The price objective is the cost of the dispatch", "statement": "With objective='price' the value minimised is, for every assignment, the sum over intervals of import * price - export * export price + gas * gas price over CHPs and boilers, plus 1e11 per MWh of spilled electricity, of spilled high temperature generation and of EV spill charging.", "quantifier": "every site and every assignment of the variables", "why_tests_cant": "Equality of two functions on all assignments; tests compare optimal values.", "anchors": ["energypylinear/objectives.py:price_objective"]}
{"id": "C41", "title": "The carbon objective is the emission of the dispatch", "statement": "With objective='carbon' the value minimised is, for every assignment, the sum over intervals of (import - export) * carbon intensity + 0.185 * gas of CHPs and boilers, plus the same spill penalties.", "quantifier": "every site and every assignment of the variables", "why_tests_cant": "Equality of two functions on all assignments.", "anchors": ["energypylinear/objectives.py:carbon_objective"]}
{"id": "C42", "title": "Custom objective terms add up", "statement": "With a custom objective of simple terms the value minimised is the sum over terms, intervals and matching assets of variable * interval_data[i] * coefficient; unknown objective names raise ValueError.", "quantifier": "every list of terms, every site and assignment", "why_tests_cant": "Equality of functions for every list of terms.", "anchors": ["energypylinear/objectives.py:add_simple_terms", "energypylinear/objectives.py:get_objective"]}
{"id": "C43", "title": "The documented custom price objective is the price objective", "statement": "The custom objective {site import * electricity_prices, site export * export_electricity_prices * -1, gas of all assets * gas_prices, plus the spill terms} has the same value as objective='price' for every assignment. So an exact solver finds the same optimum for both, and each result is optimal for the other objective.", "quantifier": "every site and assignment; for the optima every pair of exact solver answers, with custom constraints on reported flows", "why_tests_cant": "Equality of two programs.", "anchors": ["energypylinear/objectives.py:get_objective", "docs/docs/how-to/custom-objectives.md"]}
{"id": "C44", "title": "Two variable objective terms price the minimum or maximum of each interval", "statement": "In every feasible answer a max_two_variables (min_two_variables) term contributes coefficient * interval_data[i] * max (min) of its operands in each interval i to the objective.", "quantifier": "every term, site and feasible answer", "why_tests_cant": "Tests run a handful of sites through CBC; the statement is about every feasible answer of the program for every site and horizon length, including answers no test ever makes the solver return.", "anchors": ["energypylinear/objectives.py:add_two_variable_terms"]}
{"id": "C45", "title": "Many variable objective terms price the peak", "statement": "In every feasible answer a min_many_variables term contributes coefficient * the minimum over all intervals and matching assets and the constant; a max_many_variables term contributes at least coefficient * the maximum (for a non-negative coefficient), for instance a network peak charge.", "quantifier": "every term, site, horizon length and feasible answer", "why_tests_cant": "Tests run a handful of sites through CBC; the statement is about every feasible answer of the program for every site and horizon length, including answers no test ever makes the solver return.", "anchors": ["energypylinear/objectives.py:add_many_variables_terms"]}
{"id": "C46", "title": "Electricity and gas accounts are the dot products of the results", "statement": "get_accounts reports import cost = sum of price * import, export cost = - sum of price * export (at the import price column), emissions alike with carbon intensities, gas cost = sum of gas price * total gas and gas emissions = 0.185 * total gas.", "quantifier": "every pair of result tables of every length", "why_tests_cant": "Universally quantified over tables.", "anchors": ["energypylinear/accounting/accounting.py:get_one_electricity_account", "energypylinear/accounting/accounting.py:get_one_gas_account"]}
{"id": "C47", "title": "Profit is minus cost and accounts add up", "statement": "Accounts.cost is the sum of electricity, gas and custom cost, profit is its negative, emissions the sum of electricity and gas emissions; subtracting accounts subtracts cost and emissions componentwise and a - a = 0.", "quantifier": "every pair of tables, every pair of accounts", "why_tests_cant": "Universally quantified.", "anchors": ["energypylinear/accounting/accounting.py:get_accounts", "energypylinear/accounting/accounting.py:Account.__sub__"]}
{"id": "C48", "title": "Accounts agree with the price objective", "statement": "For a feasible result optimised for price, the objective value equals the account cost plus spill penalties plus the sum of (import price - export price) * export; so with equal import and export prices and no spill the two agree.", "quantifier": "every site (any number and mix of assets, any configuration), every interval data, every custom constraint and objective, every sound solver answer, every row of the results", "why_tests_cant": "Links optimiser internals, results columns and accounting for every site.", "anchors": ["energypylinear/accounting/accounting.py:get_one_electricity_account", "energypylinear/objectives.py:price_objective"]}
{"id": "C49", "title": "Actuals accounting uses actual prices with forecast dispatch", "statement": "get_accounts(results, price_results) takes prices and carbon intensities only from price_results and flows only from results, and is linear in each; with price_results equal to results it is the plain account.", "quantifier": "every pair of tables", "why_tests_cant": "Universally quantified over tables.", "anchors": ["energypylinear/accounting/accounting.py:get_accounts"]}
{"id": "C50", "title": "Asset names are unique within a site", "statement": "Site.optimize raises before building anything when two assets share a name; when it returns, names are distinct.", "quantifier": "every asset list", "why_tests_cant": "Quantifies over all lists.", "anchors": ["energypylinear/assets/site.py:Site.optimize"]}
{"id": "C51", "title": "Two variables never share a name", "statement": "When optimize returns, all variables of the program have distinct solver names; assets whose names differ only in characters the solver replaces are rejected, not silently merged.", "quantifier": "every site, every objective", "why_tests_cant": "Name rendering is injective only under conditions on user strings.", "anchors": ["energypylinear/optimizer.py:Optimizer.assert_no_duplicate_variables"]}
{"id": "C52", "title": "Optimising is repeatable and has no memory", "statement": "Calling optimize any number of times on a site, in any order of objectives and flags, gives each time the result of a first call with those arguments on a fresh site.", "quantifier": "every sequence of calls", "why_tests_cant": "Quantifies over all call histories.", "anchors": ["energypylinear/assets/site.py:Site.optimize"]}
{"id": "C53", "title": "Building a site does not disturb other sites, except through shared renewable data", "statement": "Whatever sites are built and optimised, batteries, CHPs, boilers, EVs, heat pumps, spills and valves stay as they were made, sites keep their data, limits and asset list, and a renewable generator only ever gets a new time series. A site's optimize gives the same answer after any history in which no site of another length was built with one of its renewable generators. If a shorter site is built with one, the earlier site can no longer be optimised (until the generator is rewritten again); if a site at least as long is built, the generator still holds its old values in the earlier site's intervals.", "quantifier": "every history of asset constructions, site constructions and optimisations over shared assets", "why_tests_cant": "Quantifies over histories of constructor calls.", "anchors": ["energypylinear/assets/site.py:validate_interval_data"]}
{"id": "C54", "title": "Spill is the last resort", "statement": "At a price optimum, 1e11 times the penalised spill is at most the cost difference to any spill-free feasible dispatch; so when a spill-free dispatch exists whose cost exceeds the optimum's unpenalised cost by less than D, spill is less than D / 1e11.", "quantifier": "every site, every pair of feasible assignments", "why_tests_cant": "An inequality between the optimum and every other feasible point.", "anchors": ["energypylinear/objectives.py:price_objective", "energypylinear/defaults.py:Defaults"]}
{"id": "C55", "title": "Adding a battery never makes the optimum worse", "statement": "If a battery that may stay idle (equal initial and final charge within capacity, positive powers) is added to a site without custom constraints, every feasible dispatch of the old site stays feasible with the battery idle and at the same price objective, so the optimal cost does not increase.", "quantifier": "every site and every such battery", "why_tests_cant": "Relation between two families of programs.", "anchors": ["energypylinear/assets/battery.py:Battery", "energypylinear/assets/site.py:Site.optimize"]}
{"id": "C56", "title": "Extra custom constraints never improve the optimum", "statement": "Adding custom constraints to a site only shrinks the set of feasible dispatches, so an optimal cost can only increase; with no constraints the feasible set is the unconstrained one.", "quantifier": "every site and list of constraints", "why_tests_cant": "Relation between two families of programs.", "anchors": ["energypylinear/constraints.py:add_custom_constraint"]}
{"id": "C57", "title": "Spill and valve make any site feasible", "statement": "A site with a Spill, a Valve and assets that can all be switched off has a feasible dispatch whenever its loads are non-negative, whatever the loads. What a spill gives and takes is never negative.", "quantifier": "every load profile and asset list of that form", "why_tests_cant": "Existence of a feasible point for every input.", "anchors": ["energypylinear/assets/spill.py:Spill", "energypylinear/assets/valve.py:Valve"]}
{"id": "C58", "title": "Stand-alone assets optimise the documented site", "statement": "Battery/CHP/EVs/HeatPump/RenewableGenerator built with prices optimise the site holding that asset plus, for CHP, a valve and a boiler and, for HeatPump, a boiler and (unless disabled) a valve, plus a spill asset exactly when include_spill is set.", "quantifier": "every constructor argument", "why_tests_cant": "Universally quantified over configurations.", "anchors": ["energypylinear/assets/battery.py:Battery.__init__", "energypylinear/assets/chp.py:CHP.__init__", "energypylinear/assets/heat_pump.py:HeatPump.__init__"]}
{"id": "C59", "title": "Flat prices leave nothing to arbitrage", "statement": "With a constant non-negative price used for import and export, efficiency at most one, and equal initial and final charge, no feasible dispatch of a lone battery site has a negative price objective.", "quantifier": "every battery, horizon length and feasible dispatch", "why_tests_cant": "An inequality over all feasible dispatches of every horizon.", "anchors": ["energypylinear/assets/battery.py:Battery", "energypylinear/objectives.py:price_objective"]}
{"id": "C60", "title": "Larger capacities never hurt", "statement": "Raising import_limit_mw or export_limit_mw, or the power, discharge power or capacity of a battery, the maximum of a boiler, CHP or heat pump (or lowering the minimum of a CHP) keeps every feasible dispatch feasible at the same objective value, so the optimal objective value, cost or emissions cannot get worse (custom constraints and objectives must not themselves use the site limits).", "quantifier": "every site, every pair of limits and capacities, every objective", "why_tests_cant": "Relation between two families of programs.", "anchors": ["energypylinear/assets/site.py:constrain_site_import_export"]}
{"id": "C61", "title": "Each objective is best at what it optimises", "statement": "For the same site and the same flags, no run for any other objective (carbon, price or custom) has a lower cost (import at import prices minus export at export prices plus gas at gas prices, plus the spill penalty), read from the results, than the run for 'price'; and no run has lower emissions (plus the spill penalty) than the run for 'carbon'.", "quantifier": "every site, every objective, every exact solver for the run compared against", "why_tests_cant": "Compares an optimum with every feasible dispatch of any objective.", "anchors": ["energypylinear/objectives.py:price_objective", "energypylinear/objectives.py:carbon_objective", "energypylinear/assets/site.py:Site.optimize"]}
{"id": "C62", "title": "Perfect foresight is never beaten", "statement": "A dispatch made with forecast prices (or for any other objective), valued at the actual prices, never costs less than the dispatch optimised for price with the actual prices; likewise for carbon. Where export prices equal import prices the same holds for the cost of get_accounts(forecast results, price results = actual results) against get_accounts(actual results).", "quantifier": "every site, every forecast and actual price series, every exact solver for the run with actual prices", "why_tests_cant": "Relation between two optimisation programs over all price series.", "anchors": ["energypylinear/accounting/accounting.py:get_accounts", "energypylinear/objectives.py:price_objective"]}
{"id": "C63", "title": "Dearer prices never make the optimum cheaper, scaled prices scale it", "statement": "If import and gas prices are at least as high and export prices at most as high in every interval, the optimal cost plus penalties is at least as high. If all prices are multiplied by one positive factor and neither optimum spills, the optimal cost is multiplied by that factor.", "quantifier": "every site, every pair of price series, every exact solver", "why_tests_cant": "Monotonicity over all price series and all feasible dispatches.", "anchors": ["energypylinear/objectives.py:price_objective", "energypylinear/assets/site.py:Site.optimize"]}
{"id": "C64", "title": "Wrong answers of the solver are not returned as feasible results", "statement": "Whatever the solver answers, even if its answer violates the program, a result that optimize returns as feasible balances in every interval: electricity within 1/1000 MWh, high and low temperature heat within 1/10000 MWh, summed over the documented columns; no import, export, total or (for names of letters, digits and underscores) asset flow is below -1/10000 MWh; and the valve passes on exactly the heat it takes.", "quantifier": "every site, objective, flags and every solver, sound or not", "why_tests_cant": "Quantifies over every possible answer of the solver.", "anchors": ["energypylinear/results/checks.py:check_results", "energypylinear/results/schema.py:simulation_schema", "energypylinear/results/extract.py:extract_results"]}
{"id": "C65", "title": "Custom accounts agree with the custom objective", "statement": "After a feasible run with a custom objective, get_accounts with the same terms returns, and the cost of its custom account is the objective value of the run. This holds for terms on the import or export of the site that say so by type or name, and for terms on a flow of one asset, given by a name that no other asset name, 'site' or 'total' extends or is extended by (electric vehicles excluded), with or without interval data; for two variable terms on site import, site export and whole numbers without interval data; and for many variable terms on such a variable with a whole number as constant. A charge on a maximum agrees if the solver found an optimum. The custom account has no emissions and is part of the cost. A term on all assets of a type, without a name, is counted twice or more: the accounts also find the totals.", "quantifier": "every site, list of such terms, flags, solver and run", "why_tests_cant": "Quantifies over all runs and all lists of terms; the accounts find columns by prefix and suffix of their names, the objective finds objects by class and name.", "anchors": ["energypylinear/accounting/accounting.py:add_simple_terms", "energypylinear/accounting/accounting.py:add_two_variable_terms", "energypylinear/accounting/accounting.py:add_many_variable_terms", "energypylinear/accounting/accounting.py:get_accounts", "energypylinear/objectives.py"]}
{"id": "C66", "title": "A site that can rest within its grid connection always gets an answer", "statement": "Take a site that nobody asks heat of, without custom constraints, whose assets can all hold a resting point: batteries keep their charge, generators and boilers without a minimum are off, renewable generators run at their lower bound, every vehicle is charged by the spill charger in the first interval it is plugged in. If the grid connection carries the resulting net demand in every interval, or if the site has a spill asset, then the program of optimize with objective price or carbon has a feasible point, and with a solver that answers feasible programs optimize returns a feasible result.", "quantifier": "every such site (any number of assets, vehicles, intervals), both objectives, all flags, every sound solver", "why_tests_cant": "Feasibility for all sites of a class; a test checks single sites with one solver.", "anchors": ["energypylinear/assets/site.py:optimize", "energypylinear/assets/evs.py:constrain_connected_charge", "energypylinear/assets/evs.py:within_interval", "energypylinear/assets/spill.py"]}
{"id": "C67", "title": "Stand-alone assets always come back", "statement": "A stand-alone asset made by its constructor under its default name, with prices or carbon intensities, no custom constraints and no extra data, non-negative loads and limits, is optimised for price or carbon with a feasible result by every solver that answers feasible programs: a battery with non-negative powers, capacity and initial charge and no final charge; a renewable generator (given as one number only if there is more than one interval); an EVs asset whose vehicles ask for no more than the spill charger gives in one interval - each without heat loads, with a spill or a grid connection that carries what is left when the asset rests; a CHP with a spill, or without heat loads; a heat pump with a spill and a valve, or without heat loads.", "quantifier": "every such asset, interval data, flags and solver", "why_tests_cant": "Success of a call for all inputs of a class; every intermediate check of the library must pass.", "anchors": ["energypylinear/assets/battery.py:Battery", "energypylinear/assets/chp.py:CHP", "energypylinear/assets/heat_pump.py:HeatPump", "energypylinear/assets/renewable_generator.py:RenewableGenerator", "energypylinear/assets/evs.py:EVs"]}
{"id": "C68", "title": "Random EV data is what it says", "statement": "generate_random_ev_input_data returns exactly if sizes and deviations are not negative, the seed is one of numpy's and - if there are charge events - there are four intervals at least and charge_length is two at least; otherwise it raises ValueError. Whatever is drawn, prices and intensities have one value per interval, chargers are whole numbers from 10 to 99, capacities are not negative, and every charge event is one unbroken stretch, shorter than charge_length, that leaves the last two intervals empty; and every such stretch can be drawn. EVs accepts the data, and optimising it succeeds if no vehicle asks for more than the spill charger gives in an interval and there is a spill or the grid connection carries all vehicles.", "quantifier": "all arguments and all possible draws", "why_tests_cant": "A test sees a few seeds; the claim is about all draws, and about when the call raises.", "anchors": ["energypylinear/data_generation.py:generate_random_ev_input_data", "energypylinear/assets/evs.py:EVs", "energypylinear/assets/evs.py:validate_ev_interval_data"]}
{"id": "C69", "title": "Plots show the results and leave them alone", "statement": "plot of a battery, CHP, heat pump or EVs asset draws the numbers of the results (power balance, net charge, states of charge, heat, stacked low temperature heat, prices, intensities), one point per interval. It returns exactly when the columns it draws exist: for a stand-alone battery or EVs asset when it has its default name, for a CHP when there is a spill and a boiler, for a heat pump when there is a spill and a valve. Battery, CHP and EVs plots change no column of the results, even when they raise; the heat pump plot rounds six columns to four decimals and changes nothing else. Accounts are the same before and after any number of plots, plotting twice shows the same picture, and both stacks of low temperature heat of the heat pump plot are equally high up to rounding.", "quantifier": "every site, interval data, custom constraint, objective, solver answer and sequence of plots", "why_tests_cant": "Tests call plot on a few results and look at no numbers; which sites a plot works for, and what it leaves behind when it raises half way, is a claim about all results.", "anchors": ["energypylinear/plot.py:plot_battery", "energypylinear/plot.py:plot_evs", "energypylinear/plot.py:plot_chp", "energypylinear/plot.py:plot_heat_pump"]}
{"id": "C70", "title": "Columns come in a documented order", "statement": "The columns of the results are: the site's import, export, prices, intensities, gas prices, loads, custom data; then spill, battery, CHP, boiler, valve columns, each class in the order of the assets; chargers, charge events and states of charge of every EVs asset; spill chargers; heat pumps; renewables; totals; and the balance of the site (only if no custom data takes its place). Two optimisations of one site have the same columns in the same order, whatever the objective, flags and solver.", "quantifier": "every site, interval data, objective, flags and solver answer", "why_tests_cant": "The order is the result of insertion order into a dictionary over a loop over intervals and assets, for any number and mix of assets.", "anchors": ["energypylinear/results/extract.py:extract_results", "energypylinear/results/extract.py:add_totals"]}
{"id": "C71", "title": "Debug helpers show the asset", "statement": "debug_asset returns columns of the results with their numbers, in their order: those whose name contains the given name, hence all columns of the asset; exactly those if the name occurs in no other column, as for a stand-alone battery of the default name. debug_simulation never raises on results and shows import, export, intensity and the charge, discharge, state of charge and loss columns; debug_balances never raises on feasible results.", "quantifier": "every site, objective, flags, solver answer and name", "why_tests_cant": "Substring selection over all possible names of assets and custom data.", "anchors": ["energypylinear/debug.py:debug_asset", "energypylinear/debug.py:debug_simulation", "energypylinear/debug.py:debug_balances"]}
{"id": "C72", "title": "Losses and stored energy add up", "statement": "Every charger, the spill charger and every charge event of an EVs asset lose (1 - efficiency) of what they charge; charge events and chargers (spill charger apart) report the same charge, discharge and loss. If the names of all EVs assets end with 'evs', then in every interval total charge - total discharge - total loss is the change of all states of charge, and over the horizon it is what takes all batteries from initial to final charge and fills all vehicles. With another EVs name the loss total counts the chargers a second time, and the spill charger.", "quantifier": "every site of constructed assets with plain names, every interval data, objective, flags, sound solver answer and row", "why_tests_cant": "Energy conservation over all assets and intervals, for all dispatches.", "anchors": ["energypylinear/assets/evs.py:constrain_charge_event_electricity_balance", "energypylinear/assets/battery.py:constrain_battery_electricity_balance", "energypylinear/results/extract.py:add_totals"]}
{"id": "C73", "title": "Energy is neither created nor destroyed", "statement": "In every interval, import + gas burnt + renewable generation + what spills make up + the site's own low temperature generation = export + electric and heat loads + change of the states of charge + what the efficiencies waste and spills throw away; over the horizon the change of the states of charge is what takes batteries from initial to final charge and fills vehicles. Without spills and with efficiencies of at most one a site never gets more out than it puts in, and a site of batteries, vehicles, heat pumps and valves only, with batteries that do not end below their initial charges, never exports more than it imports. The exception is a CHP with electric_efficiency_pct 0 and electric_power_max_mw > 0, which makes electricity from nothing.", "quantifier": "every site of constructed assets, every interval data, objective, flags, custom constraints, sound solver answer and row", "why_tests_cant": "A first law over all asset types at once, for all dispatches and data.", "anchors": ["energypylinear/assets/site.py:constrain_site_electricity_balance", "energypylinear/assets/chp.py:CHP.constrain_within_interval", "energypylinear/assets/battery.py", "energypylinear/assets/boiler.py", "energypylinear/assets/heat_pump.py", "energypylinear/assets/evs.py"]}
{"id": "C74", "title": "Constructors accept exactly what they document", "statement": "Boiler, CHP, Spill, Valve, RenewableGenerator and EVs succeed exactly when their validators say so (name contains the asset word; boiler efficiency above 0 and at most 1; generation present and not negative, lower bound between 0 and 1; a rectangular charge event matrix with one row per capacity) and keep the arguments as given: chargers and events are numbered by position, the matrix is turned to intervals x events, one spill charger is added, the minimum power is power x turndown. A stand-alone EVs asset with prices is only built if the matrix spans the horizon and no charge event is never plugged in.", "quantifier": "every argument", "why_tests_cant": "An equivalence over all strings, numbers and matrices.", "anchors": ["energypylinear/assets/boiler.py:BoilerConfig", "energypylinear/assets/chp.py:CHPConfig", "energypylinear/assets/spill.py:SpillConfig", "energypylinear/assets/valve.py:ValveConfig", "energypylinear/assets/renewable_generator.py:RenewableGeneratorConfig", "energypylinear/assets/evs.py:EVs.__init__", "energypylinear/data_generation.py"]}
{"id": "C75", "title": "The order of the assets does not matter", "statement": "Site(assets=...) accepts the assets in one order exactly when it accepts them in any other; both sites allow the same plans at the same objective value, two exact solvers find the same objective value, and (without min/max terms) whatever answer a solver gives for one site is an equally sound or exact answer for the other, with the same results table up to the order of its columns, the same feasibility, spill flag, status and objective value.", "quantifier": "every list of assets and every permutation of it, every interval data, objective, flags, custom constraints and solver answer", "why_tests_cant": "Ranges over all permutations of all asset lists and over all solver answers.", "anchors": ["energypylinear/assets/site.py:Site.__init__", "energypylinear/assets/site.py:Site.optimize", "energypylinear/interval_data.py:IntervalVars.filter_objective_variables", "energypylinear/results/extract.py:extract_results"]}
{"id": "C76", "title": "The order of custom constraints and objective terms does not matter", "statement": "Giving the same custom constraints in another order, or some of them more than once, gives the same results. Giving the terms of a custom objective in another order allows the same plans at the same objective value, so exact solvers find the same optimum, and without min/max terms any answer gives the same results.", "quantifier": "every site, every two lists with the same custom constraints, every permutation of the objective terms, every flags and solver answer", "why_tests_cant": "Ranges over all permutations and repetitions and over all solver answers.", "anchors": ["energypylinear/assets/site.py:Site.optimize", "energypylinear/objectives.py:get_objective", "energypylinear/objectives.py:add_simple_terms", "energypylinear/objectives.py:add_two_variable_terms", "energypylinear/objectives.py:add_many_variables_terms"]}
{"id": "C77", "title": "Demand moves against prices", "statement": "Between two optimal price plans of the same plant under different prices, what is bought (imports, gas, and with the opposite sign exports) moves against its prices in the sum over all intervals; so when only one interval's import (export, gas) price rises, the site imports no more (exports no less, burns no more gas) in that interval. The same holds for net imports against carbon intensities under the carbon objective. The optimum at averaged prices is at least the average of the optima.", "quantifier": "every site, every two (three) price lists, every exact solver answers, every flags, without custom constraints on prices", "why_tests_cant": "Compares two optima over all plants, prices and horizons; a solver returns one plan per input.", "anchors": ["energypylinear/objectives.py:price_objective", "energypylinear/objectives.py:carbon_objective", "energypylinear/assets/site.py:Site.optimize"]}
{"id": "C78", "title": "Weighing part of a custom objective more never increases it", "statement": "Raising the coefficient of some of the terms of a custom objective made of simple terms gives an optimal plan with no more of those terms and no less of the others; and an optimal plan is efficient: no plan of the same site is better in one part and as good in the other.", "quantifier": "every site, every two lists of simple terms, every two weights, every exact solver answers and flags", "why_tests_cant": "Compares optima over all term lists, weights and plants.", "anchors": ["energypylinear/objectives.py:add_simple_terms", "energypylinear/objectives.py:get_objective", "energypylinear/assets/site.py:Site.optimize"]}
{"id": "C79", "title": "Looking further ahead never costs more, and parts of an optimal plan are optimal", "statement": "Take a plant without electric vehicles whose custom constraints hold interval by interval. (1) Plans of consecutive windows, each starting with the battery charges the window before ended with, make a plan of the whole horizon whose value is the sum; so optimising the whole horizon is never worse than any rolling horizon. (2) Optimising again some consecutive intervals of an optimal plan, with the batteries starting and ending as in that plan, gives exactly what these intervals cost in the plan. (3) Without batteries, optimising the intervals together or one after the other gives the same optimum. For price and for carbon.", "quantifier": "every such site, every split of the horizon into windows, every charges in between, every exact solver answer and flags", "why_tests_cant": "Compares optima over all horizons, splits and plants; a test sees one split of one horizon.", "anchors": ["energypylinear/assets/battery.py:constrain_connection_batteries_between_intervals", "energypylinear/assets/battery.py:constrain_initial_final_charge", "energypylinear/assets/site.py:Site.optimize", "energypylinear/objectives.py:price_objective"]}
{"id": "C80", "title": "Letting the vehicles discharge never makes the optimum worse", "statement": "Every plan found with allow_evs_discharge=False is a plan with allow_evs_discharge=True in which the vehicles do not discharge, everything else is as it was and the objective has the same value; so the optimum with discharging is never larger than without. For price and carbon the same holds of the totals read from the results.", "quantifier": "every constructed site with electric vehicles of non-negative charger powers and 0/1 charge events (and any other assets and custom constraints), every objective without max_many terms, every exact solver answer and flags", "why_tests_cant": "Compares optima of two programs over all sites; a test sees one site and one solver.", "anchors": ["energypylinear/assets/evs.py:evs_one_interval", "energypylinear/assets/evs.py:constrain_charge_discharge_min_max", "energypylinear/flags.py:Flags.allow_evs_discharge", "energypylinear/assets/site.py:Site.optimize"]}
{"id": "C81", "title": "optimize returns a cheapest valid dispatch", "statement": "Call a table of energies a valid dispatch of a site if it echoes the inputs, keeps to the grid limits without importing and exporting at once, balances electricity, high and low temperature heat in every interval, and every asset in it behaves as its physics ask (battery charge and state of charge, boiler and CHP efficiencies and turndown, heat pump COP, renewable availability, valve, spill, a schedule for the electric vehicles). Every feasible result is a valid dispatch that respects the custom constraints; for the price objective no valid dispatch that respects them costs less than the result (spill counted with its penalty) and for the carbon objective none emits less, so the objective value is exactly the minimum over these dispatches; and a feasible result comes back exactly when one exists. For a custom objective of simple terms on reported flows likewise: the objective value is the least value of these terms over all valid dispatches.", "quantifier": "every constructed site with any number and mix of assets, any horizon, prices and loads, every valid dispatch, every exact (for feasibility: sound and answering) solver and all flags; custom constraints on flows that the results report", "why_tests_cant": "Minimality ranges over all possible dispatches of all sites; a test compares the answer with a few hand-made ones.", "anchors": ["energypylinear/assets/site.py:Site.optimize", "energypylinear/assets/site.py:constrain_site_electricity_balance", "energypylinear/assets/battery.py:Battery", "energypylinear/assets/evs.py:EVs", "energypylinear/assets/chp.py:CHP", "energypylinear/objectives.py"]}
{"id": "C82", "title": "Shorter intervals never make the optimum worse", "statement": "Split every interval of a site into k equal parts: freq_mins is divided by k, prices, carbon intensities and charge events are repeated, loads and generation are split evenly, powers, capacities and limits stay. Every valid dispatch of the original site can be followed on the finer one with the same cost, emissions and spill, so the optimum of the finer site is never larger than any result of the original one (spill counted with its penalty), for price and for carbon.", "quantifier": "every site with any number and mix of assets (electric vehicles included) and no custom constraints, every k >= 1, every feasible result of the original site and every exact solver answer for the finer one, all flags", "why_tests_cant": "Compares the optima of two programs of different size over all sites and all k.", "anchors": ["energypylinear/freq.py:Freq", "energypylinear/assets/site.py:Site.optimize", "energypylinear/assets/battery.py:constrain_initial_final_charge", "energypylinear/assets/chp.py:CHP", "energypylinear/assets/evs.py:EVs"]}
{"id": "C83", "title": "The optimum scales with the plant", "statement": "Multiply every power, capacity, initial and final charge, load, generation, import and export limit of a site by q > 0. The valid dispatches are those of the original site multiplied by q, with q times the cost, emissions and spill, and exact solvers return q times the objective value: the answer does not depend on the unit of energy (MWh or kWh).", "quantifier": "every site of batteries, boilers, CHPs, heat pumps, renewables, spills and valves without custom constraints, every q > 0, every exact solver answer, price and carbon objective, all flags", "why_tests_cant": "An equality between the optima of two programs for all sites and all factors.", "anchors": ["energypylinear/freq.py:Freq", "energypylinear/assets/site.py:Site.optimize", "energypylinear/assets/battery.py:Battery", "energypylinear/assets/chp.py:CHP", "energypylinear/objectives.py"]}
{"id": "C84", "title": "Two sites behind one meter never cost more", "statement": "Put two sites with the same prices, carbon intensities and intervals behind one meter: the assets of both, the loads added, the import and export limits added. Any two valid dispatches together are a valid dispatch of the joint site in which no asset changes its behaviour and the imports of one meet the exports of the other; emissions and spill add up, and when export prices do not exceed import prices the bill is no higher. So the optimum of the joint site is never larger than the sum of any two results of the sites on their own (spill counted with its penalty).", "quantifier": "every two sites with any number and mix of assets (electric vehicles included) whose names do not clash, every two feasible results from any objectives, solvers and custom constraints, every exact solver answer for the joint site, all flags", "why_tests_cant": "Relates the optima of three programs for all pairs of sites.", "anchors": ["energypylinear/assets/site.py:Site.optimize", "energypylinear/assets/site.py:constrain_site_electricity_balance", "energypylinear/assets/site.py:constrain_site_import_export", "energypylinear/objectives.py"]}
{"id": "C85", "title": "No valuable renewable energy is curtailed", "statement": "In an optimal result a renewable generator that feeds in less than it could, while the site could still use or export more, has a next MWh that is worth nothing or less; one that runs above its lower bound, while the connection could replace it, replaces energy with a price that is not negative. With positive prices a generator is curtailed only when the site exports exactly its limit and imports nothing. The same holds for carbon with the carbon intensity.", "quantifier": "every site without custom constraints, of any number of intervals and any mix of assets (electric vehicles included) whose names do not clash, all flags, every exact solver answer, every interval, every renewable generator", "why_tests_cant": "A statement about every optimal solution of every program; a test sees the solution the solver happens to return for one program.", "anchors": ["energypylinear/assets/site.py:Site.optimize", "energypylinear/assets/site.py:constrain_site_electricity_balance", "energypylinear/objectives.py", "energypylinear/assets/renewable_generator.py"]}
{"id": "C86", "title": "Efficient boilers run first", "statement": "In an optimal result, in every interval with a positive gas price, a boiler makes no more heat than it must (its minimum, or nothing) unless every boiler with a higher efficiency runs at full power. For carbon this holds in every interval.", "quantifier": "every site without custom constraints, of any number of intervals and any mix of assets (electric vehicles included) whose names do not clash, all flags, every exact solver answer, every interval, every pair of boilers with different positive efficiencies", "why_tests_cant": "A statement about every optimal solution of every program.", "anchors": ["energypylinear/assets/site.py:Site.optimize", "energypylinear/assets/site.py:constrain_site_electricity_balance", "energypylinear/objectives.py", "energypylinear/assets/boiler.py"]}
{"id": "C87", "title": "Spill only when grid, renewables and boilers are exhausted", "statement": "In an optimal result electricity appears from nowhere at a spill asset only when the site imports its limit and exports nothing (or the price reaches the penalty), and is thrown away only when the site exports its limit and imports nothing; a spill asset never makes and takes electricity in one interval; while it makes electricity all renewable generators run at full output, while it takes it they run at their lower bounds; while it makes heat all boilers run at full power (or their gas costs as much as the penalty). For carbon likewise.", "quantifier": "every site without custom constraints, of any number of intervals and any mix of assets (electric vehicles included) whose names do not clash, all flags, every exact solver answer, every interval, every spill asset", "why_tests_cant": "A statement about every optimal solution of every program.", "anchors": ["energypylinear/assets/site.py:Site.optimize", "energypylinear/assets/site.py:constrain_site_electricity_balance", "energypylinear/objectives.py", "energypylinear/assets/spill.py", "energypylinear/assets/boiler.py"]}
{"id": "C88", "title": "Batteries leave no profitable move and make no losing one", "statement": "In an optimal result, if a battery could still take energy in one interval and give it back in another and the grid connection has room for both, then what comes back after losses is worth no more than what goes in; and if a battery does move energy from one interval to another and the connection has room to undo it, then what comes back is worth at least what goes in. For carbon likewise with the carbon intensities.", "quantifier": "every site without custom constraints, of any number of intervals and any mix of assets (electric vehicles included) whose names do not clash, all flags, every exact solver answer, every interval, every battery, every pair of intervals in either order", "why_tests_cant": "A statement about every optimal solution of every program and every pair of intervals.", "anchors": ["energypylinear/assets/site.py:Site.optimize", "energypylinear/assets/site.py:constrain_site_electricity_balance", "energypylinear/objectives.py", "energypylinear/assets/battery.py"]}
{"id": "C89", "title": "Vehicles charge in the cheapest intervals they can", "statement": "In an optimal result, if a vehicle charges in one interval, could do some of that charging in another interval instead (it is plugged in, a charger has room, the state of charge in between stays within its limits) and the grid connection has room for the change, then the energy it would save in the first interval is worth no more than what it would cost in the second. For carbon: the carbon intensity of the first is no higher than that of the second.", "quantifier": "every site without custom constraints, of any number of intervals and any mix of assets whose names do not clash, all flags, every exact solver answer, every electric vehicle asset with any numbers of chargers and charge events, every charge event, every ordered pair of intervals", "why_tests_cant": "A statement about every optimal solution of every program, every vehicle and every pair of intervals.", "anchors": ["energypylinear/assets/site.py:Site.optimize", "energypylinear/assets/site.py:constrain_site_electricity_balance", "energypylinear/objectives.py", "energypylinear/assets/evs.py"]}
{"id": "C90", "title": "A CHP runs exactly when its spark spread pays", "statement": "In an optimal result, where a CHP could make a little more, a boiler could make less heat and the grid connection could absorb the electricity, the electricity from one MWh of gas plus the boiler gas that its heat saves are worth no more than that MWh of gas; where a CHP runs above its minimum, a boiler could make more heat and the connection could replace the electricity, they are worth at least that MWh of gas. Low temperature heat goes to (or is taken back from) a spill asset. For carbon likewise with the carbon intensity and 185 kg per MWh of gas.", "quantifier": "every site without custom constraints, of any number of intervals and any mix of assets (electric vehicles included) whose names do not clash, all flags, every exact solver answer, every interval, every CHP that makes electricity, every boiler", "why_tests_cant": "A statement about every optimal solution of every program.", "anchors": ["energypylinear/assets/site.py:Site.optimize", "energypylinear/assets/site.py:constrain_site_electricity_balance", "energypylinear/objectives.py", "energypylinear/assets/chp.py", "energypylinear/assets/boiler.py", "energypylinear/assets/spill.py"]}
{"id": "C91", "title": "A heat pump runs exactly when its electricity is cheaper than the boiler's gas", "statement": "In an optimal result, where a heat pump could take a little more electricity, low temperature heat is being thrown away, a boiler could make less heat and the grid connection could deliver more, the gas that one MWh of electricity would save costs no more than the electricity; where a heat pump runs, a boiler could make more heat and the connection could absorb the electricity, that gas costs at least as much. For carbon likewise.", "quantifier": "every site without custom constraints, of any number of intervals and any mix of assets (electric vehicles included) whose names do not clash, all flags, every exact solver answer, every interval, every heat pump with a COP of at least one, every boiler", "why_tests_cant": "A statement about every optimal solution of every program.", "anchors": ["energypylinear/assets/site.py:Site.optimize", "energypylinear/assets/site.py:constrain_site_electricity_balance", "energypylinear/objectives.py", "energypylinear/assets/heat_pump.py", "energypylinear/assets/boiler.py", "energypylinear/assets/spill.py"]}
{"id": "C92", "title": "The spill charger is the last resort of vehicles", "statement": "In an optimal result the spill charger charges a vehicle that a real charger could charge in the same interval only if what the charger loses costs more than the spill penalty (so never next to chargers without losses, whatever electricity costs), and a vehicle that a real charger could charge in another interval only if electricity there costs more than the charger efficiency times the penalty and the price saved. For carbon likewise.", "quantifier": "every site without custom constraints, of any number of intervals and any mix of assets whose names do not clash, all flags, every exact solver answer, every charge event, every one or two intervals, chargers with any efficiency from 0", "why_tests_cant": "A statement about every optimal solution of every program.", "anchors": ["energypylinear/assets/evs.py:EVs", "energypylinear/assets/site.py:Site.optimize", "energypylinear/objectives.py"]}
{"id": "C93", "title": "Better fuel efficiency never costs more", "statement": "Replacing a boiler by one of higher efficiency, or a CHP by one that makes k >= 1 times the electricity and heat from its gas, never makes the optimal cost larger if gas prices are not negative, and never makes the optimal emissions larger.", "quantifier": "every pair of sites without custom constraints that differ only as said, of any number of intervals and any mix of other assets whose names do not clash, all flags, every pair of solver answers (exact where the claim needs an optimum)", "why_tests_cant": "A relation between the optima of two programs of any size, not between two particular results.", "anchors": ["energypylinear/assets/site.py:Site.optimize", "energypylinear/objectives.py", "energypylinear/assets/boiler.py:Boiler", "energypylinear/assets/chp.py:CHP"]}
{"id": "C94", "title": "An asset that stands still is worth nothing", "statement": "If an asset of any kind takes and gives nothing in any interval of an optimal result, the optimum of the site without the asset is exactly the same, for cost and for emissions.", "quantifier": "every pair of sites without custom constraints that differ only as said, of any number of intervals and any mix of other assets whose names do not clash, all flags, every pair of solver answers (exact where the claim needs an optimum)", "why_tests_cant": "A relation between the optima of two programs of any size, not between two particular results.", "anchors": ["energypylinear/assets/site.py:Site.optimize", "energypylinear/objectives.py"]}
{"id": "C95", "title": "Two boilers, heat pumps or renewable generators are worth as much as one of their combined size", "statement": "A site with two boilers of the same efficiency has exactly the optimal cost and emissions of the site with one boiler whose minimum and maximum are the sums; likewise two heat pumps of one COP and the sum of their powers, and two renewable generators with one turn-down bound and the sum of what is available.", "quantifier": "every pair of sites without custom constraints that differ only as said, of any number of intervals and any mix of other assets whose names do not clash, all flags, every pair of solver answers (exact where the claim needs an optimum)", "why_tests_cant": "A relation between the optima of two programs of any size, not between two particular results.", "anchors": ["energypylinear/assets/site.py:Site.optimize", "energypylinear/objectives.py", "energypylinear/assets/boiler.py:Boiler", "energypylinear/assets/heat_pump.py:HeatPump", "energypylinear/assets/renewable_generator.py:RenewableGenerator"]}
{"id": "C96", "title": "A peak charge finds the cheapest mix of cost and peak", "statement": "With a custom objective of simple terms and a positive charge on the peak import (or export) of the site, optimize returns a dispatch whose terms plus charge are the least any valid dispatch can have, if M is at least what the grid connection allows in an interval and the constant (in general: among the dispatches whose peak is within M of all their cells); raising the charge never gives a higher peak and never a lower sum of the other terms.", "quantifier": "every site of any mix of assets and custom constraints, any number of intervals, all simple terms on reported attributes, all M, constants and positive charges, all flags, every answer of an exact solver, every valid dispatch", "why_tests_cant": "Optimality over all dispatches of a mixed integer program of any size, and a relation between the optima of two programs.", "anchors": ["energypylinear/objectives.py:add_many_variables_terms", "energypylinear/optimizer.py:Optimizer.max_many_variables", "energypylinear/assets/site.py:Site.optimize"]}
{"id": "C97", "title": "The relative tolerance bounds what is given away", "statement": "If the solver only promises a relative tolerance g (OptimizerConfig.relative_tolerance), the dispatch returned by optimize is still valid and its cost, emissions or custom objective is at most g (relative to the larger of the two) above that of any valid dispatch; the reported objective is never below the optimum and at most g above it, for every objective; with tolerance zero this is optimality.", "quantifier": "every site of any mix of assets and custom constraints, any number of intervals, all flags, every tolerance, every answer of a solver within the tolerance, every valid dispatch", "why_tests_cant": "Near-optimality is relative to all dispatches of a mixed integer program of any size.", "anchors": ["energypylinear/optimizer.py:OptimizerConfig", "energypylinear/optimizer.py:Optimizer", "energypylinear/assets/site.py:Site.optimize"]}
{"id": "C98", "title": "Additional load costs between its export value and its import cost", "statement": "If the electric load of a site is changed by amounts the grid connection can meet, and no export price is above the import price of its interval, the optimal cost reported by optimize rises by at most the additional load at import prices (less the saved load at export prices) and by at least the additional load at export prices (less the saved load at import prices); the optimal emissions change by exactly the change of the load at the carbon intensities of the grid.", "quantifier": "every site of any mix of assets without custom constraints, any number of intervals, all flags, every second load, every answer of an exact solver", "why_tests_cant": "Compares the optima of two mixed integer programs of any size for all loads.", "anchors": ["energypylinear/assets/site.py:Site.optimize", "energypylinear/assets/site.py:constrain_site_electricity_balance", "energypylinear/objectives.py"]}
{"id": "C99", "title": "A fixed schedule needs only the expected prices", "statement": "If prices and carbon intensities are uncertain, any number of scenarios with weights, then the cost of a schedule at the mean prices is its mean cost over the scenarios; of all schedules optimize returns for whatever prices and objective, the one optimised at the mean prices has the least mean cost; and optimising each scenario with its own prices costs in the mean at most the optimum at the mean prices (volatility never hurts a site that can see it). Likewise for emissions at uncertain carbon intensities.", "quantifier": "every site of any mix of assets, custom constraints not multiplied by prices, any number of intervals, all flags, any number of scenarios and weights, every answer of an exact solver", "why_tests_cant": "Compares optima of mixed integer programs of any size over all scenario sets.", "anchors": ["energypylinear/assets/site.py:Site.optimize", "energypylinear/objectives.py", "energypylinear/accounting/accounting.py:get_accounts"]}
{"id": "C100", "title": "Small price errors cost little", "statement": "Dispatching with wrong prices costs, at the right prices, at most the sum over the intervals of the error of the import price times what the import connection can carry, the error of the export price times what the export connection can carry and the error of the gas price times the difference in gas use, more than the right dispatch; the reported optimal cost itself moves by no more than such a sum; likewise for emissions and errors of the carbon intensities.", "quantifier": "every site of any mix of assets, custom constraints not multiplied by prices, any number of intervals, all flags, every second set of prices, every answer of an exact solver", "why_tests_cant": "A continuity bound over all prices and all mixed integer programs of any size.", "anchors": ["energypylinear/assets/site.py:Site.optimize", "energypylinear/assets/site.py:constrain_site_electricity_balance", "energypylinear/objectives.py"]}
