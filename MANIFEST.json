{
 "claims": [
  {
   "property": "C01",
   "status": "proved",
   "theorems": [
    "EPL.C01_electricity_balance"
   ],
   "note": ""
  },
  {
   "property": "C02",
   "status": "proved",
   "theorems": [
    "EPL.C02_high_temperature_balance"
   ],
   "note": ""
  },
  {
   "property": "C03",
   "status": "proved",
   "theorems": [
    "EPL.C03_low_temperature_balance"
   ],
   "note": ""
  },
  {
   "property": "C04",
   "status": "proved",
   "theorems": [
    "EPL.C04_site_limits"
   ],
   "note": ""
  },
  {
   "property": "C05",
   "status": "proved",
   "theorems": [
    "EPL.C05_battery_soc"
   ],
   "note": ""
  },
  {
   "property": "C06",
   "status": "proved",
   "theorems": [
    "EPL.C06_battery_balance",
    "EPL.C06_battery_chain",
    "EPL.C06_battery_ends",
    "EPL.C06_battery_partial_sums",
    "EPL.C06_battery_horizon"
   ],
   "note": ""
  },
  {
   "property": "C07",
   "status": "proved",
   "theorems": [
    "EPL.C07_battery_limits"
   ],
   "note": ""
  },
  {
   "property": "C08",
   "status": "proved",
   "theorems": [
    "EPL.C08_battery_exclusive"
   ],
   "note": ""
  },
  {
   "property": "C09",
   "status": "proved",
   "theorems": [
    "EPL.C09_battery_new",
    "EPL.C09_battery_within"
   ],
   "note": ""
  },
  {
   "property": "C10",
   "status": "proved",
   "theorems": [
    "EPL.C10_chp"
   ],
   "note": ""
  },
  {
   "property": "C100",
   "status": "proved",
   "theorems": [
    "EPL.C100_regret",
    "EPL.C100_optimum",
    "EPL.C100_regret_carbon",
    "EPL.C100_optimum_carbon"
   ],
   "note": "Spec/Scenarios states the sums; costs include the penalty of spill."
  },
  {
   "property": "C11",
   "status": "proved",
   "theorems": [
    "EPL.C11_boiler"
   ],
   "note": ""
  },
  {
   "property": "C12",
   "status": "proved",
   "theorems": [
    "EPL.C12_heat_pump",
    "EPL.C12_heat_pump_new"
   ],
   "note": ""
  },
  {
   "property": "C13",
   "status": "proved",
   "theorems": [
    "EPL.C13_valve"
   ],
   "note": ""
  },
  {
   "property": "C14",
   "status": "proved",
   "theorems": [
    "EPL.C14_renewable"
   ],
   "note": ""
  },
  {
   "property": "C15",
   "status": "proved",
   "theorems": [
    "EPL.C15_spill_flag",
    "EPL.C15_no_spill_assets"
   ],
   "note": ""
  },
  {
   "property": "C16",
   "status": "proved",
   "theorems": [
    "EPL.C16_only_active",
    "EPL.C16_idle"
   ],
   "note": ""
  },
  {
   "property": "C17",
   "status": "proved",
   "theorems": [
    "EPL.C17_one_to_one",
    "EPL.C17_one_direction"
   ],
   "note": ""
  },
  {
   "property": "C18",
   "status": "proved",
   "theorems": [
    "EPL.C18_soc"
   ],
   "note": ""
  },
  {
   "property": "C19",
   "status": "proved",
   "theorems": [
    "EPL.C19_energy"
   ],
   "note": ""
  },
  {
   "property": "C20",
   "status": "proved",
   "theorems": [
    "EPL.C20_discharge_flag"
   ],
   "note": ""
  },
  {
   "property": "C21",
   "status": "proved",
   "theorems": [
    "EPL.C21_charger_power"
   ],
   "note": ""
  },
  {
   "property": "C22",
   "status": "proved",
   "theorems": [
    "EPL.C22_without",
    "EPL.C22_with",
    "EPL.C22_with_names",
    "EPL.C22_objective",
    "EPL.C22_feasible"
   ],
   "note": "The whole results object is the same, not only the schedule. Without the flag the program has more variables, so the check for duplicate solver names sees more names: C22_with assumes that it passes, C22_with_names derives it from clear names. Objectives with max_many_variables are excepted: dropping its operands changes its constraints."
  },
  {
   "property": "C23",
   "status": "proved",
   "theorems": [
    "EPL.C23_columns"
   ],
   "note": ""
  },
  {
   "property": "C24",
   "status": "proved",
   "theorems": [
    "EPL.C24_total_columns",
    "EPL.C24_total_assets",
    "EPL.C24_balance_column",
    "EPL.C24_spill_columns",
    "EPL.C24_loss_columns",
    "EPL.C24_spill_assets",
    "EPL.C24_loss_assets"
   ],
   "note": ""
  },
  {
   "property": "C25",
   "status": "proved",
   "theorems": [
    "EPL.C25_returns",
    "EPL.C25_inputs"
   ],
   "note": "C25_inputs states the hypotheses on the inputs only (no condition on solver or column names beyond the names the user gives), for objectives without min/max terms. For every site built by the constructor whose column names and solver names are distinct, whose loads are not negative and whose valve is named 'valve' (Site.Checkable says exactly what), every answer of the solver that satisfies the program exactly makes optimize return a feasible result; the only error left is the one asked for with fail_on_spill_asset_use. Covers extraction, length check, totals, schema, balance and valve checks, all objectives, custom constraints and flags."
  },
  {
   "property": "C26",
   "status": "proved",
   "theorems": [
    "EPL.C26_echo"
   ],
   "note": ""
  },
  {
   "property": "C27",
   "status": "proved",
   "theorems": [
    "EPL.C27_returned",
    "EPL.C27_raises",
    "EPL.C27_same"
   ],
   "note": ""
  },
  {
   "property": "C28",
   "status": "proved",
   "theorems": [
    "EPL.C28_fail_on_spill"
   ],
   "note": ""
  },
  {
   "property": "C29",
   "status": "proved",
   "theorems": [
    "EPL.C29_site_data",
    "EPL.C29_no_anchor",
    "EPL.C29_lengths",
    "EPL.C29_site"
   ],
   "note": ""
  },
  {
   "property": "C30",
   "status": "proved",
   "theorems": [
    "EPL.C30_repeat"
   ],
   "note": ""
  },
  {
   "property": "C31",
   "status": "proved",
   "theorems": [
    "EPL.C31_custom_data",
    "EPL.C31_results_column"
   ],
   "note": ""
  },
  {
   "property": "C32",
   "status": "proved",
   "theorems": [
    "EPL.C32_freq",
    "EPL.C32_freq_zero"
   ],
   "note": ""
  },
  {
   "property": "C33",
   "status": "proved",
   "theorems": [
    "EPL.C33_semicontinuous",
    "EPL.C33_program"
   ],
   "note": ""
  },
  {
   "property": "C34",
   "status": "proved",
   "theorems": [
    "EPL.C34_min_exact",
    "EPL.C34_max_exact",
    "EPL.C34_min_extends",
    "EPL.C34_max_extends"
   ],
   "note": ""
  },
  {
   "property": "C35",
   "status": "proved",
   "theorems": [
    "EPL.C35_min_exact",
    "EPL.C35_min_extends"
   ],
   "note": ""
  },
  {
   "property": "C36",
   "status": "proved",
   "theorems": [
    "EPL.C36_max_bound",
    "EPL.C36_max_values",
    "EPL.C36_max_optimum"
   ],
   "note": ""
  },
  {
   "property": "C37",
   "status": "proved",
   "theorems": [
    "EPL.C37_exact",
    "EPL.C37_every_interval",
    "EPL.C37_results"
   ],
   "note": ""
  },
  {
   "property": "C38",
   "status": "proved",
   "theorems": [
    "EPL.C38_exact",
    "EPL.C38_horizon",
    "EPL.C38_results"
   ],
   "note": ""
  },
  {
   "property": "C39",
   "status": "proved",
   "theorems": [
    "EPL.C39_constraint_new",
    "EPL.C39_no_match",
    "EPL.C39_unknown_type"
   ],
   "note": ""
  },
  {
   "property": "C40",
   "status": "proved",
   "theorems": [
    "EPL.C40_price",
    "EPL.C40_results"
   ],
   "note": ""
  },
  {
   "property": "C41",
   "status": "proved",
   "theorems": [
    "EPL.C41_carbon",
    "EPL.C41_results"
   ],
   "note": ""
  },
  {
   "property": "C42",
   "status": "proved",
   "theorems": [
    "EPL.C42_simple",
    "EPL.C42_dict",
    "EPL.C42_unknown",
    "EPL.C42_results"
   ],
   "note": ""
  },
  {
   "property": "C43",
   "status": "proved",
   "theorems": [
    "EPL.C43_same",
    "EPL.C43_optimum"
   ],
   "note": ""
  },
  {
   "property": "C44",
   "status": "proved",
   "theorems": [
    "EPL.C44_terms",
    "EPL.C44_max",
    "EPL.C44_min",
    "EPL.C44_results"
   ],
   "note": ""
  },
  {
   "property": "C45",
   "status": "proved",
   "theorems": [
    "EPL.C45_min",
    "EPL.C45_max_bound",
    "EPL.C45_terms_optimum",
    "EPL.C45_max_optimum",
    "EPL.C45_peak_results",
    "EPL.C45_min_results"
   ],
   "note": ""
  },
  {
   "property": "C46",
   "status": "proved",
   "theorems": [
    "EPL.C46_accounts",
    "EPL.C46_own_prices",
    "EPL.C46_returns"
   ],
   "note": ""
  },
  {
   "property": "C47",
   "status": "proved",
   "theorems": [
    "EPL.C47_accounts_add_up",
    "EPL.C47_difference",
    "EPL.C47_difference_of_runs"
   ],
   "note": ""
  },
  {
   "property": "C48",
   "status": "proved",
   "theorems": [
    "EPL.C48_price",
    "EPL.C48_price_equal",
    "EPL.C48_carbon"
   ],
   "note": ""
  },
  {
   "property": "C49",
   "status": "proved",
   "theorems": [
    "EPL.C49_prices_only",
    "EPL.C49_flows_only",
    "EPL.C49_self",
    "EPL.C49_forecast"
   ],
   "note": ""
  },
  {
   "property": "C50",
   "status": "proved",
   "theorems": [
    "EPL.C50_duplicates",
    "EPL.C50_distinct"
   ],
   "note": ""
  },
  {
   "property": "C51",
   "status": "proved",
   "theorems": [
    "EPL.C51_distinct",
    "EPL.C51_rejected",
    "EPL.C51_names"
   ],
   "note": ""
  },
  {
   "property": "C52",
   "status": "proved",
   "theorems": [
    "EPL.C52_repeatable",
    "EPL.C52_fresh"
   ],
   "note": ""
  },
  {
   "property": "C53",
   "status": "proved",
   "theorems": [
    "EPL.C53_assets",
    "EPL.C53_sites",
    "EPL.C53_undisturbed",
    "EPL.C53_shorter",
    "EPL.C53_longer"
   ],
   "note": ""
  },
  {
   "property": "C54",
   "status": "proved",
   "theorems": [
    "EPL.C54_price",
    "EPL.C54_carbon",
    "EPL.C54_results",
    "EPL.C54_cheapest"
   ],
   "note": ""
  },
  {
   "property": "C55",
   "status": "proved",
   "theorems": [
    "EPL.C55_feasible",
    "EPL.C55_optimum",
    "EPL.C55_price",
    "EPL.C55_carbon"
   ],
   "note": ""
  },
  {
   "property": "C56",
   "status": "proved",
   "theorems": [
    "EPL.C56_feasible",
    "EPL.C56_optimum"
   ],
   "note": ""
  },
  {
   "property": "C57",
   "status": "proved",
   "theorems": [
    "EPL.C57_feasible",
    "EPL.C57_not_infeasible",
    "EPL.C57_spill_columns",
    "EPL.C57_returns"
   ],
   "note": "Vehicles are included when the spill charger can serve them (EvsCfg.Served)."
  },
  {
   "property": "C58",
   "status": "proved",
   "theorems": [
    "EPL.C58_defaults",
    "EPL.C58_battery",
    "EPL.C58_renewable",
    "EPL.C58_chp",
    "EPL.C58_heatPump",
    "EPL.C58_evs",
    "EPL.C58_no_prices",
    "EPL.C58_prices",
    "EPL.C58_columns"
   ],
   "note": ""
  },
  {
   "property": "C59",
   "status": "proved",
   "theorems": [
    "EPL.C59_exact",
    "EPL.C59_flat_prices",
    "EPL.C59_results"
   ],
   "note": ""
  },
  {
   "property": "C60",
   "status": "proved",
   "theorems": [
    "EPL.C60_feasible",
    "EPL.C60_optimum",
    "EPL.C60_price",
    "EPL.C60_carbon"
   ],
   "note": ""
  },
  {
   "property": "C61",
   "status": "proved",
   "theorems": [
    "EPL.C61_price",
    "EPL.C61_carbon"
   ],
   "note": ""
  },
  {
   "property": "C62",
   "status": "proved",
   "theorems": [
    "EPL.C62_foresight",
    "EPL.C62_foresight_carbon",
    "EPL.C62_accounts"
   ],
   "note": "Custom constraints must not themselves multiply by prices or carbon intensities (PriceFree); a CHP without any efficiency (gas not tied to its output) is excepted."
  },
  {
   "property": "C63",
   "status": "proved",
   "theorems": [
    "EPL.C63_dearer",
    "EPL.C63_scaled"
   ],
   "note": ""
  },
  {
   "property": "C64",
   "status": "proved",
   "theorems": [
    "EPL.C64_balances",
    "EPL.C64_signs",
    "EPL.C64_valve"
   ],
   "note": "No hypothesis on the solver."
  },
  {
   "property": "C65",
   "status": "proved",
   "theorems": [
    "EPL.C65_custom_account"
   ],
   "note": "Spec/CustomAccounts.lean says which terms are accountable; an example shows that a term by type alone is counted twice."
  },
  {
   "property": "C66",
   "status": "proved",
   "theorems": [
    "EPL.C66_grid",
    "EPL.C66_spill",
    "EPL.C66_returns"
   ],
   "note": "Spec/Idle.lean gives the resting demand (Site.restDemand) and says when vehicles can be served by the spill charger (EvsCfg.Served)."
  },
  {
   "property": "C67",
   "status": "proved",
   "theorems": [
    "EPL.C67_battery",
    "EPL.C67_renewable",
    "EPL.C67_chp",
    "EPL.C67_heatPump",
    "EPL.C67_evs"
   ],
   "note": "Spec/Alone.lean says what is asked of data, solver and fleets."
  },
  {
   "property": "C68",
   "status": "proved",
   "theorems": [
    "EPL.C68_returns",
    "EPL.C68_raises",
    "EPL.C68_fits",
    "EPL.C68_every_stretch",
    "EPL.C68_accepted",
    "EPL.C68_optimizes"
   ],
   "note": "The generator of numpy is an arbitrary stream of draws; floats are rationals."
  },
  {
   "property": "C69",
   "status": "proved",
   "theorems": [
    "EPL.C69_battery",
    "EPL.C69_chp",
    "EPL.C69_heatPump",
    "EPL.C69_evs",
    "EPL.C69_battery_keeps",
    "EPL.C69_chp_keeps",
    "EPL.C69_heatPump_keeps",
    "EPL.C69_heatPump_rounds",
    "EPL.C69_accounts",
    "EPL.C69_alone_battery",
    "EPL.C69_alone_chp",
    "EPL.C69_alone_heatPump",
    "EPL.C69_alone_evs",
    "EPL.C69_stacks",
    "EPL.C69_again_battery",
    "EPL.C69_again_chp",
    "EPL.C69_again_heatPump"
   ],
   "note": "Spec/Plot.lean draws the pictures; titles, labels and the image file are not modelled. plot_evs is a pure function of the results."
  },
  {
   "property": "C70",
   "status": "proved",
   "theorems": [
    "EPL.C70_order",
    "EPL.C70_same"
   ],
   "note": "Spec/Order.lean lists the order."
  },
  {
   "property": "C71",
   "status": "proved",
   "theorems": [
    "EPL.C71_asset",
    "EPL.C71_exact",
    "EPL.C71_spill",
    "EPL.C71_debug",
    "EPL.C71_battery"
   ],
   "note": "C71_spill: for a spill the total of EV spills is among the columns."
  },
  {
   "property": "C72",
   "status": "proved",
   "theorems": [
    "EPL.C72_ev_losses",
    "EPL.C72_events_chargers",
    "EPL.C72_stored",
    "EPL.C72_horizon",
    "EPL.C72_loss_total",
    "EPL.C72_spill_total"
   ],
   "note": "Spec/Losses.lean gives the columns and the names; asset names must not look like loss columns."
  },
  {
   "property": "C73",
   "status": "proved",
   "theorems": [
    "EPL.C73_interval",
    "EPL.C73_horizon",
    "EPL.C73_no_free_energy",
    "EPL.C73_no_perpetual_motion",
    "EPL.C73_untied_chp"
   ],
   "note": "Spec/FirstLaw.lean gives what each asset brings in and wastes. C73_untied_chp exhibits a run of the excepted CHP that makes energy."
  },
  {
   "property": "C74",
   "status": "proved",
   "theorems": [
    "EPL.C74_boiler",
    "EPL.C74_chp",
    "EPL.C74_spill",
    "EPL.C74_valve",
    "EPL.C74_renewable",
    "EPL.C74_evs",
    "EPL.C74_evs_alone"
   ],
   "note": "Battery and heat pump are C09 and C12. Spec/Constructors.lean says what fits and what is kept."
  },
  {
   "property": "C75",
   "status": "proved",
   "theorems": [
    "EPL.C75_constructor",
    "EPL.C75_answers",
    "EPL.C75_optimum",
    "EPL.C75_results"
   ],
   "note": "C75_results needs an objective without min/max terms: the auxiliary variables of those are not read back and may differ."
  },
  {
   "property": "C76",
   "status": "proved",
   "theorems": [
    "EPL.C76_constraints",
    "EPL.C76_answers",
    "EPL.C76_optimum",
    "EPL.C76_results"
   ],
   "note": "Auxiliary variables of min/max terms are named by a counter in the model; reordering renames them."
  },
  {
   "property": "C77",
   "status": "proved",
   "theorems": [
    "EPL.C77_demand",
    "EPL.C77_import",
    "EPL.C77_export",
    "EPL.C77_gas",
    "EPL.C77_carbon",
    "EPL.C77_average"
   ],
   "note": "Custom constraints may not mention prices (PriceFree); gas use must be tied to output (GasTied excludes the CHP whose gas the program leaves free)."
  },
  {
   "property": "C78",
   "status": "proved",
   "theorems": [
    "EPL.C78_less",
    "EPL.C78_more",
    "EPL.C78_efficient"
   ],
   "note": "Simple terms on columns that are read back."
  },
  {
   "property": "C79",
   "status": "proved",
   "theorems": [
    "EPL.C79_join",
    "EPL.C79_ahead",
    "EPL.C79_independent",
    "EPL.C79_rolling",
    "EPL.C79_principle",
    "EPL.C79_principle_carbon"
   ],
   "note": "Steady: no electric vehicles (their charge events tie intervals together through the whole horizon) and custom constraints without interval aggregation."
  },
  {
   "property": "C80",
   "status": "proved",
   "theorems": [
    "EPL.C80_feasible",
    "EPL.C80_optimum",
    "EPL.C80_price",
    "EPL.C80_carbon"
   ],
   "note": "Max_many objective terms are left out: the auxiliary variables of the two programs then differ in number."
  },
  {
   "property": "C81",
   "status": "proved",
   "theorems": [
    "EPL.C81_valid",
    "EPL.C81_obeys",
    "EPL.C81_cheapest",
    "EPL.C81_greenest",
    "EPL.C81_optimum",
    "EPL.C81_carbon_optimum",
    "EPL.C81_custom",
    "EPL.C81_custom_optimum",
    "EPL.C81_feasible"
   ],
   "note": "The dispatch specification (Spec/Dispatch) mentions no variables or constraints. Custom constraints are those on flows the results report (imports, exports and the nine balance flows)."
  },
  {
   "property": "C82",
   "status": "proved",
   "theorems": [
    "EPL.C82_dispatch",
    "EPL.C82_price",
    "EPL.C82_carbon",
    "EPL.C82_objective"
   ],
   "note": "Sites without custom constraints; the result for the original site may come from any objective and any sound solver in C82_price and C82_carbon."
  },
  {
   "property": "C83",
   "status": "proved",
   "theorems": [
    "EPL.C83_dispatch",
    "EPL.C83_scaled"
   ],
   "note": "Sites without electric vehicles (the power of their spill charger is a constant of the code, 10000 MW, and does not scale) and without custom constraints."
  },
  {
   "property": "C84",
   "status": "proved",
   "theorems": [
    "EPL.C84_dispatch",
    "EPL.C84_price",
    "EPL.C84_carbon",
    "EPL.C84_objective"
   ],
   "note": "The joint site has no custom constraints (those of the two sites speak of each site on its own); names of assets must not clash."
  },
  {
   "property": "C85",
   "status": "proved",
   "theorems": [
    "EPL.C85_curtailed",
    "EPL.C85_needed",
    "EPL.C85_full",
    "EPL.C85_carbon"
   ],
   "note": "Sites without custom constraints, which could forbid the exchange."
  },
  {
   "property": "C86",
   "status": "proved",
   "theorems": [
    "EPL.C86_price",
    "EPL.C86_carbon"
   ],
   "note": "Sites without custom constraints, which could forbid the exchange."
  },
  {
   "property": "C87",
   "status": "proved",
   "theorems": [
    "EPL.C87_grid",
    "EPL.C87_exhausted",
    "EPL.C87_oneWay",
    "EPL.C87_renewable",
    "EPL.C87_boiler",
    "EPL.C87_carbon"
   ],
   "note": "Sites without custom constraints, which could forbid the exchange."
  },
  {
   "property": "C88",
   "status": "proved",
   "theorems": [
    "EPL.C88_arbitrage",
    "EPL.C88_worth",
    "EPL.C88_carbon_arbitrage",
    "EPL.C88_carbon_worth"
   ],
   "note": "Sites without custom constraints, which could forbid the exchange."
  },
  {
   "property": "C89",
   "status": "proved",
   "theorems": [
    "EPL.C89_price",
    "EPL.C89_carbon"
   ],
   "note": "Sites without custom constraints, which could forbid the exchange."
  },
  {
   "property": "C90",
   "status": "proved",
   "theorems": [
    "EPL.C90_more",
    "EPL.C90_less",
    "EPL.C90_carbon"
   ],
   "note": "Sites without custom constraints, which could forbid the exchange."
  },
  {
   "property": "C91",
   "status": "proved",
   "theorems": [
    "EPL.C91_more",
    "EPL.C91_less",
    "EPL.C91_carbon"
   ],
   "note": "Sites without custom constraints, which could forbid the exchange."
  },
  {
   "property": "C92",
   "status": "proved",
   "theorems": [
    "EPL.C92_now_price",
    "EPL.C92_now_carbon",
    "EPL.C92_lossless",
    "EPL.C92_later_price",
    "EPL.C92_later_carbon"
   ],
   "note": "Sites without custom constraints, which could forbid the exchange."
  },
  {
   "property": "C93",
   "status": "proved",
   "theorems": [
    "EPL.C93_price",
    "EPL.C93_carbon"
   ],
   "note": "Sites without custom constraints; nonnegative gas prices for cost."
  },
  {
   "property": "C94",
   "status": "proved",
   "theorems": [
    "EPL.C94_price",
    "EPL.C94_carbon"
   ],
   "note": "Sites without custom constraints. That an asset which may stand still never hurts is C55."
  },
  {
   "property": "C95",
   "status": "proved",
   "theorems": [
    "EPL.C95_price",
    "EPL.C95_carbon"
   ],
   "note": "Sites without custom constraints."
  },
  {
   "property": "C96",
   "status": "proved",
   "theorems": [
    "EPL.C96_peak",
    "EPL.C96_optimum",
    "EPL.C96_flatter"
   ],
   "note": "M too small can exclude dispatches; C96_peak says exactly which remain compared."
  },
  {
   "property": "C97",
   "status": "proved",
   "theorems": [
    "EPL.C97_exact",
    "EPL.C97_price",
    "EPL.C97_carbon",
    "EPL.C97_custom",
    "EPL.C97_gap"
   ],
   "note": "Solver.Within (Spec/Tolerance) is what is asked of the solver. Validity of the dispatch is C81_valid, which needs a sound solver only."
  },
  {
   "property": "C98",
   "status": "proved",
   "theorems": [
    "EPL.C98_price",
    "EPL.C98_carbon",
    "EPL.C98_between",
    "EPL.C98_emissions"
   ],
   "note": "Sites without custom constraints. Site.CanMeet asks that import less export plus the change of load stays within the limits of the connection, in the first result for the upper bound and in the second for the lower one."
  },
  {
   "property": "C99",
   "status": "proved",
   "theorems": [
    "EPL.C99_expected",
    "EPL.C99_expected_carbon",
    "EPL.C99_schedule",
    "EPL.C99_schedule_carbon",
    "EPL.C99_volatile",
    "EPL.C99_volatile_carbon"
   ],
   "note": "The schedules compared with are those of feasible runs of the same plant under any prices and any objective."
  }
 ]
}