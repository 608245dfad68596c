{"id": "C01", "title": "Logged history equals the observed history", "statement": "If a simulator with a logger is initialised and then stepped n times, logger.get(attr) returns, in order, exactly the n values that the getter attr produced at simulation steps 0..n-1 (after initialisation and after steps 1..n-1); warm-up steps run by the initialisation never appear and the value of the most recent step is not returned.", "quantifier": "every simulator state space, getter, warm-up length and number of steps", "why_tests_cant": "the claim is about every history length and every state type; a test fixes one simulator and one n", "anchors": ["demod/simulators/base_simulators.py: SimLogger.visit_simulator, SimLogger.get, SimLogger.clear, Simulator.initialize_starting_state, Simulator.step"]}
{"id": "C02", "title": "SimLogger.get and clear honour the set of logged attributes", "statement": "get(None) succeeds exactly when one attribute is logged; get/clear of an attribute that is not logged raise ValueError and leave the log unchanged; clear of one attribute empties only that one, clear() empties all; two loggers can be added only if they recorded the same number of steps, and the sum then contains every attribute of both with unchanged data.", "quantifier": "every logger contents and every attribute name", "why_tests_cant": "interaction of arbitrary sequences of get/clear/add on arbitrary logs", "anchors": ["demod/simulators/base_simulators.py: SimLogger.__add__, SimLogger.get, SimLogger.clear, SimLogger.copy"]}
{"id": "C03", "title": "Simulated clock", "statement": "A TimeAwareSimulator started for start_datetime with any initialization time, after initialisation shows current_time = start_datetime and after n steps shows start_datetime + n*step_size; an initialization time given as a time of day is resolved to the latest such instant not after the start; an initialization datetime in the future is rejected.", "quantifier": "every start, initialization time, positive step size and number of steps", "why_tests_cant": "the number of warm-up steps and the remainder depend on all three quantities; no finite set of cases covers them", "anchors": ["demod/simulators/base_simulators.py: TimeAwareSimulator.initialize_starting_state, TimeAwareSimulator.step"]}
{"id": "C04", "title": "MultiSimulator is the disjoint union of its sub-simulators", "statement": "Stepping a MultiSimulator with per-household inputs gives every sub-simulator exactly the consecutive block of inputs of its own households, and every collected getter returns the concatenation of the sub-simulators' values; hence any run of the multi-simulator equals running the sub-simulators separately on their blocks.", "quantifier": "every list of sub-simulators, household counts, inputs and number of steps", "why_tests_cant": "off-by-one slicing errors only show for particular size combinations and histories", "anchors": ["demod/simulators/base_simulators.py: MultiSimulator.__init__, MultiSimulator.step, MultiSimulator._create_multi_getter"]}
{"id": "C05", "title": "Cached getters never return stale data", "statement": "A cached getter called any number of times between two steps returns the value recomputed from the current simulator state, for every order of getter calls.", "quantifier": "every interleaving of getter calls and steps", "why_tests_cant": "staleness depends on the interleaving of logging, getter calls and state updates", "anchors": ["demod/simulators/base_simulators.py: cached_getter, Simulator.step", "demod/simulators/sparse_simulators.py: SparseStatesSimulator.step"]}
{"id": "C06", "title": "Day callbacks fire exactly once per day change", "statement": "With a step size below one day, on_before_next_day (resp. on_after_next_day) is called exactly at the steps whose time interval crosses midnight, for every calendar date including month and year ends.", "quantifier": "every date, time of day and step size", "why_tests_cant": "calendar corner cases are rare dates; a test on a few days misses them", "anchors": ["demod/simulators/base_simulators.py: Callbacks.before_next_day, Callbacks.after_next_day, before_next_day_callback, after_next_day_callback"]}
{"id": "C07", "title": "4 am and refresh-time callbacks fire exactly once per day", "statement": "on_before_next_day_4am fires exactly at the steps whose interval (t, t+step] first enters the hour 4, and the refresh-time callbacks fire exactly at steps starting at (before) or having just left (after) the refresh time; with a step size that divides the distance to the refresh time each day has exactly one firing.", "quantifier": "every time of day, step size and number of days", "why_tests_cant": "depends on arithmetic of step sizes against the day length", "anchors": ["demod/simulators/base_simulators.py: Callbacks.before_next_day_4am, Callbacks.after_next_day_4am, Callbacks.before_refresh_time, Callbacks.after_refresh_time"]}
{"id": "C08", "title": "Subgroup mask selects whole sub-simulators", "statement": "get_mask_subgroup(**subgroup) has one entry per household; the entries of a sub-simulator are all True iff every requested key is present in its subgroup with the requested value, otherwise all False; the empty request selects everyone.", "quantifier": "every list of sub-simulators and request", "why_tests_cant": "quantifies over all dictionaries", "anchors": ["demod/simulators/base_simulators.py: MultiSimulator.get_mask_subgroup"]}
{"id": "C09", "title": "Inverse-CDF sampling is exact", "statement": "For a non-decreasing cdf with last value >= 1 and a uniform draw u in [0,1), the sampled index i is the unique index with cdf[i-1] <= u < cdf[i] (cdf[-1] := 0). So index i is drawn exactly on an interval of length cdf[i]-cdf[i-1], is always in range, and an index of zero probability is never drawn.", "quantifier": "every cdf, every draw", "why_tests_cant": "a statistical test only samples the distribution; zero-probability leaks and boundaries are measure-small", "anchors": ["demod/utils/monte_carlo.py: monte_carlo_from_1d_cdf, monte_carlo_from_1d_pdf, monte_carlo_from_cdf, monte_carlo_from_pdf"]}
{"id": "C10", "title": "Row-wise sampling treats each row on its own", "statement": "monte_carlo_from_cdf / monte_carlo_from_pdf return one index per row, and the index of row k depends only on row k and on the k-th draw.", "quantifier": "every matrix and draw vector", "why_tests_cant": "non-interference over all matrices", "anchors": ["demod/utils/monte_carlo.py: monte_carlo_from_cdf, monte_carlo_from_pdf"]}
{"id": "C11", "title": "Accepted distributions are valid", "statement": "rescale_pdf returns a vector whose sum is exactly 1, proportional to the input, and raises unless the sum is within epsilon of 1; rescale_cdf returns a vector ending in 1; check_valid_cdf accepts exactly the non-decreasing vectors with values in [0, 1+eps] whose last value is strictly within eps of 1.", "quantifier": "every vector and every positive epsilon", "why_tests_cant": "acceptance is a decision over all real vectors", "anchors": ["demod/utils/distribution_functions.py: rescale_pdf, rescale_cdf, check_valid_cdf"]}
{"id": "C12", "title": "Population sampling allocates every household once", "statement": "sample_population returns one non-negative count per subgroup, the counts sum to n_samples, and a subgroup of zero probability gets no household; in 'real_population' mode the allocation is deterministic and follows the quantiles.", "quantifier": "every n_samples and every valid pdf", "why_tests_cant": "edge behaviours at the first and last quantile", "anchors": ["demod/simulators/util.py: sample_population"]}
{"id": "C13", "title": "SparseTPM behaves like a dense array of matrices", "statement": "tpm[t] is the dense matrix at time t modulo n_times; after tpm[t] = M, tpm[t] returns M and every other time is unchanged; assignment rejects matrices of the wrong shape; for any sequence of assignments the sparse object and a dense array agree.", "quantifier": "every sequence of assignments and reads", "why_tests_cant": "refinement over unbounded histories", "anchors": ["demod/utils/sparse.py: SparseTPM.__getitem__, SparseTPM.__setitem__"]}
{"id": "C14", "title": "Sparse sampling agrees with dense sampling", "statement": "sparse_monte_carlo(states, time) returns for each household the state that inverse-CDF sampling of the dense row tpm[time][state] with the same uniform draw would return, provided each present row sums to one; in particular it never leaves the support of the row.", "quantifier": "every sparse TPM with normalised rows, vector of states and draws", "why_tests_cant": "the flattened cdf trick couples all rows; correctness for all shapes is an algebraic fact", "anchors": ["demod/utils/sparse.py: SparseTPM.sparse_monte_carlo"]}
{"id": "C15", "title": "SparseTPM rejects inconsistent inputs", "statement": "The SparseTPM constructor raises ValueError whenever times, inds_from, inds_to and values do not all have the same length.", "quantifier": "every quadruple of lengths", "why_tests_cant": "the guard is a decision over all integers; the faulty ones are specific bit patterns", "anchors": ["demod/utils/sparse.py: SparseTPM.__init__"]}
{"id": "C16", "title": "SparseTPM save/load round-trip", "statement": "Loading a saved SparseTPM gives an object with the same observable behaviour (same matrices for every time, same sampling).", "quantifier": "every SparseTPM", "why_tests_cant": "attributes not stored in the files matter only for some TPMs", "anchors": ["demod/utils/sparse.py: SparseTPM.save, SparseTPM.load"]}
{"id": "C17", "title": "states_to_transitions is complete and faithful", "statement": "Every recorded transition (time, person, old, new) is a real change in the diary of that person at that time, every change is recorded exactly once, ordered by time; from the first states and the transitions the diaries can be rebuilt exactly.", "quantifier": "every diary array, with and without ignore_end_start", "why_tests_cant": "round-trip over all diaries", "anchors": ["demod/utils/parse_helpers.py: states_to_transitions"]}
{"id": "C18", "title": "Transition durations tile the day", "statement": "For every person with at least one transition, the durations attached to the transitions are positive and (with the circular day) sum to the number of time steps; each duration is the time during which the new state is kept.", "quantifier": "every diary", "why_tests_cant": "sum over arbitrary run structures", "anchors": ["demod/utils/parse_helpers.py: states_to_transitions"]}
{"id": "C19", "title": "Primary and secondary transitions are aligned", "statement": "In the transitions returned for diaries with secondary states, the person, old state and new state at each index describe the same event.", "quantifier": "every pair of diaries", "why_tests_cant": "misalignment appears only when both streams change at the same time", "anchors": ["demod/utils/parse_helpers.py: states_to_transitions_secondary"]}
{"id": "C20", "title": "convert_states is a lossless relabelling", "statement": "label[i_state] recovers the (mapped) raw state of every entry; labels are duplicate free; codes are in range.", "quantifier": "every array and every mapping", "why_tests_cant": "round-trip over all inputs", "anchors": ["demod/utils/parse_helpers.py: convert_states, translate_1d"]}
{"id": "C21", "title": "Estimated TPMs are row-stochastic and match the data", "statement": "states_to_tpms returns matrices whose rows are non-negative and sum to 1; a row with observations equals the empirical conditional frequencies; a row never observed is the identity row; the 'last' option replaces matrix 0 by the last matrix, the 'nothing' option leaves the transitions from the end to the start of the day.", "quantifier": "every diary array", "why_tests_cant": "normalisation of every possible count matrix", "anchors": ["demod/utils/parse_helpers.py: states_to_tpms, counts_to_pdf, first_tpm_change"]}
{"id": "C22", "title": "Duration pdfs are probability distributions", "statement": "states_to_tpms_with_durations and get_initial_durations_pdfs return pdf rows that are non-negative and sum to 1 with support in 1..n_times.", "quantifier": "every diary array", "why_tests_cant": "all count matrices", "anchors": ["demod/utils/parse_helpers.py: states_to_tpms_with_durations, get_initial_durations_pdfs, counts_to_pdf"]}
{"id": "C23", "title": "Load aggregation factors have their textbook bounds", "statement": "diversity_factor >= 1, coincidence_factor = 1/diversity in (0,1], time_coincident_demand equals the maximum of the average profile and never exceeds the average of the household maxima, for non-negative load profiles with a non-zero peak.", "quantifier": "every non-negative load matrix", "why_tests_cant": "inequality over all matrices", "anchors": ["demod/metrics/loads.py: diversity_factor, coincidence_factor, simultaneity, time_coincident_demand"]}
{"id": "C24", "title": "Load duration curve", "statement": "load_duration returns, for the loads in increasing order, the number of time steps during which the load is at least that value: a non-increasing function between 0 and the number of steps, whose first value is the number of steps when the loads are taken from the profiles; one-dimensional profiles are rearranged.", "quantifier": "every load profile", "why_tests_cant": "monotonicity over all profiles", "anchors": ["demod/metrics/loads.py: load_duration"]}
{"id": "C25", "title": "Energy accounting", "statement": "total_energy_consumed is additive over concatenated periods and over households, scales linearly in the load and in the step size, and joules/kWh conversions are mutually inverse.", "quantifier": "all profiles and step sizes", "why_tests_cant": "algebraic law", "anchors": ["demod/metrics/loads.py: total_energy_consumed", "demod/utils/converters.py"]}
{"id": "C26", "title": "Cumulative changes in demand", "statement": "cumulative_changes_in_demand counts every change between consecutive steps exactly once in its histogram and the reported densities are in [0,1].", "quantifier": "every load matrix and bin count", "why_tests_cant": "all profiles", "anchors": ["demod/metrics/loads.py: cumulative_changes_in_demand"]}
{"id": "C27", "title": "State durations tile each pattern", "statement": "get_states_durations returns the run lengths (with circular day) of every pattern: durations are positive, adjacent runs differ, durations of a pattern sum to the number of steps; a constant pattern gives one run of full length.", "quantifier": "every array of patterns", "why_tests_cant": "all run structures; constant arrays", "anchors": ["demod/metrics/states.py: get_states_durations, get_durations_by_states"]}
{"id": "C28", "title": "State metrics are pseudo-distances", "statement": "average_state_metric is symmetric, zero on equal inputs, bounded, and satisfies the triangle inequality; the RMSE of equal arrays is 0; sparsity is in [0,1].", "quantifier": "all arrays", "why_tests_cant": "inequalities over all arrays", "anchors": ["demod/metrics/states.py: average_state_metric, sparsity", "demod/metrics/errors.py: rmse"]}
{"id": "C29", "title": "External values override exactly where provided", "statement": "assign_external_array(base, ext) has, for each household, ext where ext is not NaN and base otherwise; None leaves base unchanged; the dictionary version does so key by key.", "quantifier": "every array pair", "why_tests_cant": "all NaN patterns", "anchors": ["demod/simulators/util.py: assign_external_array, assign_external_dict"]}
{"id": "C30", "title": "Closest appliance type", "statement": "find_closest_type returns the longest '_'-separated suffix of the requested type that is in the list, and False iff no such suffix is in the list; it always terminates.", "quantifier": "all strings and lists", "why_tests_cant": "all strings", "anchors": ["demod/utils/appliances.py: find_closest_type, remove_start"]}
{"id": "C31", "title": "Ownership probabilities follow the i-th copy rule", "statement": "get_ownership_from_dict returns one value per appliance; the k-th appliance whose closest type is T gets the entry 'T' for k=1 and 'T_k' otherwise, 0 if there is no such entry, and the default equipped_prob when no type matches.", "quantifier": "all appliance lists and dictionaries", "why_tests_cant": "depends on arbitrary repetition patterns", "anchors": ["demod/utils/appliances.py: get_ownership_from_dict, get_target_from_dict"]}
{"id": "C32", "title": "Ownership of several copies adds up", "statement": "assign_ownership_from_prob1_and_number(p, n) terminates and returns probabilities in [0,1], starting with p, that sum to n; inputs with p>n, p outside [0,1] or n<0 are rejected.", "quantifier": "all p, n", "why_tests_cant": "loop over unbounded n", "anchors": ["demod/utils/appliances.py: assign_ownership_from_prob1_and_number"]}
{"id": "C33", "title": "Merging appliance dictionaries", "statement": "merge_appliance_dict keeps exactly the common keys, concatenates their arrays in order and adds the numbers, so that a merge of two consistent dictionaries is consistent; the operation is associative.", "quantifier": "all dictionaries", "why_tests_cant": "algebraic law", "anchors": ["demod/utils/appliances.py: merge_appliance_dict"]}
{"id": "C34", "title": "Subgroups are totally ordered", "statement": "The comparison of Subgroup objects is a strict total order (so sorting / np.unique on subgroups is well defined), independent of key insertion order.", "quantifier": "all triples of subgroups", "why_tests_cant": "order axioms over all dictionaries", "anchors": ["demod/utils/subgroup_handling.py: Subgroup.__gt__"]}
{"id": "C35", "title": "Subgroup strings identify subgroups", "statement": "subgroup_string does not depend on key insertion order, and two subgroups with the usual keys and integer values have the same string only if they are equal; hence the parsed-data file of one subgroup is never used for another.", "quantifier": "all subgroups", "why_tests_cant": "injectivity", "anchors": ["demod/utils/subgroup_handling.py: subgroup_string, sort_subgroup"]}
{"id": "C36", "title": "Household members", "statement": "subgroup_households_to_persons yields exactly n_residents persons for consistent household subgroups, one main-income person, at most one spouse, the others children, and keeps the other attributes.", "quantifier": "all household subgroups", "why_tests_cant": "all sizes", "anchors": ["demod/utils/subgroup_handling.py: subgroup_households_to_persons"]}
{"id": "C37", "title": "Time attributes", "statement": "add_time sets 'weekday' to the class containing the given date under the selected scheme, sets 'quarter' iff requested and to the quarter of the month, rejects two simultaneous schemes, and touches no other key; remove_time_attributues undoes it.", "quantifier": "all dates, flags and subgroups", "why_tests_cant": "all combinations", "anchors": ["demod/utils/subgroup_handling.py: add_time, remove_time_attributues, is_weekend, is_weekday"]}
{"id": "C38", "title": "Markov chain simulators stay on the support of their TPMs", "statement": "At every step every household is in a valid state, the transition made at step k uses matrix k+1 modulo the number of matrices (the first one is skipped), and only transitions of positive probability are made.", "quantifier": "every sequence of transition matrices and start distribution with non-negative entries and rows summing to one, every draw sequence and number of steps", "why_tests_cant": "invariant over unbounded runs", "anchors": ["demod/simulators/activity_simulators.py: MarkovChain1rstOrder"]}
{"id": "C39", "title": "Changing the TPM keeps the meaning of states", "statement": "When new labels are assigned, every household whose label occurs exactly once among the new labels keeps its label; all others get state 0.", "quantifier": "all label arrays and states", "why_tests_cant": "all permutations", "anchors": ["demod/simulators/activity_simulators.py: MarkovChain1rstOrder._assign_new_labels"]}
{"id": "C40", "title": "Semi-Markov durations are respected", "statement": "After a household enters a state with sampled duration d >= 1, it keeps that state for exactly d steps and only then a new state is drawn.", "quantifier": "every run", "why_tests_cant": "history property", "anchors": ["demod/simulators/activity_simulators.py: SemiMarkovSimulator"]}
{"id": "C41", "title": "Occupancy is consistent", "statement": "In every activity simulator 0 <= active occupancy <= occupancy <= number of residents, and the numbers of persons per activity of a household sum to its number of residents.", "quantifier": "every reachable state", "why_tests_cant": "invariant", "anchors": ["demod/simulators/activity_simulators.py: SubgroupsIndividualsActivitySimulator", "demod/simulators/sparse_simulators.py: SparseTransitStatesSimulator", "demod/simulators/crest_simulators.py: CrestOccupancySimulator"]}
{"id": "C42", "title": "Packed household labels decode correctly", "statement": "The number of persons doing activity k read from a packed household label is the k-th base-7 digit, so any vector of counts below 7 is recovered from its packed label.", "quantifier": "all count vectors", "why_tests_cant": "round trip for all lengths", "anchors": ["demod/simulators/sparse_simulators.py: SparseStatesSimulator.get_n_doing_state"]}
{"id": "C43", "title": "Sparse day changes keep labels", "statement": "At each new day, households whose state label exists in the new day's labels keep their label.", "quantifier": "all label sets and states", "why_tests_cant": "all label sets", "anchors": ["demod/simulators/sparse_simulators.py: SparseTransitStatesSimulator.update_new_day"]}
{"id": "C44", "title": "Time slot of a datetime", "statement": "The start time step computed from a datetime is in 0..143, is 0 exactly for 04:00-04:09, increases by one every ten minutes and wraps at 4 am.", "quantifier": "all times of day", "why_tests_cant": "all times", "anchors": ["demod/simulators/sparse_simulators.py: _getstart_time_step_from_datetime"]}
{"id": "C45", "title": "Appliance cycles are well-formed", "statement": "An appliance that is running or in its refresh delay is never switched on again; after a switch-on with duration d it is in use for exactly the ceiling of d steps, and cannot restart before its delay has elapsed.", "quantifier": "every run", "why_tests_cant": "history property", "anchors": ["demod/simulators/appliance_simulators.py: AppliancesSimulator.get_mask_available_appliances, switch_on, update_iteration_variables"]}
{"id": "C46", "title": "Appliances not owned never consume", "statement": "A household's power demand is the sum over its owned appliances of their active or standby power; appliances that are not owned contribute nothing, in every reachable state.", "quantifier": "every run, ownership and draw sequence", "why_tests_cant": "invariant", "anchors": ["demod/simulators/appliance_simulators.py: AppliancesSimulator.get_current_power_consumptions, get_power_demand"]}
{"id": "C47", "title": "Inactive switch-off", "statement": "After a step with no active occupant in a household, every appliance flagged inactive_switch_off is off in that household and others are untouched.", "quantifier": "every state", "why_tests_cant": "all states", "anchors": ["demod/simulators/appliance_simulators.py: OccupancyApplianceSimulator.switch_off_inactive"]}
{"id": "C48", "title": "Hot water demand conversion", "statement": "The domestic hot water heating demand equals 70 W/K per litre/minute of total consumption, is additive over appliances and zero iff no hot water is drawn (for non-negative flows).", "quantifier": "all consumptions", "why_tests_cant": "algebra", "anchors": ["demod/simulators/appliance_simulators.py: get_dhw_heating_demand"]}
{"id": "C49", "title": "Lights are off when nobody is active and power is bounded", "statement": "After every lighting step, a household without active occupant consumes no lighting power; consumption is always between 0 and the installed bulb power; a bulb switched on for a duration stays on for that number of steps unless the household becomes inactive.", "quantifier": "every run", "why_tests_cant": "invariant over histories", "anchors": ["demod/simulators/lighting_simulators.py: CrestLightingSimulator"]}
{"id": "C50", "title": "Fisher lighting", "statement": "The light usage value is in [0,1], non-increasing in irradiance, 1 below the lower threshold, 0 above the upper; power is proportional to active occupancy.", "quantifier": "all irradiances and thresholds", "why_tests_cant": "all reals", "anchors": ["demod/simulators/lighting_simulators.py: FisherLightingSimulator"]}
{"id": "C51", "title": "Electric cars", "statement": "A car that is away is never charging; each household has at most one departure and one arrival per step; consumption is the number of charging cars times the station power; state of charge accounting.", "quantifier": "every run", "why_tests_cant": "invariant", "anchors": ["demod/simulators/car_simulator.py: ElectricCarSimulator"]}
{"id": "C52", "title": "Building model conserves energy", "statement": "In every step the change of stored heat of the four thermal nodes equals step_size times the net external flow (outside, ventilation, solar, internal gains, heating, hot water); internal exchanges cancel. If everything is at the same temperature without gains nothing changes.", "quantifier": "all parameters, temperatures and inputs", "why_tests_cant": "algebraic identity over all reals", "anchors": ["demod/simulators/heating_simulators.py: BuildingThermalDynamics.step"]}
{"id": "C53", "title": "Building temperatures do not overshoot", "statement": "Without gains and with a step size satisfying step*sum(H) <= C at each node, all temperatures stay between the minimum and the maximum of the initial temperatures, the outside and the cold-water temperature, forever.", "quantifier": "all stable parameter sets, all numbers of steps", "why_tests_cant": "invariant over unbounded runs", "anchors": ["demod/simulators/heating_simulators.py: BuildingThermalDynamics.step"]}
{"id": "C54", "title": "Heat demand reaches the set point", "statement": "Delivering exactly the heat demand computed for hot water (resp. emitters) brings the cylinder (resp. emitter) to target+deadband after one building step with the same step size.", "quantifier": "all parameters and temperatures", "why_tests_cant": "composition of two modules", "anchors": ["demod/simulators/heating_simulators.py: HeatDemand, BuildingThermalDynamics, FiveModulesHeatingSimulator.__init__"]}
{"id": "C55", "title": "Thermostat hysteresis", "statement": "A thermostat that is on stays on until the temperature reaches target+deadband, one that is off stays off until it falls to target-deadband; inside the band it never changes.", "quantifier": "all runs of temperatures", "why_tests_cant": "history property", "anchors": ["demod/simulators/heating_simulators.py: Thermostats.step", "demod/simulators/crest_simulators.py: HeatingControlsSimulator.calculate_control_states"]}
{"id": "C56", "title": "Heating controls logic", "statement": "Heater is on iff water or space heating is on; water heating of combi boilers and external cylinders follows hot water demand, otherwise the thermostat; space heating needs both room and emitter thermostats.", "quantifier": "all states", "why_tests_cant": "decision logic", "anchors": ["demod/simulators/heating_simulators.py: SystemControls.step"]}
{"id": "C57", "title": "Heating system respects its capacity", "statement": "Heat outputs are non-negative, hot water output <= its maximum, total <= the larger of the two maxima, hot water is served first, nothing is produced when the heater is off, and total = dhw + space heating.", "quantifier": "all demands, controls and capacities", "why_tests_cant": "all reals", "anchors": ["demod/simulators/heating_simulators.py: HeatingSystem.step"]}
{"id": "C58", "title": "Splitting external heat conserves it", "statement": "For a non-negative external heat output the split satisfies dhw + space_heating = output, both non-negative, space heating only if requested.", "quantifier": "all inputs", "why_tests_cant": "all reals", "anchors": ["demod/simulators/heating_simulators.py: FiveModulesHeatingSimulator._split_heat_outputs_dhw_sh"]}
{"id": "C59", "title": "External heating systems consume no simulated power", "statement": "Households whose heat is supplied externally have zero power demand; others have pump/standby power plus electricity; power demand is never negative.", "quantifier": "all inputs and histories", "why_tests_cant": "history", "anchors": ["demod/simulators/heating_simulators.py: FiveModulesHeatingSimulator.get_power_demand, set_external_heating_system, HeatingSystem.get_fuel_consumptions"]}
{"id": "C60", "title": "Occupant thermostats", "statement": "On-off switchers are at the comfort temperature iff occupied, otherwise at 16 C; all thermostat temperatures stay in the band of their pattern.", "quantifier": "all runs", "why_tests_cant": "invariant", "anchors": ["demod/simulators/heating_simulators.py: VariableThermostatTemperatureSimulator"]}
{"id": "C61", "title": "Total load is the sum of its parts at the right cadence", "statement": "LoadSimulator.get_power_demand is appliances + lighting + heating, and the activity simulator is stepped exactly once every ten load steps.", "quantifier": "every run", "why_tests_cant": "history", "anchors": ["demod/simulators/load_simulators.py: LoadSimulator"]}
{"id": "C62", "title": "Synthetic climate never runs out", "statement": "A CrestClimateSimulator can be stepped any number of minutes from any start without error.", "quantifier": "every start date and number of steps", "why_tests_cant": "fails only at specific calendar dates", "anchors": ["demod/simulators/weather_simulators.py: CrestClimateSimulator", "demod/simulators/base_simulators.py: Callbacks.before_next_day"]}
{"id": "C63", "title": "Historical climate is aligned", "statement": "load_historical_climate_data returns the data from the last point not after the requested start (regular grid); RealClimate returns at each step the data point of the current time; interpolated climate lies between neighbouring points.", "quantifier": "all data sets, starts and steps", "why_tests_cant": "alignment for all offsets", "anchors": ["demod/datasets/base_loader.py: ClimateLoader.load_historical_climate_data", "demod/simulators/weather_simulators.py: RealClimate, RealInterpolatedClimate"]}
{"id": "C64", "title": "Parsed-data cache", "statement": "A loader parses raw data at most once per key: after a successful load, later loads return the same data without parsing; loads for different keys and kinds do not interfere; a crash during a load leaves a state from which the next load succeeds.", "quantifier": "every sequence of loads, clears and crash points", "why_tests_cant": "crash points and histories", "anchors": ["demod/datasets/base_loader.py: PopulationLoader.load_population_subgroups, DatasetLoader._load_parsed_data", "demod/datasets/tou_loader.py: LoaderTOU.load_tpm, load_sparse_tpm"]}
{"id": "C65", "title": "Load profiles storage round-trip", "statement": "Profiles stored by load_real_profiles_dict are read back unchanged on the next load.", "quantifier": "all profile dictionaries", "why_tests_cant": "special characters, empty types", "anchors": ["demod/datasets/base_loader.py: ApplianceLoader.load_real_profiles_dict"]}
{"id": "C66", "title": "Resampling conserves energy", "statement": "The tracebase resampling to a coarser step yields averages whose sum times the step equals the total of the one-second profile, with ceil(n/step) intervals.", "quantifier": "all profiles and step sizes", "why_tests_cant": "all lengths", "anchors": ["demod/datasets/tracebase/loader.py: Tracebase._parse_single_profile"]}
{"id": "C67", "title": "CREST washing machine programme", "statement": "At every minute of a cycle the washing machine power is one of the programme levels, standby when idle, and the whole-cycle energy is the sum of its phases.", "quantifier": "all remaining times", "why_tests_cant": "finite table over all reals in between", "anchors": ["demod/simulators/crest_simulators.py: CRESTAppliancesSimulator._compute_washing_machine_power"]}
{"id": "C68", "title": "CREST day types", "statement": "Crest4StatesModel uses the weekday matrices exactly from Monday to Friday and keeps household labels across the change.", "quantifier": "every start date and number of steps", "why_tests_cant": "history over weeks", "anchors": ["demod/simulators/crest_simulators.py: Crest4StatesModel"]}
{"id": "C69", "title": "State duration distribution metric", "statement": "state_duration_distribution_metric gives for each state the mean absolute difference of the cumulative shares of the durations: it is symmetric, between 0 and 1, and 0 iff both data sets have the same distribution of durations of this state.", "quantifier": "all pairs of state patterns", "why_tests_cant": "all patterns, also with states that occur in one data set only", "anchors": ["demod/metrics/states.py: state_duration_distribution_metric, get_durations_by_states"]}
{"id": "C70", "title": "Graph metrics", "statement": "graph_metrics returns the number of (time, state) pairs that occur, the share of the possible edges that occur (between 0 and 1), the mean number of persons per edge, and the share of the person-steps in which the state does not change (between 0 and 1).", "quantifier": "all state patterns", "why_tests_cant": "documented meanings must hold for every pattern", "anchors": ["demod/metrics/states.py: graph_metrics"]}
{"id": "C71", "title": "The matrix of a transition depends on the time of day only", "statement": "Activity simulators draw the transition into time slot i of a day with matrix i of the matrices of that day, on every day of a run, whether or not they keep track of the time.", "quantifier": "every start time, number of steps and sequence of days", "why_tests_cant": "off-by-one errors at day changes only show in long histories", "anchors": ["demod/simulators/activity_simulators.py: MarkovChain1rstOrder._set_tpm, SubgroupsIndividualsActivitySimulator.on_after_refresh_time"]}
{"id": "C72", "title": "The clock of sparse simulators", "statement": "After n steps the time of a time-aware sparse simulator is its start time plus n steps, and the matrices used from 4 am on are those of that calendar day.", "quantifier": "every start time and number of steps", "why_tests_cant": "depends on the time of day of the start", "anchors": ["demod/simulators/sparse_simulators.py: SparseStatesSimulator.__init__, initialize_starting_state, step, SparseTransitStatesSimulator.update_new_day"]}
{"id": "C73", "title": "Heating never overheats or undercools", "statement": "With one-minute steps and the default algorithm, a simulated heating system without gains never brings any temperature of the building above the maximum of the initial and outside temperatures and the set points (target + deadband); with any non-negative gains no temperature falls below the minimum of the initial and outside temperatures.", "quantifier": "all physical buildings, capacities, targets, initial temperatures, weather and hot water demands, for any number of steps", "why_tests_cant": "closed loop of five modules over arbitrary histories", "anchors": ["demod/simulators/heating_simulators.py: FiveModulesHeatingSimulator.step"]}
{"id": "C74", "title": "Hot water volumes", "statement": "The water that a fixture draws in a use, summed over the steps of the use as shown by get_current_water_consumptions, is the volume sampled for the use.", "quantifier": "all volumes, flows, delays and runs", "why_tests_cant": "off-by-one at the ends of fractional durations", "anchors": ["demod/simulators/appliance_simulators.py: OccupancyApplianceSimulator.step, _switch_on_water_fixtures, get_current_water_consumptions, ProbabiliticActivityAppliancesSimulator.step"]}
{"id": "C75", "title": "Activity-driven appliances follow the activity", "statement": "In ActivityApplianceSimulator an owned appliance is in use exactly while somebody in the household performs its activity.", "quantifier": "every sequence of activities", "why_tests_cant": "depends on the whole history of starts and stops", "anchors": ["demod/simulators/appliance_simulators.py: ActivityApplianceSimulator.step, get_current_usage"]}
{"id": "C76", "title": "Load profiles are played in order", "statement": "An appliance with a real load profile shows, from its switch-on, the samples of the profile in order, one per step, from the first to the last; always-on appliances and appliances of lasting activities repeat it.", "quantifier": "all profiles, runs and numbers of steps", "why_tests_cant": "index arithmetic at both ends and at every repetition", "anchors": ["demod/simulators/appliance_simulators.py: _get_variable_loads_consumptions, ActivityApplianceSimulator.update_iteration_variables"]}
{"id": "C77", "title": "Activity profiles follow the clock", "statement": "In every step of OccupancyApplianceSimulator the row of the activity profiles is that of the time of day of the step, and the profiles are those of the day that began at the last refresh time.", "quantifier": "every start time and number of steps", "why_tests_cant": "off-by-one errors after days of simulation", "anchors": ["demod/simulators/appliance_simulators.py: OccupancyApplianceSimulator.initialize_starting_state, on_before_refresh_time, step"]}
{"id": "C78", "title": "Random activity appliances run for their duration and observations are harmless", "statement": "In ProbabiliticActivityAppliancesSimulator a use of duration d lasts exactly the ceiling of d steps, a new use starts only after the delay, and calling getters or logging between steps does not change the simulation.", "quantifier": "every run and every pattern of getter calls", "why_tests_cant": "interleavings of getter calls and steps", "anchors": ["demod/simulators/appliance_simulators.py: ProbabiliticActivityAppliancesSimulator.step, _compute_switch_on_probs, AppliancesSimulator.get_current_usage"]}
{"id": "C79", "title": "Heat demand of the households", "statement": "get_total_heat_demand is the sum of get_dhw_heat_demand and get_sh_heat_demand after every step; each part is zero unless the thermostats or the hot water draw ask for it, and then it is the computed demand.", "quantifier": "all states and inputs", "why_tests_cant": "masks of three modules must agree after every step", "anchors": ["demod/simulators/heating_simulators.py: FiveModulesHeatingSimulator.get_total_heat_demand, get_dhw_heat_demand, get_sh_heat_demand"]}
{"id": "C80", "title": "Irradiance is that of the current time", "statement": "After any number of steps, the irradiance that CrestClimateSimulator returns is the one computed for the simulator's current time.", "quantifier": "all starts (any time of the day) and numbers of steps", "why_tests_cant": "two clocks run in different simulators; only a proof over all starts shows that they agree", "anchors": ["demod/simulators/weather_simulators.py: CrestClimateSimulator.__init__, initialize_starting_state, on_before_next_day, step"]}
{"id": "C81", "title": "Irradiance model", "statement": "For every place, start and sequence of draws CrestIrradianceSimulator can be created and stepped without a domain error; after each step its irradiance is the one of the solar formulas (altitude of the sun from latitude, day of the year and corrected solar time; attenuated extraterrestrial irradiance times the clearness) for the minute the step began; it is never negative, never above the extraterrestrial irradiance, and zero exactly when the sun is not above the horizon.", "quantifier": "all places, times, clearness data and draws", "why_tests_cant": "trigonometric bounds over a continuum of places and times, and an invariant of the daily correction over all steps", "anchors": ["demod/simulators/weather_simulators.py: CrestIrradianceSimulator.step, _calculate_global_irradiance, initialize_starting_state, on_after_next_day"]}
{"id": "C82", "title": "Daily temperatures", "statement": "For any irradiances with daylight and night, CrestClimateSimulator computes a temperature for each minute of the day; in daylight it stays below the maximum of the day, which it reaches, and above the lower bound given by the slopes; at night it decreases by the cooling rate corrected for the clearness, also over midnight.", "quantifier": "all irradiance and clearness profiles of a day", "why_tests_cant": "arbitrary arrays with masks and gaps", "anchors": ["demod/simulators/weather_simulators.py: CrestClimateSimulator._step_day"]}
{"id": "C83", "title": "Switched-on part of a profile", "statement": "The switched-on profiles of the tracebase loader are the measured profiles cropped to the shortest consecutive part that contains every value above 6 W: nothing above the threshold is lost and the part starts and ends with a value above it.", "quantifier": "all profiles", "why_tests_cant": "positions of the values above the threshold are arbitrary", "anchors": ["demod/datasets/tracebase/loader.py: Tracebase._parse_real_profiles_dict_ON"]}
{"id": "C84", "title": "Who owns which appliance", "statement": "When a simulator of appliances is built with subgroups of households, the first n_1 households are those of the first subgroup, the next n_2 those of the second and so on, and counts that do not add up are refused. A household owns an appliance exactly when its draw is below the probability given by the chosen method: the appliance's own ('basic'), the ownership data of the household's subgroup ('subgroup': the k-th appliance of a type uses the entry type_k); or when the appliance is in the set defined for its subgroup ('set_defined'); a list of sets of the wrong length is refused with ValueError.", "quantifier": "all appliances, subgroups, household counts, ownership data, draws", "why_tests_cant": "the ownership is drawn at random per household and appliance; tests see a few draws", "anchors": ["demod/simulators/appliance_simulators.py:AppliancesSimulator.sample_available_appliances", "demod/simulators/appliance_simulators.py:AppliancesSimulator._parse_subgroups", "demod/utils/appliances.py:get_ownership_from_dict"]}
{"id": "C85", "title": "Real load profiles go to the right appliances", "statement": "With real_profiles_algo 'uniform' each owned appliance whose type has measured profiles for its kind (full days for always-on appliances, single uses for the others) runs with the profile drawn among those of its type, with the length of that profile; every other appliance keeps its constant load.", "quantifier": "all appliances, profile dictionaries, ownerships and draws", "why_tests_cant": "the assignment is by type, kind and random draw over all households; tests see one dataset", "anchors": ["demod/simulators/appliance_simulators.py:AppliancesSimulator.sample_real_load_profiles", "demod/simulators/appliance_simulators.py:AppliancesSimulator._sample_switched_on_load_profiles", "demod/simulators/appliance_simulators.py:AppliancesSimulator._sample_always_on_load_profiles"]}
{"id": "C86", "title": "Switch-on probabilities meet the yearly targets", "statement": "The probability of each probabilistic appliance times the expected number of occasions in a year (steps of its activity in which it is off; ends of the activity it follows; uses of the type it follows) is its yearly target of switch-ons, whatever the order of the activities in the data.", "quantifier": "all step sizes, activity profiles, targets, appliances", "why_tests_cant": "a statement about expectations over all data; a test compares a few numbers", "anchors": ["demod/simulators/appliance_simulators.py:ProbabiliticActivityAppliancesSimulator.sample_switch_on_probs"]}
{"id": "C87", "title": "Each appliance is simulated exactly once", "statement": "Built from the same appliances, the activity simulator and the probabilistic activity simulator share the appliances that are always on or belong to a simulated activity: each of them is kept by exactly one of the two, according to its 'probabilistic' flag, in the original order.", "quantifier": "all appliance dictionaries and sets of activities", "why_tests_cant": "needs all combinations of flags and activities, and the effect of one construction on the next", "anchors": ["demod/simulators/appliance_simulators.py:ActivityApplianceSimulator._remove_non_compatible_appliances", "demod/simulators/appliance_simulators.py:ProbabiliticActivityAppliancesSimulator._remove_non_compatible_appliances"]}
{"id": "C88", "title": "The switch-on probability uses the household's own profile", "statement": "In the occupancy based simulator an available appliance is switched on with its own probability times the entry of the activity profile of the household's subgroup and of the appliance's activity at the current row for the number of active occupants, and an unavailable appliance never.", "quantifier": "all subgroups, households, appliances, rows and occupancies", "why_tests_cant": "index gymnastics over four axes; tests use one subgroup", "anchors": ["demod/simulators/appliance_simulators.py:OccupancyApplianceSimulator.get_switchon_probs", "demod/simulators/appliance_simulators.py:OccupancyApplianceSimulator.set_activity_pdf"]}
{"id": "C89", "title": "Appliances that follow other appliances", "statement": "An appliance with a previous appliance type starts, with its probability, in the households in which an appliance of that type ends its use in this step, and at no other time; any number of such appliances can be simulated.", "quantifier": "all appliances, households, states and draws", "why_tests_cant": "depends on which appliances stop at the same step in all households", "anchors": ["demod/simulators/appliance_simulators.py:ProbabiliticActivityAppliancesSimulator._get_start_after_appliance", "demod/simulators/appliance_simulators.py:ProbabiliticActivityAppliancesSimulator.step"]}
{"id": "C90", "title": "Appliances that follow activities", "statement": "An appliance with a previous activity starts, with its probability, in the households in which that activity ends in this step, and at no other time.", "quantifier": "all appliances, households, activities and draws", "why_tests_cant": "depends on the histories of the activities in all households", "anchors": ["demod/simulators/appliance_simulators.py:ProbabiliticActivityAppliancesSimulator._get_start_after_activity", "demod/simulators/appliance_simulators.py:ProbabiliticActivityAppliancesSimulator.step"]}
{"id": "C91", "title": "The bulbs of a household and the duration of their uses follow the data", "statement": "With 'randn' every household has at least one bulb, as many as the whole part of mean + std times its normal draw; every bulb has the power of the kind whose share of the penetrations contains its uniform draw, and the rest of the row is zero. With 'config' every household has exactly one of the configurations of the dataset. A use of a bulb lasts a time within the interval of durations selected by the draw.", "quantifier": "all numbers of households, means, standard deviations, penetrations summing to one, configurations, duration tables and draws", "why_tests_cant": "the draws are random and the rows are padded to the largest household; a test samples a few draws", "anchors": ["demod/simulators/lighting_simulators.py: CrestLightingSimulator.sample_bulbs_configuration, draw_random_durations"]}
{"id": "C92", "title": "Occupancy estimated from a diary", "statement": "From the activities of a diary and the recorded places at the start and the end of the day, the estimated occupancy is: nobody is at home while travelling; until the first travel a person is where the day started and after the last travel where it ended; an unknown start and the places between travels follow from the ratings of the activities. A person that is not at home is out for work or school or out for something else, never both.", "quantifier": "every survey, all activity codes, all ratings, all recorded places, every person and time", "why_tests_cant": "the estimate of a time depends on the whole history of travels of a diary, of any length", "anchors": ["demod/datasets/GermanTOU/parser.py:states_to_occupancy", "demod/datasets/GermanTOU/parser.py:get_mask_travelling"]}
{"id": "C93", "title": "Grouping persons into households loses nobody", "statement": "Grouping the diaries by household and day gives exactly one row per recorded pair, the sum over its members; the sums over all rows and all diaries agree. The digits of the states of a household are the numbers of its members in each situation. Invalid states or lengths are rejected.", "quantifier": "every survey, any number of persons, households and days, every time", "why_tests_cant": "sizes and compositions of households are unbounded", "anchors": ["demod/datasets/GermanTOU/parser.py:group_in_household", "demod/datasets/GermanTOU/parser.py:group_in_household_4states", "demod/datasets/GermanTOU/parser.py:get_data_sparse9states"]}
{"id": "C94", "title": "Sparse transition matrices of a survey", "statement": "The sparse matrices estimated from diaries hold, for each time and state, the frequencies of the next states, are zero for states that do not occur, are ordered as sampling requires and agree with the dense estimate; with 'last' every matrix describes transitions that were recorded.", "quantifier": "every survey, any number of states, diaries and times that fit the index type", "why_tests_cant": "equality of two estimators over all surveys", "anchors": ["demod/datasets/GermanTOU/parser.py:states_to_sparse_tpm", "demod/utils/sparse.py:SparseTPM"]}
{"id": "C95", "title": "Activity states of a survey stand for the activities of the dictionary", "statement": "Converting diaries with an activity dictionary gives states whose labels are the activity of the dictionary at home and 'away' elsewhere, with all labels different and the secondary activity shown where the main one is not listed. The transition matrices and the initial distribution are probability distributions and equal the recorded shares of the activities.", "quantifier": "every survey, every activity dictionary that covers the codes, any number of diaries and times, both strategies for the first matrix", "why_tests_cant": "the dictionary and the survey are arbitrary; tests see one of each", "anchors": ["demod/datasets/GermanTOU/parser.py:get_tpms_activity", "demod/datasets/GermanTOU/loader.py:GTOU"]}
{"id": "C96", "title": "Activity profiles are shares of the active households", "statement": "The profile of an activity gives, for every time and number of active occupants, the share of the households with this number of active occupants at home in which a member at home does the activity. A person is inactive exactly when sleeping or ill in bed.", "quantifier": "every survey, every activity dictionary, every composition of households, all times and numbers of active occupants", "why_tests_cant": "the share must be right for every composition of households", "anchors": ["demod/datasets/GermanTOU/parser.py:create_data_activity_profile", "demod/datasets/GermanTOU/parser.py:states_to_activity"]}
{"id": "C97", "title": "Durations, probabilities and daily starts parsed for the loader", "statement": "The parsed durations of an activity are the shares of the lengths of its runs, its probability at a time is the share of the diaries that show it, and its daily starts are the distribution of the number of starts over the recorded households and days.", "quantifier": "every survey of activity diaries, any number of diaries and times, all household and day numbers", "why_tests_cant": "distributions must add up to one for every survey", "anchors": ["demod/datasets/GermanTOU/loader.py:GTOU"]}
{"id": "C98", "title": "The diaries of a subgroup are those that meet all its conditions", "statement": "The mask of a subgroup selects exactly the diaries that pass the requested filters and meet all the given conditions; a list of values means any of them; invalid values are rejected. The subgroups of the seven days of the week partition the subgroup without a day.", "quantifier": "all survey tables, all combinations of arguments", "why_tests_cant": "the arguments combine freely; tests try a few combinations", "anchors": ["demod/datasets/GermanTOU/parser.py:get_mask_subgroup"]}
{"id": "C99", "title": "Simulating individuals grouped into households is safe from the constructor on", "statement": "Constructing SubgroupsIndividualsActivitySimulator for any subgroups of households with any start, and stepping it any number of times, raises nothing; the clock starts at the requested start and advances by 10 minutes; each person of each household is simulated by the sub-simulator of the persons of the same kind; the activities partition the residents; a new day's data keep everybody's activity; and the data in use are those of the current day.", "quantifier": "every list of subgroups and numbers of households, every start, refresh time, day type, data set, number of steps and every draw", "why_tests_cant": "tests construct a few subgroups with one start; the alignment of start and refresh time, the order of the labels and the mix of shared person types are unbounded", "anchors": ["demod/simulators/activity_simulators.py:SubgroupsIndividualsActivitySimulator", "demod/simulators/base_simulators.py:TimeAwareSimulator.initialize_starting_state", "demod/utils/subgroup_handling.py:add_time"]}
{"id": "C100", "title": "The edit distance of two state profiles counts single edits", "statement": "levenshtein_edit_distance(p, q) is the least number of insertions, deletions and replacements of the value of a single time step that turn profile p into profile q, for profiles of single digits 0 to 9 as documented; there it is a metric. For wider integers the promise fails: different profiles can have distance 0.", "quantifier": "all pairs (and triples) of integer profiles of any lengths", "why_tests_cant": "a test checks single pairs; minimality over all edit sequences and the metric laws range over all profiles and all sequences of edits", "anchors": ["demod/metrics/states.py: levenshtein_edit_distance"]}
{"id": "C101", "title": "Similarity, variety and counts refer to the right profiles and values", "statement": "profiles_similarity(sim, target)[i, j] is the distance of simulated profile i to target profile j, and profiles with different numbers of times are refused. profiles_variety gives the mean distance over all pairs of different profiles, or the list of the distances of the pairs in lexicographic order. count lists each value once with its number of occurrences.", "quantifier": "all arrays of profiles of any shape, all distances, all arrays of values", "why_tests_cant": "tests use one array and one distance; the position of each pair and the mean over all pairs must be right for all numbers of profiles", "anchors": ["demod/metrics/loads.py: profiles_similarity, profiles_variety", "demod/metrics/states.py: count"]}
{"id": "C102", "title": "Transition data of CREST are distributions for every valid workbook", "statement": "For every subgroup of 1 to 6 residents on weekdays or week-ends and every sheet whose rows sum to 1 within 10 % or are all missing, load_tpm returns 144 matrices on (n+1)^2 states whose rows are probability distributions: the rows of the sheet divided by their sums, and the identity where the sheet has no data; labels and starting probabilities are those of the same states of the table. A Markov simulator started from these data runs forever without an error. Other subgroups, and rows that are neither, raise ValueError. The clearness matrix is normalised in the same way.", "quantifier": "every subgroup, every sheet, every number of residents, every execution of the simulator", "why_tests_cant": "the workbook has hundreds of thousands of entries and a user may supply another version; tests look at a few entries", "anchors": ["demod/datasets/CREST/loader.py: Crest.load_tpm, _parse_tpm, _check_crest_subgroup, _parse_clearness_tpms"]}
{"id": "C103", "title": "Ownership data of CREST give each appliance its own probability", "statement": "The ownership dictionary made from the list of appliance types has one entry for each appliance, with distinct keys, and a simulator that reads it back for the same list of types finds for the k-th appliance of a type the probability of this appliance.", "quantifier": "every list of types and probabilities", "why_tests_cant": "depends on how often types are repeated and how the names of copies collide", "anchors": ["demod/datasets/CREST/loader.py: _parse_appliance_ownership_dict", "demod/utils/appliances.py: get_ownership_from_dict"]}
{"id": "C104", "title": "Activity profiles of CREST hold the probability of the right activity, occupancy and time", "statement": "For every table of activities, load_activity_probabilities gives for each activity, under its name in demod, the probability of the row of this activity and this number of active occupants at this time; 'level' is always 1 and 'active_occupancy' is 1 as soon as somebody is active. Unknown day types, shapes and activities are refused.", "quantifier": "every table, every order of the activities, every time slot and number of occupants", "why_tests_cant": "a transposition or a reshape in the wrong order keeps shape and sums of the data, and tests look at the shape", "anchors": ["demod/datasets/CREST/loader.py: _parse_activity_profiles", "demod/datasets/CREST/utils.py: crest_act_to_demod"]}
{"id": "C105", "title": "Columns of the CREST appliances are split into electricity and water, and flags set", "statement": "For every list of appliances, each has either a mean power or a mean flow, the value of its row, and the last four are the ones that use water; a missing power factor is 1; an appliance keeps running without active occupants if and only if it belongs to washing and dressing, has no activity, or is a dish washer.", "quantifier": "every list of appliances", "why_tests_cant": "a wrong offset or a mask that is overwritten shows only for particular appliances", "anchors": ["demod/datasets/CREST/loader.py: _parse_appliance_dict"]}
{"id": "C106", "title": "Ownership data of DESTATIS keep the share of equipped households and the number of appliances", "statement": "For every table of the report, and every group of households, the ownership dictionary holds for each type of appliance the probabilities of a first, second, third, ... appliance: the first is the share of the equipped households, all are probabilities, and they sum to the average number of appliances. A simulator that equips households with several appliances of a type finds the probability of each. Impossible values are refused with a ValueError.", "quantifier": "every table of types and values, with missing values, and every list of appliances", "why_tests_cant": "the entries of all the types share one dictionary, and entries of another row may stay in it; tests look at a few types", "anchors": ["demod/datasets/DESTATIS/loader.py: Destatis._parse_appliance_ownership_dict", "demod/utils/appliances.py: assign_ownership_from_prob1_and_number, get_ownership_from_dict"]}
{"id": "C107", "title": "Equipment of households is read from the column of their group, and populations are distributions", "statement": "For every subgroup that describes a group of households of the report (type, sex, children, persons, income, year) the ownership is read under the heading of this group; weekday and quarter have no influence; subgroups that describe no group are refused. The populations offered are distributions over distinct subgroups, each of which can be split into its residents and has its column.", "quantifier": "every subgroup, every income and number of residents", "why_tests_cant": "a boundary of an income class or a shifted column shows only for the households concerned", "anchors": ["demod/datasets/DESTATIS/loader.py: Destatis._get_column_appliance_subgroup, _parse_population_subgroups"]}
{"id": "C108", "title": "Individuals with durations: activities last as drawn, also across new days", "statement": "A simulator of individuals made of semi-Markov chains draws for each person, at each change, a new activity from the row of the current one and a duration for it, from the data of the person's type and of the day in force; the activity then lasts exactly this number of steps (one if the duration is zero), even if new data with other labels are loaded in between; no two persons of a type share a draw; no step fails. In each household the persons doing each activity sum to its residents, occupancy is the residents that are not away and active occupancy those neither away nor asleep.", "quantifier": "every partition into household types, start time, flags of day types, loader of valid data, draws and number of steps", "why_tests_cant": "a duration that starts before a new day and ends after it under another numbering of the activities is a rare history", "anchors": ["demod/simulators/activity_simulators.py: SemiMarkovSimulator, SubgroupsIndividualsActivitySimulator"]}
{"id": "C109", "title": "Every appliance of every household of an occupancy-driven simulation behaves as if alone", "statement": "For a start at a full minute and a refresh time at a multiple of ten minutes, an OccupancyApplianceSimulator with complete profiles is created and then runs without failing for any number of steps with any numbers of active occupants. Its clock advances by a minute a step. In each step each appliance of each household is governed only by the active occupants of its household, its own random draws and the probability of its activity for the household's subgroup, the kind of day and the ten-minute period counted from the refresh time; other households and appliances have no effect on it. The power demand of a household is the sum of what its appliances consume, and usage and water are reported for the right appliance.", "quantifier": "All lists of appliances, subgroups, numbers of households, profiles, ways to equip, load profiles, starts, random draws, and all sequences of occupancies.", "why_tests_cant": "The arrays, index lists and masks mix all households and appliances; a test sees a few steps of one draw and cannot exclude that an entry lands in the wrong row or that the day's profiles are those of another day.", "anchors": ["demod/simulators/appliance_simulators.py: OccupancyApplianceSimulator.__init__, initialize_starting_state, set_activity_pdf, switch_on, _switch_on_water_fixtures, switch_off_inactive, get_switchon_probs, step, get_power_demand, get_current_usage, get_current_water_consumptions"]}
{"id": "C110", "title": "The whole activity-driven appliance simulator", "statement": "An ActivityApplianceSimulator simulates the given households with the appliances whose activity is in the initial dictionary or that are always on, except the probabilistic ones. From creation on and after any steps an appliance is in use exactly if its household owns it and it is always on or somebody in the household performs its activity (has ever performed it, if nothing switches it off); its power is its standby power, its mean power, or the sample of its load profile counted from the last beginning of the activity, round and round; its hot water is its flow while in use; the demand of a household is the sum over its appliances. Other households, other appliances and other activities have no effect. The log starts with the same values as the getters.", "quantifier": "all data, households, subgroups, load profiles, draws, initial activities and sequences of activity dictionaries", "why_tests_cant": "the arrays mix all households and appliances; masks, index pairs and reloads must be right for every history", "anchors": ["demod/simulators/appliance_simulators.py: ActivityApplianceSimulator, AppliancesSimulator", "demod/simulators/base_simulators.py: Simulator.initialize_starting_state"]}
{"id": "C111", "title": "The whole probabilistic appliance simulator", "statement": "A ProbabiliticActivityAppliancesSimulator simulates the given households with the probabilistic appliances whose activity is given. Each appliance of each household has uses: a use begins only when somebody in the household performs its activity, or the use of an appliance of the type it follows ends, or the activity it follows stops, and then only with a draw below its probability; it lasts for the length of the load profile, the time to draw a volume of water, or the mean duration, and is cut short only when the appliance is switched off with its activity. In a use the power is the mean power or the sample of the load profile for the step of the use, otherwise the standby power; hot water flows in a use only; the demand of a household is the sum over its appliances. The simulation never fails, and what the getters return depends only on the steps so far.", "quantifier": "all data, households, subgroups, load profiles, draws, and histories of activity dictionaries, with getters called between any steps", "why_tests_cant": "the order of the activities of a step, the cache of the getters and the arrays of all households and appliances interact; every history must give admissible uses", "anchors": ["demod/simulators/appliance_simulators.py: ProbabiliticActivityAppliancesSimulator, AppliancesSimulator", "demod/simulators/base_simulators.py: cached_getter, Simulator.step"]}
{"id": "C112", "title": "The whole CREST lighting simulator", "statement": "For every number of households, sampling algorithm, draws and sequence of active occupancies and irradiances, the lighting simulator can be created and stepped without failing; each household has the bulbs its draws select; each bulb behaves as if alone: it is switched on only when off, with somebody active and in the dark (or with a chance of 5 %), by a draw of its own against its own probability, stays on for the whole steps of the duration drawn for it, and is off in each step without active occupants; get_power_demand is the sum of the powers of the bulbs that are on; and a logger records for each step the demand after that step.", "quantifier": "all data with valid distributions, all households, bulbs, draws and histories of steps of any length", "why_tests_cant": "the state of a bulb depends on the whole history and on the positions of its draws among those of all other bulbs", "anchors": ["demod/simulators/lighting_simulators.py:CrestLightingSimulator", "demod/simulators/base_simulators.py:Simulator.step"]}
{"id": "C113", "title": "CREST occupancy simulator from construction to getters, over whole simulations", "statement": "Crest4StatesModel(n_households, data, population_sampling_algo, start_datetime) can be made from any start at a multiple of ten minutes for subgroups of 1 to 6 residents. It refuses no household, a step size, subgroups without a number of residents or with more than six. After any number of steps: the clock is that many steps of ten minutes after the start; every getter has one value per household; n_residents and the order of the households are those of the subgroups; every household has followed, since midnight before the start, the Markov chain of its own number of residents with its own draws alone, from a starting state drawn from the workbook; its label, occupancy, active occupancy and thermal gains belong to its state. The transition of each period is drawn from the matrix of this period of the day and this type of day.", "quantifier": "all workbooks with valid sheets, population samples, numbers of households, starts, histories of steps and draws", "why_tests_cant": "Tests run the simulator for some steps with one data set; they cannot cover all populations, starts, changes between weekdays and week-ends, and draws.", "anchors": ["demod/simulators/crest_simulators.py: Crest4StatesModel, CrestOccupancySimulator", "demod/simulators/base_simulators.py: MultiSimulator, TimeAwareSimulator"]}
{"id": "C114", "title": "The whole load simulator keeps the households of its parts together", "statement": "A LoadSimulator for data without sparse matrices can be made and run for any number of minutes. Household h is in all its parts one of the subgroup in which the sampled population puts it. In minute j its appliances and its lights are given its active occupants in the state after the first floor(j/10)+1 steps of the activity simulator; the lights, the irradiance given by the user or else that of the climate simulator after this step; the heating, the temperature, the hot water and power of the appliances, the power of the lights and the heat of the persons of this same minute. The power demand of household h is the sum of what its own appliances, lights and heating consume.", "quantifier": "any workbook, population, appliances, bulbs, climate and heating simulators, start at a multiple of ten minutes, number of minutes, inputs and random draws", "why_tests_cant": "the alignment of households across independently built simulators and the order of their steps must hold in every minute of every run", "anchors": ["demod/simulators/load_simulators.py:LoadSimulator.__init__", "demod/simulators/load_simulators.py:LoadSimulator.step", "demod/simulators/load_simulators.py:LoadSimulator.get_power_demand"]}
{"id": "C115", "title": "The whole heating simulator simulates every household alone", "statement": "A FiveModulesHeatingSimulator built from a data loader draws for each household a type of heating system, a type of building and target temperatures from the given distributions, and all parameters of a household are those of its types. After any sequence of steps and replacements of the heating system the room temperature, the heat demands and the power demand of each household are those of this household simulated alone with its own inputs: they do not depend on the number of the other households, their draws, inputs or position. No households, invalid distributions, targets of another type and unknown algorithms are refused.", "quantifier": "all data, numbers of households, draws, sequences of steps and replacements of the heating system with arbitrary arrays (external outputs with NaN included)", "why_tests_cant": "The element-wise computation must hold for every number of households, history and pattern of NaN in the arrays; a single index slip shows only for particular mixes of households.", "anchors": ["demod/simulators/heating_simulators.py: FiveModulesHeatingSimulator", "demod/simulators/heating_simulators.py: HeatingSystem, Thermostats, BuildingThermalDynamics, HeatDemand, SystemControls"]}
{"id": "C116", "title": "The heating of a load simulator heats each household by its own occupants and appliances", "statement": "A LoadSimulator that includes the heating can be made and run for any number of minutes. In every minute the heating simulator is given the weather (the one given by the user, else that of the climate simulator after its step), the hot water and power of the appliances, the power of the lights and 84 W per passive and 147 W per active occupant, all of this same minute, and the optional external inputs unchanged. The temperatures and heat demands that the load simulator returns for a household are those of this household alone with these inputs, and its power demand is the sum of those of its appliances, lights and heating. Without heating the getters of the heat demands and temperatures raise an AttributeError.", "quantifier": "all data, populations, climates, starts at a multiple of ten minutes, draws, numbers of minutes and external inputs with one entry per household", "why_tests_cant": "The coupling must hold in each minute of each run: an input that is late by one step, or of another household, gives plausible loads.", "anchors": ["demod/simulators/load_simulators.py: LoadSimulator", "demod/simulators/heating_simulators.py: FiveModulesHeatingSimulator"]}
{"id": "C117", "title": "Each household of the subgroups activity simulator follows its own day-dependent course", "statement": "A SubgroupsActivitySimulator of transit-states simulators, made with a start datetime and valid sparse matrices for each subgroup and class of days, can be constructed and steps forever. The households of a subgroup are consecutive; each starts in a state drawn from the starting distribution of its subgroup, makes one transition per ten minutes since 4 am before the start, and then one per step, by the row of its state in the matrix of the slot (by the row of the first state if its own cannot be left in that slot), from its own draws only. Every 144 steps the matrices of the class of the day are loaded and its label is kept (or replaced by the label at the position given by the first label, if the new data do not know it). With w residents in HWH, o in HOH and c in active, get_occupancy is the residents less w and o, get_active_occupancy the minimum of that and c, and get_thermal_gains 147 W per active and 84 W per other occupant. No households, labels or starting distributions of another size and a missing start datetime are refused.", "quantifier": "all subgroups, household counts, valid data for all classes of days, start datetimes, day splits, draws and numbers of steps", "why_tests_cant": "The households, subgroups, days and draws interact through packed labels, sorted sparse rows, reloading and offsets over unboundedly many steps; tests see some random runs.", "anchors": ["demod/simulators/sparse_simulators.py: SparseStatesSimulator, SparseTransitStatesSimulator, SubgroupsActivitySimulator", "demod/utils/sparse.py: SparseTPM.sparse_monte_carlo", "demod/simulators/base_simulators.py: MultiSimulator"]}
{"id": "C118", "title": "The load simulator with transit-states activities simulates each household by itself", "statement": "LoadSimulator(n, start_datetime, data=data) with data that have sparse transition matrices for their subgroups can be made and stepped any number of minutes. Household h belongs, in every part, to the subgroup in which sample_population puts it. Its activities follow the matrices of its subgroup for week days and week-end days, with one step every ten minutes, from its own draws; the active occupancy given to its appliances and lights in minute j is, for its state after the first j/10+1 activity steps, the smaller of the persons at home (residents less those in 'HWH' and 'HOH') and of those in 'active'; its appliances, lights and heating follow these values and its own draws, minute by minute, and get_power_demand() is the sum of its appliances, its lights and its heating. The transit-states simulator is used whenever it can be made; only a NotImplementedError leads to the four-states model, any other error is raised.", "quantifier": "all data sets with valid sparse matrices, numbers of households, start datetimes at full minutes, with or without climate and heating, all step inputs and draws, any number of minutes", "why_tests_cant": "The joint trajectory of the four simulators depends on every draw and on the day classes; a test sees one random path and cannot tell which household's draws were used.", "anchors": ["demod/simulators/load_simulators.py:LoadSimulator", "demod/simulators/load_simulators.py:_instantiate_activity_simulator", "demod/simulators/sparse_simulators.py:SubgroupsActivitySimulator"]}
{"id": "C119", "title": "The transit-states simulation from the survey follows recorded households", "statement": "From the parsed time use survey, for every subgroup with usable diaries, the sparse data loaded for the transit-states simulator have exactly the household situations recorded in the subgroup (members awake at home, out for work or school, out for something else) as labels, and the starting probabilities and the transition matrices are their frequencies and the frequencies of their changes among the recorded household days; the simulator run on these data lets every simulated household change its situation only as some recorded household of the subgroup and of the day's class did at the same time of the day (at the start of a day of which nobody recorded its situation: as a household all asleep at home), so that the occupants, the active occupants and the gains it reports are those of a recorded household.", "quantifier": "all complete surveys of 144-slot days, subgroups by residents and household type, numbers of households, day splits, starting times, draws other than 0 and numbers of steps", "why_tests_cant": "a test compares totals of one run of one survey; that no simulated change is ever outside the diaries is a property of every survey, start and draw", "anchors": ["demod/datasets/GermanTOU/parser.py:get_data_sparse9states", "demod/datasets/GermanTOU/loader.py:_parse_sparse_tpm", "demod/simulators/sparse_simulators.py:SparseTransitStatesSimulator", "demod/simulators/sparse_simulators.py:MultiSparseTransitStatesSimulator"]}
{"id": "C120", "title": "A climate loader returns the data of the last download", "statement": "After any history of creations and uses of loaders of the renewables.ninja dataset (for any countries, weightings and updates, with any replies of the server and processes interrupted at any write), loading climate data through a loader of a country and a weighting returns the rows of the last download of this country and weighting, cut at the start. A loader created with update_raw_data=True that gets a reply returns this reply after any history; an unknown country or an unreachable server is an error that leaves the files as they are.", "quantifier": "all histories of loader creations and loads of any countries, weightings, server replies and interruption points; all starts", "why_tests_cant": "Tests run against one cache directory in one order; the claim is about every order of creations, updates and loads over a shared cache, and every crash point.", "anchors": ["demod/datasets/RenewablesNinja/loader.py:NinjaRenewablesClimate.__init__", "demod/datasets/RenewablesNinja/loader.py:NinjaRenewablesClimate._check_download_raw_file", "demod/datasets/RenewablesNinja/loader.py:NinjaRenewablesClimate._parse_historical_climate_data", "demod/datasets/base_loader.py:ClimateLoader.load_historical_climate_data", "demod/utils/countries.py"]}
{"id": "C121", "title": "The climate simulator shows what was measured in the current hour", "statement": "With the files of renewables.ninja or of Open Power System Data, after any number of steps the historical climate simulator shows the outside temperature and the irradiance at the surface of the row of the file that covers the current time, and raises StopIteration after the last row; other country names than the supported ones raise NotImplementedError.", "quantifier": "all files with hourly rows, all starts in the file, all numbers of steps", "why_tests_cant": "It relates every row of every file to every step of the simulator; a test reads one file at one start and cannot tell which column is meant.", "anchors": ["demod/datasets/RenewablesNinja/loader.py:NinjaRenewablesClimate._parse_historical_climate_data", "demod/datasets/OpenPowerSystems/loader.py:OpenPowerSystemClimate._parse_historical_climate_data", "demod/simulators/weather_simulators.py:RealClimate"]}
{"id": "C122", "title": "Persons simulated from the time use survey follow the diaries of their kind", "statement": "With the transition data computed from a time use survey, the activities offered by the simulator of individuals are those of the dictionary plus 'away', each once; every person starts with an activity drawn according to the diaries of their subgroup at the start of the survey day, and each step takes them to the next activity as one of the diaries of their subgroup and kind of day does in these slots; the numbers of persons per activity of a household always add up to its residents, and the occupancy is the residents less those away.", "quantifier": "every survey with valid diaries, dictionary of activities, list of households and persons, kinds of days distinguished, start, number of steps and draws", "why_tests_cant": "the shares are over arbitrary sets of diaries and the correspondence must hold at every slot of every day for all draws; tests use a few synthetic matrices", "anchors": ["demod/datasets/GermanTOU/parser.py:get_tpms_activity", "demod/datasets/GermanTOU/loader.py:GTOU._parse_tpm", "demod/simulators/activity_simulators.py:SubgroupsIndividualsActivitySimulator"]}
{"id": "C123", "title": "A time use survey loader without the raw survey gives the data of the archive downloaded last", "statement": "When the raw files of the German time use survey are absent, a loader that was created gives, for every subgroup, the parsed data of the archive that the server sent in the last download, and raises for data that is not in it; clearing the parsed data downloads again; with the raw files no archive is downloaded and loads give what is computed from the survey.", "quantifier": "all histories of creations, clearings and loads by any processes, with any versions and activity types, replies of the server and points of interruption", "why_tests_cant": "the disk is shared by all processes and runs; tests create one loader on a prepared disk", "anchors": ["demod/datasets/GermanTOU/loader.py:GTOU.__init__", "demod/datasets/GermanTOU/loader.py:GTOU._clear_parsed_data", "demod/datasets/GermanTOU/loader.py:GTOU._download_parsed_folder_github", "demod/datasets/tou_loader.py:LoaderTOU.load_tpm"]}
{"id": "C124", "title": "The real load profiles are those of the tracebase archive downloaded last", "statement": "The profiles that a tracebase loader gives, full or switched on, are those computed for its step size from the files of the archive that was downloaded last; an update replaces them for all later loads; without archive or network there is an error and not other data.", "quantifier": "all histories of creations, updates, clearings and loads with any versions and step sizes, replies of the server and points of interruption", "why_tests_cant": "stale or partial profiles need a history of several runs, updates or interruptions that tests do not go through", "anchors": ["demod/datasets/tracebase/loader.py:Tracebase.__init__", "demod/datasets/tracebase/loader.py:Tracebase._parse_real_profiles_dict", "demod/datasets/base_loader.py:ApplianceLoader.load_real_profiles_dict"]}
{"id": "C125", "title": "The 4-states simulation from the survey follows recorded households", "statement": "With the data of the time use survey, Crest4StatesModel can be made and run if every situation (persons at home, persons up) of the household sizes was recorded; otherwise it raises ValueError. Each household starts at four o'clock in a situation drawn with the shares of the recorded households of its size and type of day, and changes its situation in each period of ten minutes with the shares of the recorded changes of this period and type of day. Occupancy, active occupancy and thermal gains are those of its situation.", "quantifier": "all surveys, numbers of households, populations, starts, draws and numbers of steps", "why_tests_cant": "The parsed matrices, the packing of the labels, the reload at four o'clock and the type of day interact over unboundedly many steps; a shift of one slot gives plausible courses.", "anchors": ["demod/simulators/crest_simulators.py: Crest4StatesModel, CrestOccupancySimulator", "demod/datasets/GermanTOU/parser.py: get_data_4states, group_in_household_4states, states_to_activity", "demod/datasets/GermanTOU/loader.py: GTOU._parse_tpm"]}
{"id": "C126", "title": "States from transitions", "statement": "transitions_to_states gives every person at every time the new state of their latest transition up to that time (the last one in the list at that time), or their initial state when there is none; it accepts exactly transitions that fit the sizes and the initial states; and it rebuilds any diaries from their first states and the output of states_to_transitions.", "quantifier": "all lists of transitions, initial states and optional sizes; all diaries", "why_tests_cant": "the result depends on the order and the times of arbitrarily many transitions of arbitrarily many persons; a test rebuilds one small array", "anchors": ["demod/datasets/ATUS/parse_data.py: transitions_to_states", "demod/utils/parse_helpers.py: states_to_transitions"]}
{"id": "C127", "title": "Removing repeated transitions keeps the states", "statement": "get_mask_remove_fake_transitions accepts exactly transitions sorted by person and time, drops exactly those that follow a transition of the same person to the same state, and the remaining transitions give the same states.", "quantifier": "all lists of transitions, initial states and sizes", "why_tests_cant": "every arrangement of repeated transitions must keep the states at all times", "anchors": ["demod/datasets/ATUS/parse_data.py: get_mask_remove_fake_transitions, transitions_to_states"]}
{"id": "C128", "title": "Transition matrices from transitions", "statement": "build_transition_matrices returns the states of transitions_to_states and, for each time, the share of the persons in a state just before that are in each state then (NaN for states nobody has); the first matrix is the last one or, with the strategy 'nothing', keeps the states; an initial state outside of the matrices or an unknown strategy is refused.", "quantifier": "all transitions, initial states, sizes and strategies", "why_tests_cant": "the counts range over all persons and times", "anchors": ["demod/datasets/ATUS/parse_data.py: build_transition_matrices"]}
{"id": "C129", "title": "Sheets of the excel input file are read column by column", "statement": "Reading the appliances, the buildings or the heating systems of the excel file of inputs gives a dictionary with an entry for each column that has a name: its cells, where the texts have lost their spaces, and booleans for the columns inactive_switch_off and uses_water. The entry number is the number of the names. A sheet without names is refused with a KeyError, and a cell that is not a text, a number, a boolean or empty with a NotImplementedError.", "quantifier": "Every sheet: any labels, any number of columns and rows, any cells.", "why_tests_cant": "The sheet is written by the user: the labels may have spaces, be missing or collide, and any cell can be empty. Tests read the one file of the package.", "anchors": ["demod/datasets/ExcellInputFile/loader.py: load_appliance_dict, load_buildings_dict, load_heating_system_dict", "demod/utils/parse_helpers.py: remove_spaces"]}
{"id": "C130", "title": "Each appliance of the input file gets its own yearly number of uses", "statement": "The simulators that read the yearly targets of the excel file of inputs give to each appliance the target_cycle_year of its row.", "quantifier": "Every sheet of appliances, with any number of rows of any type.", "why_tests_cant": "The targets go through a dictionary by type and are distributed again to the appliances of this type. It depends on which rows share a type, for which a test has only examples.", "anchors": ["demod/datasets/ExcellInputFile/loader.py: load_yearly_target_switchons", "demod/utils/appliances.py: get_target_from_dict", "demod/simulators/appliance_simulators.py: load_yearly_target_switchons (use)"]}
{"id": "C131", "title": "Transitions of households count the persons who change state", "statement": "Grouping the transitions of diaries by household gives one row for each time, household, day, old and new state such that a person of this household changes on this day from the old to the new state at this time, with the number of these persons. The counts add up to the number of all the changes of the diaries.", "quantifier": "All diaries of any number of persons and time steps, any assignment of persons to households and days, with or without secondary states.", "why_tests_cant": "The rows depend on which persons share a household and change at the same time; a test has a few diaries, and a permutation of the persons inside a time step goes unnoticed.", "anchors": ["demod/utils/parse_helpers.py: group_hh_transitions, states_to_transitions, states_to_transitions_secondary"]}
{"id": "C132", "title": "The statistics of the bulbs keep the bulbs of the surveyed houses", "statement": "From a table of the bulbs of houses: the kinds of bulbs are the different powers above 0, in increasing order; their penetration is their share among all the bulbs and sums to 1; the mean and the spread are those of the number of bulbs of a house; the mean number times the mean power of a bulb is the mean power of a house. Households drawn with these statistics only have bulbs of the table.", "quantifier": "All tables with any number of houses and bulbs, with missing and zero entries.", "why_tests_cant": "It is a statement on sums over arbitrary tables with missing entries; tests use the one table of the dataset.", "anchors": ["demod/utils/parse_helpers.py: bulbs_stats_from_config", "demod/datasets/CREST/loader.py: _parse_bulbs, _parse_installed_bulbs_stats", "demod/simulators/lighting_simulators.py: sample_bulbs_configuration"]}
{"id": "C133", "title": "The example simulators count their occupants", "statement": "The example simulators hold, after any history, what each household started with plus everybody who arrived minus everybody who left, and stay between 0 and max_residents. The time aware one shows the start time after its creation and holds max_residents everywhere if all are inside at 4 am; it prints the percentage of empty households once for each step that enters the hour of 4 am, and nothing during its creation. Unknown initialization algorithms are rejected.", "quantifier": "All numbers of households, maxima, starts, step sizes, draws, loggers and histories of arrivals and departures.", "why_tests_cant": "The occupants depend on the whole history of the simulation and the warm-up on the start and the step size; tests make a few steps from one start.", "anchors": ["demod/simulators/base_simulators.py: ExampleSimulator, TimeAwareExampleSimulator"]}
{"id": "C134", "title": "Heating patterns are attributed by the published shares and simulated per household", "statement": "VariableThermostatTemperatureSimulator gives every household one heating pattern: the one in whose published share its draw falls, a random one, or the named one, depending on pattern_attribution_method; other values are rejected. Its schedule follows its own draws, and after any history its thermostat shows what it would show were it simulated alone, whatever the other households do. The documented optional arguments (pattern_attribution_method, logger) can be given to the constructor.", "quantifier": "every number of households, every draw in [0,1), every attribution method and optional argument, every history of occupancies", "why_tests_cant": "the attribution is random and the masks of six patterns act on the same arrays; a test sees some draws and some mixtures of patterns", "anchors": ["demod/simulators/heating_simulators.py:VariableThermostatTemperatureSimulator.attribute_patterns", "demod/simulators/heating_simulators.py:VariableThermostatTemperatureSimulator.__init__", "demod/simulators/heating_simulators.py:VariableThermostatTemperatureSimulator.initialize_fixed_patterns", "demod/simulators/heating_simulators.py:VariableThermostatTemperatureSimulator.update_thermostat_temperatures"]}
{"id": "C135", "title": "The daily mean temperatures follow the documented ARMA model", "statement": "CrestClimateSimulator lets the mean temperature of the days follow the season plus an ARMA(1,1) process with the loaded coefficients: the anomaly of each day is the autoregressive coefficient times that of the day before, plus the noise of the day, plus the moving average coefficient times the noise of the day before. Bounded noise keeps the temperatures within a fixed distance of the season, however long the simulation.", "quantifier": "every set of coefficients, every season, every sequence of draws, every number of days", "why_tests_cant": "a process that lacks a term looks plausible on any sampled path, and drift shows only in the long run", "anchors": ["demod/simulators/weather_simulators.py:CrestClimateSimulator._update_ARMA", "demod/simulators/weather_simulators.py:CrestClimateSimulator.initialize_starting_state", "demod/datasets/CREST/loader.py:Crest._parse_temperatures_arma"]}
{"id": "C136", "title": "Set points and deadbands of the German thermostats", "statement": "With the German data, every household gets a set point of the rooms among 13 to 27 degrees and one of the hot water among 42 to 62 degrees, each value exactly for an interval of draws as long as its published share, in increasing order, and 50 degrees for the emitter. The thermostats start off without initial temperatures, else on exactly if colder than the set point, and then follow bands of 1, 5 and 5 degrees around the set points.", "quantifier": "all numbers of households, all draws, all initial temperatures and all sequences of temperatures", "why_tests_cant": "The set points depend on the draws of every household and the states on the whole history of temperatures; tests use a few households with fixed seeds.", "anchors": ["demod/datasets/Germany/loader.py: GermanDataHerus._parse_thermostat_dict", "demod/simulators/heating_simulators.py: Thermostats.initialize_target_temperatures", "demod/simulators/heating_simulators.py: Thermostats.initialize_starting_state", "demod/simulators/heating_simulators.py: Thermostats.step"]}
{"id": "C137", "title": "Refused requests raise the announced exception", "statement": "A dataset loader that is asked for something it does not support raises the exception written in it, with a message that names what was asked for: NotImplementedError for the Fisher lighting of another version of the German data, for sparse activities of another activity type and for the heating systems of another version of CREST, and ValueError for an unknown population type of CREST.", "quantifier": "all versions, activity types, population types and names of datasets; all message templates and arguments", "why_tests_cant": "The branches are reached only with unusual arguments, and whether the message can be made depends on the fields of its template and not on the values.", "anchors": ["demod/datasets/Germany/loader.py: GermanDataHerus._parse_fisher_lighting", "demod/datasets/CREST/loader.py: Crest._parse_population_subgroups", "demod/datasets/CREST/loader.py: Crest._parse_heating_system_dict", "demod/datasets/GermanTOU/loader.py: GTOU._parse_sparse_tpm", "demod/utils/error_messages.py"]}
