# A Lean 4 model of demod

`/repo` is `epfl-herus/demod` (python, numpy). The code is not run here: it is read as text and modelled function by
function in `lean/Verif`.

## Layout

* `lean/Verif/Model/*.lean`: executable definitions. Every definition cites the file and lines it models (or, for a
  python or numpy primitive, where it is used) and states its simplifications.
* `lean/Verif/Spec/*.lean`: small specifications, independent of the model, used to state the properties.
* `lean/Verif/Lemmas/*.lean`: helper lemmas.
* `lean/Verif/Props/*.lean`: the property theorems (one file per area, names `CNN_…`), with `example`s that show that
  their hypotheses are met by concrete, non-trivial cases.
* `properties.jsonl`: the English properties; `MANIFEST.json`: property → theorems and status.
* `seeded/LOG.jsonl`: the record of bugs seeded in scratch copies of the model, the theorems that failed and the
  theorems that had to be tightened.

Names: `…_partial` is a theorem that proves only part of a property, or needs hypotheses that the English property does not have;
`…_counterexample` is a concrete run of the model that violates the English property; `CNN_full` is the full
statement where it is false and `CNN_full_fails` its negation.

## Modelling conventions

* numpy arrays are `List`s, matrices lists of rows. Where all operations are element-wise over households, appliances, bulbs, …, the
  model is that of one of them, as said in the header of the module.
* floats are rationals (`ℚ`), in the irradiance simulator reals (`ℝ`, because of trigonometric functions). Rounding, overflow and infinities
  are not modelled; NaN is `none` of an `Option` where the code gives it a meaning.
* random numbers are explicit arguments (uniform draws `u` with `0 ≤ u < 1`, integers of `poisson`/`randint`, …). The theorems hold for all
  values of the draws, so for all seeds.
* exceptions are values (`Except PyErr α`); only the class of the exception is kept.
* `datetime` is an integer number of microseconds since 0001-01-01 with the proleptic Gregorian calendar, `timedelta` an
  integer number of microseconds.
* files are a finite map from path to content, with an explicit content `broken` of a file that was opened for
  writing and not completed, so that a program can be interrupted at every point.
* cached getters, loggers and callbacks are modelled with the state they keep, so that the order of calls matters as in the code.
* a python `dict` is an association list in insertion order where the order can be seen, else a function.

## Trusted base

* Lean's kernel (version 4.33.0). No `sorry`, `admit`, `native_decide`, `bv_decide`, no axioms of our own, no `unsafe`/`implemented_by`.
* Every theorem depends at most on the axioms `propext`, `Classical.choice`, `Quot.sound` (checked with `#print axioms`; `vcheck` replays all
  modules in the kernel).
* Mathlib's definitions of `ℚ`, `ℝ`, `List`, finite sums, trigonometric functions as used in the statements.
* The faithfulness of the model to the python code is by reading only: the code cannot be run here. The citations make it possible to compare.
* The specifications in `Verif/Spec` and the statements in `Verif/Props`.

## Plan and outcome per property

Status as in MANIFEST.json. "partial" with a counterexample theorem means that the English property is false of the code: the exact behaviour is proved where the property holds, and a concrete witness refutes the rest.

| id | property | status | modelled (Verif/Model) | how it is proved | what is missing or false |
|----|----|----|----|----|----|
| C01 | Logged history equals the observed history | proved | Logger | induction over the steps, for an arbitrary simulator class (own state, getters, updates before the base step) | for simulators that update their variables before super().step(); the late-updating ones are refuted under C05 |
| C02 | SimLogger.get and clear honour the set of logged attributes | proved | Logger | case analysis on association lists | — |
| C03 | Simulated clock | proved | Time | integer division; induction over the steps | — |
| C04 | MultiSimulator is the disjoint union of its sub-simulators | proved | Multi | induction over the sub-simulators, then over the steps; sub-simulators are arbitrary state machines | — |
| C05 | Cached getters never return stale data | partial | Logger | invariant over every interleaving of getter calls and steps; witness for late updates | proved for simulators that update before the base step; false for those that update after it (semi-Markov, sparse, CREST lighting, cars) and after a second initialisation, which does not clear the cache |
| C06 | Day callbacks fire exactly once per day change | partial | Time (calendar) | calendar arithmetic for all dates; counting over runs; witness at month ends | before_next_day misses month ends |
| C07 | 4 am and refresh-time callbacks fire exactly once per day | proved | Time | decision logic on microseconds; counting over runs | — |
| C08 | Subgroup mask selects whole sub-simulators | proved | Multi | induction over the sub-simulators | — |
| C09 | Inverse-CDF sampling is exact | proved | Sampling | induction over the cdf | rational arithmetic; draws are explicit |
| C10 | Row-wise sampling treats each row on its own | proved | Sampling | row-wise independence by induction | — |
| C11 | Accepted distributions are valid | proved | Sampling | algebra over ℚ | — |
| C12 | Population sampling allocates every household once | partial | Sampling | induction over quantiles; witnesses at the first and last quantile | false of the default algorithm for a first entry of probability 0 and for pdfs summing to slightly less than 1; everything else proved |
| C13 | SparseTPM behaves like a dense array of matrices | proved | Sparse | refinement to a dense function for every sequence of assignments | for non-empty TPMs; an empty TPM drops its sizes |
| C14 | Sparse sampling agrees with dense sampling | partial | Sparse | correspondence of the masked cumulative sums with inverse-cdf sampling | false for a draw of exactly 0 |
| C15 | SparseTPM rejects inconsistent inputs | partial | Sparse | bit-level model of the guard | false: the length guard is a bitwise and; exact condition proved |
| C16 | SparseTPM save/load round-trip | partial | Sparse | file map, round trip | false in general: sizes and dead state value are not saved |
| C17 | states_to_transitions is complete and faithful | proved | Parse | induction over time steps; reconstruction of the diaries | — |
| C18 | Transition durations tile the day | partial | Parse | telescoping sums over transitions of a person | Proved for the circular day (the default of states_to_transitions). With ignore_end_start_transitions the claim is false for the last stretch of a diary that does not end in its first state (duration 0). |
| C19 | Primary and secondary transitions are aligned | partial | Parse | list lemmas; witness | False of the code: persons are appended secondary first, states primary first. |
| C20 | convert_states is a lossless relabelling | proved | Parse | sortedness and lookup lemmas | — |
| C21 | Estimated TPMs are row-stochastic and match the data | proved | Parse | counting; sums over ℚ | The 'last' option copies the last matrix; it is not the wrap-around one. |
| C22 | Duration pdfs are probability distributions | partial | Parse | counting; sums over ℚ | Rows are probability distributions and empirical; the support claim fails for unobserved rows and with ignore_end_start_transitions. |
| C23 | Load aggregation factors have their textbook bounds | proved | Metrics | inequalities between sums and maxima | — |
| C24 | Load duration curve | partial | Metrics | sorting and counting | Proved for two dimensional profiles; one dimensional input raises IndexError (the result of reshape is dropped). |
| C25 | Energy accounting | proved | Metrics | linear algebra over ℚ | — |
| C26 | Cumulative changes in demand | partial | Metrics | histogram counting | Proved without normalisation; false with the default normalize=True and for changes equal to the first edge. |
| C27 | State durations tile each pattern | partial | Metrics | runs of a circular word | Proved as soon as one pattern is not constant; when all are, the call raises IndexError. |
| C28 | State metrics are pseudo-distances | proved | Metrics | triangle inequality; bounds | — |
| C29 | External values override exactly where provided | proved | Utils | case analysis | one-dimensional arrays over the rationals, NaN as none |
| C30 | Closest appliance type | proved | Utils | strings as lists of characters; induction over the pieces | the empty string, false in python, is never returned |
| C31 | Ownership probabilities follow the i-th copy rule | proved | Utils | induction over the appliances | covers get_ownership_from_dict and get_target_from_dict, whose loops are the same |
| C32 | Ownership of several copies adds up | proved | Utils | termination bound and sum invariant of the loop | rational arithmetic; termination is that of the model's loop with the proved bound |
| C33 | Merging appliance dictionaries | proved | Utils | key lemmas | — |
| C34 | Subgroups are totally ordered | partial | Utils | lexicographic comparison after sorting | proved for subgroups whose values have the type of their key; false when a key has a list in one and an integer in the other (TypeError), which add_time produces |
| C35 | Subgroup strings identify subgroups | proved | Utils | unique readability of the string | for usual keys and values; the restrictions are shown to be needed |
| C36 | Household members | partial | Utils | case analysis on household types | proved for consistent households of types 2, 3, 4; households of other types get no position |
| C37 | Time attributes | proved | Utils | case analysis; calendar | — |
| C38 | Markov chain simulators stay on the support of their TPMs | proved | Markov | invariant over runs | Rows summing to one exactly. C38_tolerance_counterexample: a matrix whose rows sum to slightly less than one passes the check and lets a state of probability zero be reached. |
| C39 | Changing the TPM keeps the meaning of states | proved | Markov | positions of labels | — |
| C40 | Semi-Markov durations are respected | proved | Markov | invariant over runs of the counters | Durations drawn as 0 behave as 1, as stated in the theorem. Bad arrays of durations are refused. |
| C41 | Occupancy is consistent | partial | Activity | counting over persons; digits of packed labels | Proved for households simulated with as many persons as residents (SubgroupsIndividuals), for packed labels with at most as many persons away as residents (Sparse) and for CREST labels. C41_counterexample: a couple of three residents is accepted and simulated with two persons. |
| C42 | Packed household labels decode correctly | proved | Activity | base-7 digits | Numbers are unbounded; numpy labels overflow beyond 22 activities. |
| C43 | Sparse day changes keep labels | proved | Activity | positions of labels | For distinct new labels. Lost labels: the first label is used as a position (counterexample). |
| C44 | Time slot of a datetime | proved | Activity | integer division | — |
| C45 | Appliance cycles are well-formed | partial | Appliance | invariant over runs | OccupancyApplianceSimulator: a use of duration d is shown in ceil(d)-1 steps only, since the step that switches on also decrements; uses of at most one step never show (counterexample). For ProbabiliticActivityAppliancesSimulator see C78. |
| C46 | Appliances not owned never consume | proved | Appliance | sums; invariant over runs | For profiles that are stored with their length. A water fixture with a load profile may raise IndexError (counterexample). |
| C47 | Inactive switch-off | proved | Appliance | case analysis | — |
| C48 | Hot water demand conversion | proved | Appliance | algebra over ℚ | — |
| C49 | Lights are off when nobody is active and power is bounded | partial | Lighting | invariant over runs | Durations are cut to whole steps; a duration below one step is never shown (counterexample), everything else proved. |
| C50 | Fisher lighting | partial | Lighting | monotonicity over ℚ | Proved; only the default initial occupancy has the wrong number of households. |
| C51 | Electric cars | partial | Cars | invariants over runs of the fleet | Everything but the energy delivered, which is one step short (counterexample, exact number proved), and the failures listed as counterexamples. |
| C52 | Building model conserves energy | proved | Heating | algebra over ℚ, induction over steps | For nonzero capacities. |
| C53 | Building temperatures do not overshoot | proved | Heating | convexity invariant | Also the lower bound with non-negative gains. |
| C54 | Heat demand reaches the set point | proved | Heating | algebra over ℚ | Holds with the same step size; FiveModulesHeatingSimulator does not give its step size to HeatDemand, so with other step sizes than a minute the set point is missed (counterexample). |
| C55 | Thermostat hysteresis | proved | Heating | case analysis, induction over steps | — |
| C56 | Heating controls logic | proved | Heating | case analysis | — |
| C57 | Heating system respects its capacity | proved | Heating | min/max inequalities | For HeatingSystem; the outputs shown by FiveModulesHeatingSimulator after an external output are inconsistent (counterexample). |
| C58 | Splitting external heat conserves it | proved | Heating | min/max inequalities | — |
| C59 | External heating systems consume no simulated power | partial | Heating | case analysis; witnesses | False for households with NaN in an array of external outputs, after set_external_heating_system and undefined for a system without one of the capacities. |
| C60 | Occupant thermostats | proved | Thermostat | invariant over runs; calendar of the fixed times | Also the schedule of the patterns with fixed times, which is missed when the step minutes are never equal to the drawn minute (counterexample). |
| C61 | Total load is the sum of its parts at the right cadence | partial | Load | induction over steps for arbitrary component simulators | Sum and cadence proved for arbitrary component simulators; the activity is up to nine minutes ahead of the clock. |
| C62 | Synthetic climate never runs out | partial | Climate | iterator lengths; calendar | Proved for simulations within a month; every simulation over the end of a month raises StopIteration, which is proved too. |
| C63 | Historical climate is aligned | partial | Climate | filtering and indexing of regular grids | Proved for naive starts (UTC); with a time zone RealClimate shifts the data by the offset or raises ValueError, RealInterpolatedClimate raises ValueError west of Greenwich. |
| C64 | Parsed-data cache | partial | Store | invariant over histories of loads, interruptions and clears | The full statement C64_full is false of the code: an interruption between opening and completing a file breaks every later load until the data are cleared, unconvertible values poison the json file, dense and sparse matrices of one subgroup share a file, and integer keys/arrays come back changed. Proved: for storable values, usual subgroups, no dense/sparse clash and no half-written file, every load after any history gives the fresh value, and nothing is parsed or written twice. |
| C65 | Load profiles storage round-trip | partial | Profiles | round trip | Proved for names without '&' and types with at least one profile; a type without profiles vanishes and an '&' in a name makes the next load raise ValueError. |
| C66 | Resampling conserves energy | partial | Profiles | sums over pieces | Energy conservation and the values proved for all profiles; the number of intervals is the ceiling only if the profile does not fill its last step, otherwise an interval of zeros is added. |
| C67 | CREST washing machine programme | partial | Lighting | case analysis over the programme | Levels proved for all remaining times; the last minute of the cycle is shown as standby. |
| C68 | CREST day types | partial | Activity | induction over the steps | Labels are kept and all transitions use the right type of day, except the first after midnight (counterexample). |
| C69 | State duration distribution metric | partial | Graph | sums over ℚ | Proved when both data sets have the same states and a pattern that changes; the value is T/(T+1) times the documented one; a state of one data set only raises KeyError, constant patterns IndexError. |
| C70 | Graph metrics | partial | Graph | counting of edges | All four numbers characterised for two or more time steps; size counts states of the step before too, density can exceed 1, one time step divides by zero. |
| C71 | The matrix of a transition depends on the time of day only | partial | Activity | position in the cycle of matrices over runs | The property is false for time-aware simulators: the matrices used are exactly determined; they are shifted by one and the transition over the refresh time uses the day before. |
| C72 | The clock of sparse simulators | partial | Activity | clock arithmetic over runs | The property is false: the clock is ahead by the steps of the initialisation. The day is right iff the start is between 04:00 and 23:50. The quarter is one too small. |
| C73 | Heating never overheats or undercools | proved | Heating | invariant over runs of the coupled modules | With steps of a minute, the step size that HeatDemand assumes. |
| C74 | Hot water volumes | partial | Appliance | sums over the steps of a use | False for OccupancyApplianceSimulator, where the first minute of flow is missing (exact amount proved); ProbabiliticActivityAppliancesSimulator rounds up to whole minutes. |
| C75 | Activity-driven appliances follow the activity | partial | Appliance | invariant over runs | Proved for appliances flagged inactive_switch_off; others are never switched off again. |
| C76 | Load profiles are played in order | partial | Appliance | position in the profile over runs | Proved for ProbabiliticActivityAppliancesSimulator (C78_use) and always-on appliances; the others begin with the second sample. |
| C77 | Activity profiles follow the clock | partial | Appliance | clock arithmetic over runs | The row is right for all starts; the day only for starts at whole minutes. |
| C78 | Random activity appliances run for their duration and observations are harmless | partial | Appliance | invariants over runs with observations | Durations proved; the delay is ignored and the usage getter's cache changes the simulation (counterexamples). |
| C79 | Heat demand of the households | proved | Heating | case analysis over runs | — |
| C80 | Irradiance is that of the current time | partial | Climate, Solar | position in the day lists | Proved for starts at midnight; for other starts the irradiance is ahead by the time of day of the start. |
| C81 | Irradiance model | proved | Solar | real analysis: bounds of the arguments of asin, signs | Over the reals: rounding of floats is not modelled. The value shown is that of the minute before the clock. |
| C82 | Daily temperatures | partial | Temperature | list lemmas, bounds over ℚ | Proved for minutes with sun and for the night; a minute without irradiance during the day gets 0 degrees, and without daylight ValueError is raised. |
| C83 | Switched-on part of a profile | proved | Profiles | first and last index above the threshold | A profile never above 6 W raises IndexError. |
| C84 | Who owns which appliance | partial | Equip | induction over the counts for the subgroup of a household; C31 for the ownership data | All methods proved; the check of the number of sets of 'set_defined' compares equal lengths: too many sets pass unnoticed, too few give IndexError. |
| C85 | Real load profiles go to the right appliances | partial | Equip | invariant of the loop over distinct types | Proved when no type has both always-on and other appliances; otherwise the switched-on appliances get the full-day profile. A one-sample profile of an always-on appliance makes the construction raise ValueError. |
| C86 | Switch-on probabilities meet the yearly targets | partial | Equip | the loop over activities seen for one appliance; field arithmetic | Calibration proved, for appliances that follow an activity provided their own activity is not listed later in the data: otherwise the probability is overwritten by one calibrated on steps. |
| C87 | Each appliance is simulated exactly once | partial | Equip | list filters | Proved for fresh dictionaries; the probabilistic simulator negates the flags in the dictionary object it was given, so two simulators built from one object keep the same appliances. |
| C88 | The switch-on probability uses the household's own profile | proved | Equip | position of an activity in the list of labels | — |
| C89 | Appliances that follow other appliances | partial | Follow | numpy broadcasting modelled case by case; the loop over activities leaves dictated appliances alone | Proved for exactly one following appliance. The loop goes over the tuple returned by np.where: with several followers the first step raises, with none the first end of a use raises. Uses of appliances that a household does not own also count. |
| C90 | Appliances that follow activities | partial | Follow | split of the loop at the activity; invariant on the cached usage | Proved when some appliance has the followed activity as its own; otherwise the activity is skipped and the follower never starts. |
| C91 | The bulbs of a household and the duration of their uses follow the data | proved | Bulbs | induction over households; the characterisation of inverse-transform sampling of C09 | The normal and uniform draws are arguments. |
| C92 | Occupancy estimated from a diary | partial | Survey | invariant of the loop over times; the last travel from the reversed loop; ranks of ratings | The estimate of the code is characterised for every survey. The rule for the places between travels never applies (the code stores the mask of the travellers instead of that of the arrivals) and the ratings are replaced with their non-negative ranks; final places that do not apply come from the previous diary. |
| C93 | Grouping persons into households loses nobody | partial | Survey | membership in the sorted unique pairs; sums over a partition; uniqueness of digits | Proved for households of up to nine (four states) or six (sparse) members, the limit of the digits. The smaller digit, used as active occupancy in the four states model, can exceed the number of active persons at home. |
| C94 | Sparse transition matrices of a survey | partial | Survey, Sparse, Parse | counts of the rolled transitions; well-formedness of the sparse matrix; comparison with the dense counts | Proved for 'nothing'. With 'last' the code overwrites the first matrix, which is correct, with the transitions from the end of the day to its start, which nobody recorded. |
| C95 | Activity states of a survey stand for the activities of the dictionary | partial | SurveyStats, Parse | conversion of the codes through the dictionary; the estimates of C20/C21 rewritten in terms of the labels | States, matrices and initial distribution proved in terms of the activities for every dictionary that covers the codes. Labels can be repeated ('-' and activities that nobody does are appended again) and the secondary activity is taken from the main ones, so it is never shown. Without the state 'away' the loader raises UnboundLocalError. |
| C96 | Activity profiles are shares of the active households | partial | SurveyStats, Survey | digits of the household states; counts over the recorded households and days | The value of the code is characterised for every survey: active occupants are the smaller of the numbers of members at home and awake, and activities done elsewhere count, so the value is not the share of the property. |
| C97 | Durations, probabilities and daily starts parsed for the loader | partial | SurveyStats, Graph | runs on the circular day (as in the duration metric); counts of counts over the recorded pairs | Durations need somebody who changes activity (IndexError otherwise), probabilities somebody away and somebody asleep (KeyError otherwise). Positive numbers of daily starts are counted rightly but divided by the number of diaries, and the zero entry counts households that do not exist, so the sum is not one. |
| C98 | The diaries of a subgroup are those that meet all its conditions | partial | SurveyMask | one lemma per kind of condition; the workaround `[::2]` inverted on paired lists | Proved with the default filters or with single values, if the diaries that report a missing day come in consecutive pairs. With a list, or '1_retired', the code applies the default filters although they were switched off; otherwise reported missing days are passed over. |
| C99 | Simulating individuals grouped into households is safe from the constructor on | partial | Individuals, Activity, Markov | an invariant of the sub-simulators and of the subgroups kept by refresh, step and run; closed form of the last refresh; the blocks of persons counted by induction over the subgroups | Everything but the last clause is proved for every start. The data are those of the current day only if the start is a multiple of 10 minutes after the refresh time; otherwise no data of a day are ever loaded (C99_never_updated). Two day types are rejected only at the first refresh. First order chains; for semi-Markov chains see C108. |
| C100 | The edit distance of two state profiles counts single edits | partial | Similarity | alignments of two words; the recurrence is the cheapest alignment, and a sequence of single edits is an alignment; single digits are written as single characters | proved for profiles of single digits, the documented domain; false beyond (values are written without a separator) |
| C101 | Similarity, variety and counts refer to the right profiles and values | partial | Similarity | position of a pair in the concatenated rows; the sum over ordered pairs by induction on the number of profiles; counts of sorted distinct values | all proved for every distance; the documented shape (n, n) of profiles_variety(average=False) is false: it returns the n(n-1)/2 pairs |
| C102 | Transition data of CREST are distributions for every valid workbook | proved | Crest | position of a row in the reshaped sheet, normalisation of rescale_pdfs, then C03 for the runs | NaN cells and the reading of the Excel file are not modelled |
| C103 | Ownership data of CREST give each appliance its own probability | partial | Crest | invariant of the loop over the appliances: keys of copies in order; the search of a new key ends since keys are finitely many; then C31 | the round trip is proved when no type is named like a numbered copy of another type; with types tv_2, tv, tv the second television gets the probability of tv_2 |
| C104 | Activity profiles of CREST hold the probability of the right activity, occupancy and time | proved | Crest | position of an entry in the transposed and reshaped table; distinct names give distinct keys | — |
| C105 | Columns of the CREST appliances are split into electricity and water, and flags set | partial | Crest | positions in the concatenated arrays; counterexample by evaluation | np.logical_or(a, b, c) takes the third array as the place of the result, so the dish washer is switched off when nobody is active |
| C106 | Ownership data of DESTATIS keep the share of equipped households and the number of appliances | partial | Destatis | invariant of the loop over the rows: lookup of every copy of the types done; keys of different types are distinct; C32 for the values of a row; then C31 | proved for tables where each type has one row; in the shipped table laptop_computer has two, and the third laptop of the first row stays in the dictionary (2.088 laptops on average for 3 residents instead of 1.541; the shipped parsed data show it) |
| C107 | Equipment of households is read from the column of their group, and populations are distributions | partial | Destatis | cases of the described groups against the headings of the table; counterexamples by evaluation | false for an income of 0 (ValueError), more than 5 residents (AssertionError although the report has 5 or more) and lone parents of 4 children (column of 5 persons); proved for all the others |
| C108 | Individuals with durations: activities last as drawn, also across new days | proved | SemiIndividuals, Individuals, Markov | an invariant of the sub-simulators kept by refresh and step, the trace of changes and durations of each person defined from the counters; refresh keeps counters and activities | With day types the position in the cycle lags one slot after a new day (slotOf states it), as for first order chains (C99). |
| C109 | Every appliance of every household of an occupancy-driven simulation behaves as if alone | proved | OccSim | The arrays of the simulator are related entry by entry to the state of one appliance alone (`Model/Appliance`): writes at index lists without duplicates, masks, gathered and scattered values, rows of the profiles by the clock of C77; then induction over the steps. Non-interference follows because the inputs of an appliance are determined by its household. | The whole simulator with its arrays is modelled in Model/OccSim; the theorems refine it to one appliance alone (Model/Appliance, C45-C48). The constructor also writes the kind of day into the dictionaries of the subgroups given to it (C109_arguments_counterexample). |
| C110 | The whole activity-driven appliance simulator | partial | Model/ActSim (whole simulator), Model/Equip, Model/Appliance | matrices entry by entry: switch-on, switch-off and reload by masks are the operations on the appliance alone; fold over the activities of a step (distinct keys), induction over steps; position in the profile by induction over the history from its end | Proved for whole simulations under ActSetup (profiles drawn exist, always-on ones have at least two samples). False as stated for the log: the logger visits before the appliances are switched on (C110_first_log_counterexample). Activities cannot be left out of a step (C110_missing_counterexample). Activity arrays have one entry per household. |
| C111 | The whole probabilistic appliance simulator | partial | Model/ProbActSim (whole simulator), Model/Follow, Model/Equip | one activity of a step entry by entry (Round), chained over the activities of the step (Chain) with four lemmas (in use, free, following, switched off); abstraction from steps left to uses (UseOk), the use as a function of the history, induction on the history from its end | Proved for whole simulations under ProbSetup and ProbLimits: exactly one appliance follows a type of appliances and none is always on. False without these limits: with no follower the step in which a use ends fails (C111_counterexample), always-on appliances go off for good (C111_always_on_counterexample). No initialisation steps: the simulator would pass itself as the activities. |
| C112 | The whole CREST lighting simulator | partial | Model/LightSim: constructor, step, getters and log with arrays of households and bulbs | one step per entry of the arrays (trueAt, chosen, setEntries), ranks of the draws are injective, induction on the history with an invariant that ties the times left to the steps a lamp has been on; the log entry of a step is the demand before it, so the full property is refuted by a concrete simulation | Everything proved for every history but the log: the simulator lets the logger visit before it updates the lamps, so that the entry of a step holds the demand of the step before (proved exactly; counterexample for the full statement C112_full). |
| C113 | CREST occupancy simulator from construction to getters, over whole simulations | partial | Model/CrestSim: constructor, steps with the change of matrices, initialisation and getters of Crest4StatesModel | load_spec from C102, one step per sub-simulator (Markov.Good), invariant on position and type of day, induction on the history; sub-simulators put together by position (rsOf); the counterexample is derived from the partial theorem | Proved for every history, with the slot and the type of day that the code really uses: the transition of a period uses the type of day of the period before, and until the first change of the type of day the slot that follows. The full statement C113_full (matrix of the period itself, up to a fixed shift) is refuted by C113_counterexample. |
| C114 | The whole load simulator keeps the households of its parts together | proved | Model/LoadSim: constructor, steps and power demand of LoadSimulator with the real activity, appliance and lighting simulators (Model/CrestSim, OccSim, LightSim), any climate and heating | run_spec by induction on the minutes; C109, C112, C113 for the parts; two courses with draws of which one is a prefix agree (course_unique) | Under LoadSetup: start at a multiple of ten minutes, both kinds of population of the loader the same (as in the CREST data; otherwise the simulators sample different populations), data for up to six active occupants. Climate and heating simulators are arbitrary. |
| C115 | The whole heating simulator simulates every household alone | proved | HeatSim | The arrays are tables of a function of the household; every operation of the model maps tables to tables, so that a step of the whole simulator is the step of Model/Heating in each household. Induction over the calls; the draws determine the types. | Arrays given by the user have one entry per household; NaN in external outputs is modelled, numpy broadcasting and division by zero parameters are not. One household alone is the model of C53-C59. |
| C116 | The heating of a load simulator heats each household by its own occupants and appliances | proved | LoadHeat | The load simulator of C114 with the heating of C115: the inputs of the minutes are chosen from C114_heating, the state of the heating is the run of these inputs by induction over the minutes, and C115 gives the households. | Under LoadBase (see C114), consistent heating data without other fuels than gas and electricity, and external inputs of one entry per household. The climate simulator is arbitrary. The aliasing of returned arrays is not modelled. |
| C117 | Each household of the subgroups activity simulator follows its own day-dependent course | partial | Model/SparseAct: construction of `SparseTransitStatesSimulator` and `SubgroupsActivitySimulator` over the models of `SparseTPM` (Model/Sparse) and of the steps and getters (Model/Activity) | one-step lemma from C14 (dead states, dense rows) and C43 (new day); induction over steps for a sub-simulator, induction over subgroups for the splitting of draws and the concatenation of getters | Proved for all valid data, histories and draws other than exactly 0 (a draw of 0 takes the last target of the row before, counterexample). The class of the day is that of the simulator's own clock, which is ahead by the steps of the initialisation (C72). |
| C118 | The load simulator with transit-states activities simulates each household by itself | partial | Model/LoadSim (`LoadAct`), Model/SparseAct | C114 and C116 are generalised to any activity simulator that can step (`LoadSim.run_full`, `fiveModules_run`); instance by C117, labels stay labels of a class of days, courses are unique; partial: draws of exactly 0 as in C117 | Missing: activity draws that are exactly 0, for which a household can go to a state of probability zero (C117_zero_draw_counterexample); floats are rationals; the climate is arbitrary; active occupancies that would be negative (more persons out than residents) are excluded by a hypothesis on the data. |
| C119 | The transit-states simulation from the survey follows recorded households | partial | Model/SurveySparse on top of Model/SurveyMask, Survey, SurveyTpm and SparseAct | the states of a household day are counted by the occupancy (C96), activity and subgroup (C98) theorems, the codes are those of the sorted labels, the matrices those of C94; the data are valid for C117, whose course is then followed step by step: a positive entry of a matrix has a recorded household behind it; witnesses for the last slot of the day and for the quarter | Missing, because false of the code: the matrix of the last slot of a day leads to the start of the same day, a change nobody recorded, and the quarter is counted from 0 by the simulator and from 1 by the survey, where 0 is no condition. The diaries of a household and day are at most six, and each class of days has a household all asleep at its start. |
| C120 | A climate loader returns the data of the last download | partial | Model/Ninja: the csv file per code and weighting, the parsed file per country name, creations and loads as sequences of writes that may be cut anywhere | invariant over histories (the csv file is the last download and the parsed file is absent or its parse), by induction from the end; repair and stability for all histories; counterexamples by evaluation and for all countries | Proved for all histories without interruption that use a country with one name and one weighting (other countries are arbitrary), and after an update for all histories. False otherwise: the parsed data is kept by name and not by weighting, a half-written download is accepted, an interrupted update keeps old data, an interrupted load leaves an unreadable file. |
| C121 | The climate simulator shows what was measured in the current hour | partial | Model/Ninja (columns of both datasets) with Model/Climate (`loadHistory`, `RealClimate`) | the parsed table is a grid of hourly values, then C63; counterexample for the irradiance by evaluation | Temperature and clock proved for both datasets, irradiance for Open Power System Data. For renewables.ninja the irradiance at the top of the atmosphere is added to the one at the surface, and the cloud cover is given as clearness. |
| C122 | Persons simulated from the time use survey follow the diaries of their kind | partial | Model/SurveyInd: transition data of the persons of a subgroup from the survey, with the masks of Model/SurveyMask, as data of Model/Individuals | refinement of the label tables to diaries, then the general theorems about the simulator of individuals; counterexamples by evaluation | Proved: the counts per household, the first activities, and each step with the pair of slots whose changes are really used. Missing, because false of the code: with kinds of days distinguished the changes used are those of the previous slot, an activity nobody of that day has is kept for ever, and when a label with several codes is recorded with none of them the persons doing it jump to another activity (excluded by a hypothesis). |
| C123 | A time use survey loader without the raw survey gives the data of the archive downloaded last | partial | Model/Archive: the archive per activity type, the folder per version and activity type, creations and loads as sequences of changes that may be cut anywhere | refinement to a small abstract machine (never, nothing, archive) by induction over histories; stability under all later events; counterexamples for all archives | Proved for all histories without interruption and with one version per activity type, and after a successful clearing for all histories. False otherwise: the archive is shared by the versions but unpacked only for the first, an interrupted download or unpacking is never repeated, clearing without network loses the data, and a first loader cannot clear. |
| C124 | The real load profiles are those of the tracebase archive downloaded last | partial | Model/Archive: the archive, the unpacked files and the parsed profiles per version, whole seconds and type | invariant over histories (unpacked files are those of the last archive, parsed files absent or computed from them); counterexamples for all archives and parsers | Proved for all histories without interruption in which one version and step size does the updates, with success, and the archive keeps its file names; other versions and step sizes are arbitrary otherwise. False otherwise: an update leaves the profiles of other step sizes, a failed update and a retry leave the old ones, files removed from the archive stay, an interrupted unpacking gives a part of the profiles silently. |
| C125 | The 4-states simulation from the survey follows recorded households | partial | Model/SurveyFour: the matrices and starting shares parsed from the survey for a number of residents and a type of day; Model/CrestSim with any loader | the data are shares of recorded households (counting over the grouped diaries); the invariant of the simulator proved once for any data and refresh time; counterexample with a survey of two diaries evaluated over 204 periods | Proved for all surveys in which every situation of the household sizes was recorded, all populations, starts at a multiple of ten minutes and draws: the exact changes used in each period are stated. If a situation was never recorded the simulator cannot be made (ValueError). False: after the first change of the type of day the changes come ten minutes late, the last period of a diary day uses the change before, and the first period after a change of the day those of the previous day; from a start between 0:00 and 4:00 on Saturday or Monday the first situation is that of the wrong type of day. |
| C126 | States from transitions | partial | Model/Atus (transitionsToStates) | loop invariant over the times: the state is that of the latest transition; uniqueness of that state; C17 for the rebuilding | the states, the accepted arguments and the errors are exact; the rebuilding is false for diaries without any transition (ValueError), for which the full statement C126_full is refuted, and needs the sizes; without initial states it needs one transition per person at time 0 |
| C127 | Removing repeated transitions keeps the states | partial | Model/Atus (maskRemoveFake) | induction over the list with the state carried by the last transition kept | exact mask; the states are kept when the sizes are given; with a deduced number of times the array can shrink (C127_full is refuted) |
| C128 | Transition matrices from transitions | proved | Model/Atus (buildTransitionMatrices) | the counts of pairs of consecutive rows; sum of the counts over the new states | the index list is read as a tuple of index arrays, as numpy before 1.23 does |
| C129 | Sheets of the excel input file are read column by column | partial | Model/InputFile | A dictionary comprehension keeps, for each key, the last value (induction over the columns from the right); cells are cleaned one by one. Content, accepted sheets and refusals are equivalences; two counterexamples. | The exact content of the dictionary and the accepted sheets are proved for every sheet. That no column is lost holds if the labels differ up to spaces, and is refuted otherwise; an empty cell of a column of yes and no is read as yes. |
| C130 | Each appliance of the input file gets its own yearly number of uses | partial | Model/InputFile, Utils | Content of the dictionary of targets by the same lemma; composed with C31 for what the simulators read. Counterexample: two appliances of one type. | What each appliance gets is proved for every sheet whose types are not named like copies of another type. Each appliance gets the target of its own row if the types are distinct; refuted for two appliances of one type, as in the file that comes with the package: the first one gets the target of the last and the others 0. |
| C131 | Transitions of households count the persons who change state | partial | Model/Grouping | Counting of the records of C17 by their five columns; the order of the columns is a strict total order, so each is once in the result. With secondary states from the events of C19; counterexample from C19. | Proved for diaries without secondary states, and with secondary states if no time step has both a vanished primary and a vanished secondary state. Refuted otherwise: the transitions are attributed to the household of another person. |
| C132 | The statistics of the bulbs keep the bulbs of the surveyed houses | proved | Model/Grouping | Counting of equal powers; conservation of the number and of the power of the bulbs by induction on the table; composed with C91 for the households. | The model has the variance in place of its square root. |
| C133 | The example simulators count their occupants | partial | Example | induction on the history over the generic simulator of C01 and C03 | Everything proved for every history but the bounds: nothing keeps the occupants between 0 and max_residents (C133_full is refuted), and a random start never reaches max_residents. |
| C134 | Heating patterns are attributed by the published shares and simulated per household | partial | Patterns | the intervals of C09 for each distribution; the six masked updates reduce to the one of the own pattern, then induction on the history | Attribution, schedules and independence of the households are proved for all draws and histories, for a simulator created without optional arguments. The last sentence is false: with any optional argument at all the constructor raises an error (C134_arguments_counterexample), so C134_full is refuted. |
| C135 | The daily mean temperatures follow the documented ARMA model | partial | Arma | induction on the days for the closed form; bound by the geometric series | Closed form and stability are proved for all coefficients and draws. The process is not ARMA(1,1): the recursion continues from the autoregressive part instead of the process itself, so the noise of two days ago is missing, weighted with both coefficients; it is ARMA(1,1) iff one coefficient is zero, which is not so for CREST (C135_full is refuted). |
| C136 | Set points and deadbands of the German thermostats | proved | Model/SetPoints | The tables are compared with the model by the kernel; the draws by induction on the households with the sampling theorem; the bands by induction on the steps | Rationals instead of floats: the cumulated shares end at exactly 1. |
| C137 | Refused requests raise the announced exception | partial | Model/Refusals | str.format by induction on the parts of the template; the refusals are instances | False for two requests: the German Fisher lighting gives one argument to a template with two fields (IndexError), the CREST population types give positional arguments to named fields (KeyError). Proved for the others. |

No property is considered inexpressible. Statistical statements (that frequencies converge, that the random generator is good) are not
in the list: draws are universally quantified instead.

## What is modelled

| module | code |
|----|----|
| Model/Logger, Multi, Time | `simulators/base_simulators.py`: SimLogger, cached_getter, Simulator, MultiSimulator, TimeAwareSimulator, Callbacks |
| Model/Markov | `simulators/activity_simulators.py`: MarkovChain1rstOrder, SemiMarkovSimulator |
| Model/Activity | `activity_simulators.py`: persons, getters and refresh of SubgroupsIndividualsActivitySimulator; `sparse_simulators.py`: packed labels, steps, new days, occupancy; `crest_simulators.py:92-341`: CREST four states model |
| Model/Equip | `simulators/appliance_simulators.py`: construction (subgroups, ownership, profiles, switch-on probabilities, compatible appliances) |
| Model/Follow | `simulators/appliance_simulators.py`: the step of `ProbabiliticActivityAppliancesSimulator` for all appliances |
| Model/Appliance | `simulators/appliance_simulators.py`: state machines, getters and steps of the four simulators, profile clock |
| Model/Lighting, Bulbs, Cars | `simulators/lighting_simulators.py`, `simulators/car_simulator.py`, washing machine of `crest_simulators.py` |
| Model/Heating, Thermostat | `simulators/heating_simulators.py` |
| Model/Climate, Solar, Temperature | `simulators/weather_simulators.py`, `load_historical_climate_data` |
| Model/Load | `simulators/load_simulators.py`: step and power |
| Model/Sampling | `utils/monte_carlo.py`, `utils/distribution_functions.py`, `sample_population` |
| Model/Sparse | `utils/sparse.py` |
| Model/Parse | `utils/parse_helpers.py` |
| Model/Metrics, Graph, Similarity | `metrics/*.py` |
| Model/Utils | `simulators/util.py`, `utils/appliances.py`, `utils/subgroup_handling.py`, `utils/countries.py`, `utils/converters.py` |
| Model/Survey | `datasets/GermanTOU/parser.py`: occupancy, households, sparse matrices |
| Model/SurveyStats | `datasets/GermanTOU/parser.py`, `loader.py`: activity states, profiles, durations, probabilities, daily starts |
| Model/Individuals | `simulators/activity_simulators.py` 551-874: construction, steps and refresh of `SubgroupsIndividualsActivitySimulator` with first order chains |
| Model/SemiIndividuals | `simulators/activity_simulators.py` 551-874 with `SemiMarkovSimulator`s as sub-simulators: construction, steps and new days |
| Model/SurveyMask | `datasets/GermanTOU/parser.py`: `get_mask_subgroup` |
| Model/Crest | `datasets/CREST/loader.py`: transition matrices, activity profiles, ownership, appliance arrays, clearness; the sheets are arguments |
| Model/Destatis | `datasets/DESTATIS/loader.py`: populations, columns of the report, ownership; the table is an argument |
| Model/OccSim | `simulators/appliance_simulators.py` 109-170, 553-569, 642-798, 848-1252: the whole OccupancyApplianceSimulator with its arrays |
| Model/ActSim | `simulators/appliance_simulators.py` 109-170, 532-620, 642-845, 1271-1493: the whole ActivityApplianceSimulator with its arrays and the first visit of the logger |
| Model/ProbActSim | `simulators/appliance_simulators.py` 109-170, 571-636, 661-701, 786-845, 1542-1956: the whole ProbabiliticActivityAppliancesSimulator with its arrays and the cache of `get_current_usage`; `n_steps_till_refresh` and the initialisation steps are left out |
| Model/LightSim | demod/simulators/lighting_simulators.py 149-449 (whole simulator with log) |
| Model/CrestSim | `simulators/crest_simulators.py` 100-341 (whole Crest4StatesModel) with `simulators/base_simulators.py` 545-645, 696-803 |
| Model/LoadSim | `simulators/load_simulators.py` 26-57, 186-359 (whole LoadSimulator, SubgroupsActivitySimulator or Crest4StatesModel as activity simulator; climate and heating arbitrary) |
| Model/HeatSim | heating_simulators.py 418-2040: the whole simulator on arrays, its construction from the data |
| Model/LoadHeat | `simulators/load_simulators.py` 252-260, 320-343, 361-374: LoadSimulator with its FiveModulesHeatingSimulator, heat getters |
| Model/SparseAct | `sparse_simulators.py` 86-159, 230-281, 417-462, 623-684 (construction, several subgroups; `load_sparse_tpm` is a parameter, a list-valued `n_residents` and loggers are not modelled) |
| Model/SurveySparse | `GermanTOU/parser.py` 1875-1933 (`get_data_sparse9states`) and its call by `loader.py` 224-238 with the keyword arguments of the subgroup and of the day; the files of parsed data are not modelled |
| Model/Ninja | `RenewablesNinja/loader.py` 56-166 (download, removal of parsed data, columns), `base_loader.py` 852-911 with its cache, `OpenPowerSystems/loader.py` 44-77, `utils/countries.py` | folders are taken to exist; a csv line cut in the middle and empty fields (`NaN`) are not modelled; the server is an arbitrary reply |
| Model/SurveyInd | `GermanTOU/parser.py` 1732-1822 (`get_tpms_activity` and the keyword arguments of a person) as data of the simulator of individuals, called by `loader.py` `_parse_tpm`; the files of parsed data are not modelled |
| Model/Archive | `GermanTOU/loader.py` 71-151 and `tracebase/loader.py` 96-131 (downloads, unpacking, clearing) with the load methods on the files; the contents of the files and the parsers are parameters; the removal of a folder is one change; the legend files are not modelled |
| Model/SurveyFour | `GermanTOU/loader.py` 154-158 with `parser.py` 1824-1873 (`get_data_4states` without durations) as data of the 4-states simulator; the files of parsed data are not modelled |
| Model/Atus | `datasets/ATUS/parse_data.py`: `transitions_to_states`, `build_transition_matrices`, `get_mask_remove_fake_transitions` | natural numbers; the script around the functions and `build_timed_based_transition_matrices` are not modelled |
| Model/InputFile | `ExcellInputFile/loader.py` (appliances, buildings, heating systems, yearly targets), `remove_spaces` | a sheet is the list of its columns as pandas reads it, with labels that are texts; the lighting sheets, which only pick cells at fixed places, are not modelled |
| Model/Grouping | `group_hh_transitions`, `bulbs_stats_from_config` of `parse_helpers.py` | states, households and days are natural numbers; variance in place of the standard deviation |
| Model/Example | `ExampleSimulator`, `TimeAwareExampleSimulator` | counts are integers; arrays of another length are excluded by typing |
| Model/Patterns | heating_simulators.py 60-362: attribution of the patterns, schedule draws, optional arguments, arrays of all households | random draws are inputs, indexed by household |
| Model/Arma | weather_simulators.py 347-353, 408-433: ARMA variables and mean temperature of the days; CREST/loader.py 519-534 | rationals instead of floats; the sine of the day of the year is a parameter |
| Model/SetPoints | the thermostat dictionary of the German data, the draws of the set points, the initial states and the bands | floats; the subgroup is ignored as in the code |
| Model/Refusals | str.format with {} and {name} fields; the refusing branches of four loader methods | format specifications, numbered fields, doubled braces; the files that are read otherwise |
| Model/Store, Profiles | `datasets/base_loader.py`, `datasets/tou_loader.py`, `datasets/tracebase/loader.py` |

## Findings

Behaviour of the code that a user would not expect. Where a theorem is named, it is proved of the model; the others were noticed while reading the code.

* **Logs.** A logger visits `ActivityApplianceSimulator` before the always-on appliances are switched on (`C110_first_log_counterexample`); the log of `CrestLightingSimulator` lags one step behind (`C112_counterexample`).
* **Arguments changed in place.** `OccupancyApplianceSimulator` writes the kind of day into the subgroup dictionaries given to it (`C109_arguments_counterexample`). `get_room_temperature` and `get_temperatures` return arrays that later steps change.
* **Activity appliances.** An activity left out of one step makes the next step fail (`C110_missing_counterexample`). `ProbabiliticActivityAppliancesSimulator` works only if exactly one appliance follows another (`C111_counterexample`), and
  turns always-on appliances off for good (`C111_always_on_counterexample`); getters called between its steps change the simulation (C78). In its initialisation steps it passes itself as the activities.
* **CREST occupancy.** The first transition after midnight uses the matrix of the day before, and the slot is shifted by one until the first change of the type of day (`C113_counterexample`).
* **LoadSimulator.** The fallback to `Crest4StatesModel` samples its own population with `'resident_number'`: its households are those of the appliances only if both kinds of population of the loader are the same (hypothesis `same` of C114).
  The activity simulator makes a step in minutes 0, 10, …: it is ahead of the clock (`C61_activity_ahead_counterexample`). Without heating, the getters of the heat demand raise an `AttributeError`.
  An unexpected kind of model parameter creates a `TypeError` without raising it, and then fails with an `UnboundLocalError`.
* **External heating.** NaN in an array `external_heat_outputs` counts as an external space heating of 0 where the space heating was off (`C59_nan_array_counterexample`). A list in its place is ignored without a message, and a dictionary is
  changed in place. `set_external_heating_system` does not clear the cache of the getters. An unknown `heatdemand_algo` is accepted by the constructor and fails at the first step.
* **Sparse simulators.** The quarter in `sparse_simulators.py` is `(month-1)//3`, in `add_time` counted from one. On new days a label is put where a position is needed for labels that do not exist any more (C43).
* **Individuals.** With kinds of days the slot lags one period after a refresh; with a start that is not aligned the data are never refreshed (C99, C108).
* **Lists.** A list of active occupants instead of an array given to `CrestLightingSimulator` is compared with `== 0` as a whole, which has no effect.
* **CREST data.** `inactive_switch_off` uses `np.logical_or(a, b, c)`, where `c` is the output argument (C105). Types of appliances named like numbered copies collide in the ownership data (C103). `load_tpm` looks in the folder `4_States`.
* **DESTATIS.** An income of 0 is a `ValueError`; more than five residents an `AssertionError`; lone parents of four children are read from column 17 (C106, C107).
* **German survey.** `states_to_occupancy` uses the mask of travellers for another purpose (line 1594, C92); the last matrix of `states_to_sparse_tpm(..., 'last')` overwrites matrix 0 (C94); secondary activities are taken from the primary ones;
  `get_states` with `add_away_state=False` fails with an `UnboundLocalError`; daily starts do not add up to one (C97); durations fail with an `IndexError` if nobody changes activity.
* **Metrics.** `levenshtein_edit_distance` confuses values from 10 on (C100); `profiles_variety(average=False)` returns the condensed list of pairs (C101).

## What is not modelled

* plotting (`SimLogger.plot*`, `utils/plotters.py`), documentation helpers (`utils/cards_doc.py`, `inherit_getters_docstring`), warnings and messages;
* reading of Excel, CSV and ods files and downloads; the column names of raw surveys;
* inside scipy (`cdist` and `pdist` are modelled for an arbitrary distance) and inside `python-Levenshtein` (its recurrence is modelled);
* the legacy classes of `crest_simulators.py` from line 344 on (CRESTAppliancesSimulator, CRESTLightingSimulator,
  HeatingControlsSimulator, HeatingSystemSimulator), apart from the washing machine: they read files that are not part of the
  repository, and HeatingSystemSimulator calls a method that does not exist; the classes in use are modelled instead;
* rounding of floats, performance, memory.
