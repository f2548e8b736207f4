{
 "claims": [
  {
   "property": "C01",
   "status": "proved",
   "theorems": [
    "ISO.Props.C01_case_insensitive",
    "ISO.Props.C01_put_visible"
   ],
   "note": "every store, every pair of keys equal up to ASCII case"
  },
  {
   "property": "C02",
   "status": "proved",
   "theorems": [
    "ISO.Props.C02_lookup",
    "ISO.Props.C02_building_beats_defaults",
    "ISO.Props.C02_keys"
   ],
   "note": "every construction (empty, one file, two files) and every sequence of puts"
  },
  {
   "property": "C03",
   "status": "proved",
   "theorems": [
    "ISO.Props.C03_loads_iff",
    "ISO.Props.C03_first_error",
    "ISO.Props.C03_ignored_lines",
    "ISO.Props.C03_definition",
    "ISO.Props.C03_crlf",
    "ISO.Props.C03_crlf_two",
    "ISO.Props.C03_cannotOpen",
    "ISO.Props.C03_cannotOpen_two"
   ],
   "note": "every text"
  },
  {
   "property": "C04",
   "status": "proved",
   "theorems": [
    "ISO.Props.C04_round_trip",
    "ISO.Props.C04_save_load"
   ],
   "note": "every list of writable pairs; every loaded object"
  },
  {
   "property": "C05",
   "status": "proved",
   "theorems": [
    "ISO.Props.C05_bool",
    "ISO.Props.C05_int",
    "ISO.Props.C05_double",
    "ISO.Props.C05_csv",
    "ISO.Props.C05_vector",
    "ISO.Props.C05_quoted",
    "ISO.Props.C05_badEscape",
    "ISO.Props.C05_overloads"
   ],
   "note": "std::stoi and the boost tokenizer are modelled; std::stod is a parameter. With a bad escape the two vector overloads can differ (one returns false, the other throws)."
  },
  {
   "property": "C11",
   "status": "proved",
   "theorems": [
    "ISO.Props.C11_table_size",
    "ISO.Props.C11_slice",
    "ISO.Props.C11_bijection",
    "ISO.Props.C11_monthLength"
   ],
   "note": "all 8760 slices; structural induction over the constructor loops"
  },
  {
   "property": "C12",
   "status": "proved",
   "theorems": [
    "ISO.Props.C12_month",
    "ISO.Props.C12_calendar",
    "ISO.Props.C12_exactly_once",
    "ISO.Props.C12_total",
    "ISO.Props.C12_short"
   ],
   "note": "all series of 8760 values, including infinities and NaN"
  },
  {
   "property": "C28",
   "status": "proved",
   "theorems": [
    "ISO.Props.C28_aggregated",
    "ISO.Props.C28_order",
    "ISO.Props.C28_fail_together"
   ],
   "note": "all models, including repeated runs on the same object; C28_order for every arithmetic (the order of the additions)"
  },
  {
   "property": "C13",
   "status": "proved",
   "theorems": [
    "ISO.Props.C13_schedule",
    "ISO.Props.C13_equipment",
    "ISO.Props.C13_empty",
    "ISO.Props.C13_whole",
    "ISO.Props.C13_runs"
   ],
   "note": "every occupancy window (fractional ones included), every hour of the year"
  },
  {
   "property": "C19",
   "status": "proved",
   "theorems": [
    "ISO.Props.C19_altitude",
    "ISO.Props.C19_azimuth",
    "ISO.Props.C19_unit",
    "ISO.Props.C19_incidence",
    "ISO.Props.C19_never_zenith"
   ],
   "note": "every site, day, hour and surface"
  },
  {
   "property": "C20",
   "status": "proved",
   "theorems": [
    "ISO.Props.C20_sum",
    "ISO.Props.C20_bounds",
    "ISO.Props.C20_total",
    "ISO.Props.C20_below_horizon",
    "ISO.Props.C20_night",
    "ISO.Props.C20_midnight"
   ],
   "note": "every site, day, hour and irradiance; when and that totals are negative below the horizon is proved, with every midnight in Chicago as a case"
  },
  {
   "property": "C21",
   "status": "proved",
   "theorems": [
    "ISO.Props.C21_hour",
    "ISO.Props.C21_year",
    "ISO.Props.C21_results"
   ],
   "note": "no hypotheses: also for NaN and infinite inputs"
  },
  {
   "property": "C22",
   "status": "proved",
   "theorems": [
    "ISO.Props.C22_hour",
    "ISO.Props.C22_year",
    "ISO.Props.C22_results"
   ],
   "note": "every physically meaningful building; every reachable state"
  },
  {
   "property": "C24",
   "status": "proved",
   "theorems": [
    "ISO.Props.C24_average",
    "ISO.Props.C24_decay"
   ],
   "note": "induction over the number of hours"
  },
  {
   "property": "C23",
   "status": "proved",
   "theorems": [
    "ISO.Props.C23_hour",
    "ISO.Props.C23_results"
   ],
   "note": "every hour of every physically meaningful simulation whose radiation comes from above the horizon"
  },
  {
   "property": "C25",
   "status": "proved",
   "theorems": [
    "ISO.Props.C25_split",
    "ISO.Props.C25_delivered",
    "ISO.Props.C25_boiler",
    "ISO.Props.C25_chiller"
   ],
   "note": "split: every model incl. NaN; totals: every physically meaningful simulation; boiler and chiller: the results of two runs that differ only in the efficiency, in terms of the results alone. C73 says every number of every hour in terms of the inputs."
  },
  {
   "property": "C26",
   "status": "proved",
   "theorems": [
    "ISO.Props.C26_dichotomy",
    "ISO.Props.C26_finite",
    "ISO.Props.C26_no_demand",
    "ISO.Props.C26_still"
   ],
   "note": "a reachable NaN result (building without any demand) is exhibited"
  },
  {
   "property": "C27",
   "status": "proved",
   "theorems": [
    "ISO.Props.C27_twice",
    "ISO.Props.C27_history",
    "ISO.Props.C27_stale"
   ],
   "note": "all sequences of setter and simulate calls; C27_stale exhibits a changed window area that has no effect"
  },
  {
   "property": "C14",
   "status": "proved",
   "theorems": [
    "ISO.Props.C14_every_line",
    "ISO.Props.C14_header",
    "ISO.Props.C14_row"
   ],
   "note": "all files; text to number conversion is a parameter"
  },
  {
   "property": "C15",
   "status": "proved",
   "theorems": [
    "ISO.Props.C15_block",
    "ISO.Props.C15_full",
    "ISO.Props.C15_too_long"
   ],
   "note": "all block sizes, contents and earlier loads"
  },
  {
   "property": "C16",
   "status": "proved",
   "theorems": [
    "ISO.Props.C16_every_text",
    "ISO.Props.C14_row",
    "ISO.Props.C16_rest",
    "ISO.Props.C16_length",
    "ISO.Props.C16_full",
    "ISO.Props.C16_missing"
   ],
   "note": "all files and earlier loads"
  },
  {
   "property": "C17",
   "status": "proved",
   "theorems": [
    "ISO.Props.C17_means",
    "ISO.Props.C17_again",
    "ISO.Props.C17_between"
   ],
   "note": "all weather series incl. NaN and infinities; bins with any earlier content"
  },
  {
   "property": "C18",
   "status": "proved",
   "theorems": [
    "ISO.Props.C18_entries"
   ],
   "note": "Every monthly, hour-of-day and surface entry; printing and reading of a number are parameters."
  },
  {
   "property": "C44",
   "status": "proved",
   "theorems": [
    "ISO.Props.C44_keep",
    "ISO.Props.C44_drop",
    "ISO.Props.C44_every_text"
   ],
   "note": "For every delimiter, both modes, every text."
  },
  {
   "property": "C06",
   "status": "proved",
   "theorems": [
    "ISO.Props.C06_success",
    "ISO.Props.C06_failure",
    "ISO.Props.C06_kept",
    "ISO.Props.C06_iff",
    "ISO.Props.C06_defaults"
   ],
   "note": "Table of all 120 parameters is a separate specification (Spec/Parameters.lean). std::stod is any function."
  },
  {
   "property": "C07",
   "status": "proved",
   "theorems": [
    "ISO.Props.C07_order",
    "ISO.Props.C07_azimuth",
    "ISO.Props.C07_twice",
    "ISO.Props.C07_short"
   ],
   "note": "The slot of the accessors of each orientation is part of the model (Model/Parameters.lean slot)."
  },
  {
   "property": "C45",
   "status": "proved",
   "theorems": [
    "ISO.Props.C45_heating",
    "ISO.Props.C45_hotWater",
    "ISO.Props.C45_ventilation",
    "ISO.Props.C45_management",
    "ISO.Props.C45_reject",
    "ISO.Props.C45_effect"
   ],
   "note": "C45_effect ties the heating fuel code to the hourly simulation's end uses."
  },
  {
   "property": "C08",
   "status": "proved",
   "theorems": [
    "ISO.Props.C08_directory",
    "ISO.Props.C08_plain",
    "ISO.Props.C08_plain_wrong",
    "ISO.Props.C08_every_base"
   ],
   "note": "C08_plain_wrong is the defect."
  },
  {
   "property": "C09",
   "status": "proved",
   "theorems": [
    "ISO.Props.C09_monthly",
    "ISO.Props.C09_hourly",
    "ISO.Props.C09_revisit",
    "ISO.Props.C09_file"
   ],
   "note": "By induction over the history. C09_revisit is the disagreement between the two models. NaN coordinates are undefined behaviour in the model."
  },
  {
   "property": "C10",
   "status": "proved",
   "theorems": [
    "ISO.Props.C10_load",
    "ISO.Props.C10_loadWithDefaults",
    "ISO.Props.C10_weather",
    "ISO.Props.C10_exception",
    "ISO.Props.C10_kept",
    "ISO.Props.C10_kept_defaults",
    "ISO.Props.C10_build",
    "ISO.Props.C10_ready",
    "ISO.Props.C10_new",
    "ISO.Props.C10_unset",
    "ISO.Props.C10_last",
    "ISO.Props.C10_byHand",
    "ISO.Props.C10_setter",
    "ISO.Props.C10_byHand_unready"
   ],
   "note": "C10_ready by induction over histories of all operations."
  },
  {
   "property": "C42",
   "status": "proved",
   "theorems": [
    "ISO.Props.C42_actions",
    "ISO.Props.C42_once",
    "ISO.Props.C42_runs"
   ],
   "note": "Options after boost's parser. An execution without result (undefined behaviour of a simulation) is a separate outcome."
  },
  {
   "property": "C43",
   "status": "proved",
   "theorems": [
    "ISO.Props.C43_order",
    "ISO.Props.C43_lexicographic",
    "ISO.Props.C43_nan"
   ],
   "note": ""
  },
  {
   "property": "C46",
   "status": "proved",
   "theorems": [
    "ISO.Props.C46_overwritten",
    "ISO.Props.C46_block",
    "ISO.Props.C46_file"
   ],
   "note": "Weather objects live on a heap; pointers are positions in it."
  },
  {
   "property": "C29",
   "status": "proved",
   "theorems": [
    "ISO.Props.C29_fractions",
    "ISO.Props.C29_months",
    "ISO.Props.C29_justBefore"
   ],
   "note": "C29_justBefore is the disagreement: a window whose last day is the day before its first (seven days) is read as no day at all, and the weekday night fraction becomes negative."
  },
  {
   "property": "C30",
   "status": "proved",
   "theorems": [
    "ISO.Props.C30_dark",
    "ISO.Props.C30_sun",
    "ISO.Props.C30_temperature",
    "ISO.Props.C30_radiation"
   ],
   "note": "Clock hours are always counted from seven o'clock. A month without radiation is undefined behaviour."
  },
  {
   "property": "C31",
   "status": "proved",
   "theorems": [
    "ISO.Props.C31_year",
    "ISO.Props.C31_controls",
    "ISO.Props.C31_linear",
    "ISO.Props.C31_months",
    "ISO.Props.C31_evening"
   ],
   "note": "C31_evening is the disagreement: 24 hours too many for a window after the lighting day."
  },
  {
   "property": "C32",
   "status": "proved",
   "theorems": [
    "ISO.Props.C32_sum",
    "ISO.Props.C32_monotone",
    "ISO.Props.C32_order"
   ],
   "note": "C32_order also for infinities and NaN."
  },
  {
   "property": "C33",
   "status": "proved",
   "theorems": [
    "ISO.Props.C33_codes",
    "ISO.Props.C33_gain",
    "ISO.Props.C33_nonneg"
   ],
   "note": ""
  },
  {
   "property": "C34",
   "status": "proved",
   "theorems": [
    "ISO.Props.C34_level",
    "ISO.Props.C34_cap",
    "ISO.Props.C34_heating",
    "ISO.Props.C34_cooling",
    "ISO.Props.C34_between",
    "ISO.Props.C34_noSetUp",
    "ISO.Props.C34_everyDay",
    "ISO.Props.C34_noEffect"
   ],
   "note": "C34_cap for every input including infinities and NaN. C34_heating and C34_cooling give the temperature as the week's mean, with time integrals of the exponential decay. C34_noSetUp is a disagreement with the purpose of the set-up: it has no effect. C34_everyDay and C34_noEffect are another one: in a building occupied on all seven days of the week (or on one day), set-back has no effect at all, because the program divides by the length of the weekend days (of the nights between occupied days), which is zero."
  },
  {
   "property": "C35",
   "status": "proved",
   "theorems": [
    "ISO.Props.C35_flows",
    "ISO.Props.C35_natural",
    "ISO.Props.C35_tight"
   ],
   "note": "C35_tight is the disagreement for a building without infiltration."
  },
  {
   "property": "C36",
   "status": "proved",
   "theorems": [
    "ISO.Props.C36_factor",
    "ISO.Props.C36_heating",
    "ISO.Props.C36_cooling",
    "ISO.Props.C36_warm",
    "ISO.Props.C36_noGain",
    "ISO.Props.C36_warmHeating",
    "ISO.Props.C36_negativeGain",
    "ISO.Props.C36_one",
    "ISO.Props.C36_simulation"
   ],
   "note": "C36_negativeGain and C36_one are disagreements. Exact reals: the smallest double added to denominators shows in the bounds."
  },
  {
   "property": "C37",
   "status": "proved",
   "theorems": [
    "ISO.Props.C37_gains",
    "ISO.Props.C37_losses",
    "ISO.Props.C37_inertia",
    "ISO.Props.C37_limit"
   ],
   "note": "By strict convexity of powers. At ratio one exactly the program gives NaN (C36_one)."
  },
  {
   "property": "C38",
   "status": "proved",
   "theorems": [
    "ISO.Props.C38_loss",
    "ISO.Props.C38_heating",
    "ISO.Props.C38_cooling",
    "ISO.Props.C38_twice",
    "ISO.Props.C38_noDemand"
   ],
   "note": "C38_twice and C38_noDemand are disagreements."
  },
  {
   "property": "C39",
   "status": "proved",
   "theorems": [
    "ISO.Props.C39_shared",
    "ISO.Props.C39_single",
    "ISO.Props.C39_largest"
   ],
   "note": "C39_largest is a disagreement."
  },
  {
   "property": "C40",
   "status": "proved",
   "theorems": [
    "ISO.Props.C40_fuel",
    "ISO.Props.C40_year",
    "ISO.Props.C40_factor"
   ],
   "note": ""
  },
  {
   "property": "C41",
   "status": "proved",
   "theorems": [
    "ISO.Props.C41_layout",
    "ISO.Props.C41_equipment",
    "ISO.Props.C41_defined"
   ],
   "note": "C41_layout for every input including infinities and NaN."
  },
  {
   "property": "C47",
   "status": "proved",
   "theorems": [
    "ISO.Props.C47_gains",
    "ISO.Props.C47_unoccupied",
    "ISO.Props.C47_periods"
   ],
   "note": ""
  },
  {
   "property": "C48",
   "status": "proved",
   "theorems": [
    "ISO.Props.C48_fans",
    "ISO.Props.C48_least"
   ],
   "note": ""
  },
  {
   "property": "C49",
   "status": "proved",
   "theorems": [
    "ISO.Props.C49_finite",
    "ISO.Props.C49_numbers",
    "ISO.Props.C49_tie"
   ],
   "note": "C49_tie proves a disagreement: one month whose gain equals its loss exactly makes the cooling and heating results of every month NaN."
  },
  {
   "property": "C50",
   "status": "proved",
   "theorems": [
    "ISO.Props.C50_hour",
    "ISO.Props.C50_unique",
    "ISO.Props.C50_year",
    "ISO.Props.C50_course"
   ],
   "note": "Spec/HeatBalance.lean states the network of the building from the input records alone. First simulation of a new object (repeated runs: C27)."
  },
  {
   "property": "C51",
   "status": "proved",
   "theorems": [
    "ISO.Props.C51_program"
   ],
   "note": "The text of a single number is a parameter (any text without newline, comma, bar and blank)."
  },
  {
   "property": "C52",
   "status": "proved",
   "theorems": [
    "ISO.Props.C52_deterministic",
    "ISO.Props.C52_results",
    "ISO.Props.C52_default",
    "ISO.Props.C52_defined"
   ],
   "note": "C52_deterministic for every file system, also with files that are missing or rejected."
  },
  {
   "property": "C53",
   "status": "proved",
   "theorems": [
    "ISO.Props.C53_exists",
    "ISO.Props.C53_least",
    "ISO.Props.C53_setpoints",
    "ISO.Props.C53_gains"
   ],
   "note": "One hour from a given start: over several hours the infiltration depends on the indoor temperature, so needs are compared hour by hour; whole years are compared in C72."
  },
  {
   "property": "C54",
   "status": "proved",
   "theorems": [
    "ISO.Props.C54_hourly"
   ],
   "note": "Hypothesis: a daylit area of at least 0.0001 m2, because the code replaces a smaller one by this constant, which does not grow with the building."
  },
  {
   "property": "C55",
   "status": "proved",
   "theorems": [
    "ISO.Props.C55_causal"
   ],
   "note": "Results by hour (without aggregation). For every arithmetic, rounded floating point included."
  },
  {
   "property": "C56",
   "status": "proved",
   "theorems": [
    "ISO.Props.C56_hotWater",
    "ISO.Props.C56_heatingSystem",
    "ISO.Props.C56_coolingSystem",
    "ISO.Props.C56_distribution",
    "ISO.Props.C56_pumps",
    "ISO.Props.C56_hourlyOnly",
    "ISO.Props.C56_exteriorLights",
    "ISO.Props.C56_fans",
    "ISO.Props.C56_comfort",
    "ISO.Props.C56_interiorLights",
    "ISO.Props.C56_electricAppliances",
    "ISO.Props.C56_gasAppliances",
    "ISO.Props.C56_hourly_exteriorLights",
    "ISO.Props.C56_hourly_exteriorEquipment",
    "ISO.Props.C56_hourly_heatingSystem",
    "ISO.Props.C56_hourly_coolingSystem",
    "ISO.Props.C56_hourly_distribution",
    "ISO.Props.C56_hourly_fans",
    "ISO.Props.C56_hourly_pumps",
    "ISO.Props.C56_hourly_monthlyOnly",
    "ISO.Props.C56_hourly_climate",
    "ISO.Props.C56_hourly_interiorLights",
    "ISO.Props.C56_hourly_electricAppliances",
    "ISO.Props.C56_occupancy",
    "ISO.Props.C56_floor",
    "ISO.Props.C56_management",
    "ISO.Props.C56_shades",
    "ISO.Props.C56_hourly_windows",
    "ISO.Props.C56_hourly_floor",
    "ISO.Props.C56_hourly_occupancy"
   ],
   "note": "The groups are the record updates take... of Spec/Effects.lean and Spec/EffectsInside.lean. For every arithmetic, rounded floating point included."
  },
  {
   "property": "C57",
   "status": "proved",
   "theorems": [
    "ISO.Props.C57_call",
    "ISO.Props.C57_history",
    "ISO.Props.C57_refused",
    "ISO.Props.C57_whole",
    "ISO.Props.C57_order"
   ],
   "note": "all 198 getter and setter pairs of UserModel, the four keyword setters, the nine vector setters; histories of any length by induction"
  },
  {
   "property": "C58",
   "status": "proved",
   "theorems": [
    "ISO.Props.C58_pairs",
    "ISO.Props.C58_scalar",
    "ISO.Props.C58_array",
    "ISO.Props.C58_total",
    "ISO.Props.C58_init",
    "ISO.Props.C58_prod",
    "ISO.Props.C58_prod_undefined",
    "ISO.Props.C58_div",
    "ISO.Props.C58_largest",
    "ISO.Props.C58_smallest",
    "ISO.Props.C58_model"
   ],
   "note": "C58_model ties the notation of Model/Monthly to these loops. For every arithmetic, except quotient, maximum and minimum of a vector."
  },
  {
   "property": "C59",
   "status": "proved",
   "theorems": [
    "ISO.Props.C59_unique",
    "ISO.Props.C59_longest",
    "ISO.Props.C59_nothing",
    "ISO.Props.C59_every",
    "ISO.Props.C59_stod",
    "ISO.Props.C59_atof",
    "ISO.Props.C59_property"
   ],
   "note": "Values are exact, as everywhere at Dbl: rounding to 53 bits is not modelled. Numbers too small for a normal double are only covered as far as out_of_range is concerned."
  },
  {
   "property": "C60",
   "status": "proved",
   "theorems": [
    "ISO.Props.C60_number",
    "ISO.Props.C60_read",
    "ISO.Props.C60_exact",
    "ISO.Props.C60_library",
    "ISO.Props.C60_weather",
    "ISO.Props.C60_table"
   ],
   "note": "C60_table is C52_default with the library functions of the C and C++ standards in place of the parameters."
  },
  {
   "property": "C61",
   "status": "proved",
   "theorems": [
    "ISO.Props.C61_runs",
    "ISO.Props.C61_shading",
    "ISO.Props.C61_shipped"
   ],
   "note": "C61_shipped is about the text of test_data/SmallOffice_v2.ism, line by line."
  },
  {
   "property": "C62",
   "status": "proved",
   "theorems": [
    "ISO.Props.C62_definitions",
    "ISO.Props.C62_order",
    "ISO.Props.C62_irrelevant",
    "ISO.Props.C62_defaults",
    "ISO.Props.C62_weather"
   ],
   "note": "Weather files are compared when both have all 8760 rows."
  },
  {
   "property": "C63",
   "status": "proved",
   "theorems": [
    "ISO.Props.C63_needs",
    "ISO.Props.C63_hourly",
    "ISO.Props.C63_monthly",
    "ISO.Props.C63_negative",
    "ISO.Props.C63_exact"
   ],
   "note": "Contraction of a*b+c to one rounding is not covered. Numbers of the monthly model that depend on the heating and cooling need have no sign by C63_negative."
  },
  {
   "property": "C64",
   "status": "proved",
   "theorems": [
    "ISO.Props.C64_sums"
   ],
   "note": "For round to nearest, ties to even."
  },
  {
   "property": "C65",
   "status": "proved",
   "theorems": [
    "ISO.Props.C65_hourly",
    "ISO.Props.C65_monthly"
   ],
   "note": "For the monthly model, heating and cooling efficiencies; its other numbers that depend on the need have no sign by C63_negative."
  },
  {
   "property": "C66",
   "status": "proved",
   "theorems": [
    "ISO.Props.C66_gain",
    "ISO.Props.C66_hour",
    "ISO.Props.C66_daylight",
    "ISO.Props.C66_backwards",
    "ISO.Props.C66_backwards_hour"
   ],
   "note": "C66_hour is for one hour: over a year the air flow depends on the air temperature before; see C72 for whole years. The example building is in C66_backwards."
  },
  {
   "property": "C67",
   "status": "proved",
   "theorems": [
    "ISO.Props.C67_hour"
   ],
   "note": "For one hour, for the same reason as C66."
  },
  {
   "property": "C68",
   "status": "proved",
   "theorems": [
    "ISO.Props.C68_energy",
    "ISO.Props.C68_others"
   ],
   "note": "The formula is written out in Spec/MonthlyBalance.lean. The smallest normal double, which the program adds to denominators, is part of it. Months with equal gain and loss give NaN (C49_tie) and are excluded."
  },
  {
   "property": "C69",
   "status": "proved",
   "theorems": [
    "ISO.Props.C69_envelope",
    "ISO.Props.C69_sources"
   ],
   "note": "Without hot-cold waste: with it, the distribution loss of heating depends on the share of cooling in the year, and lower heating needs can go with higher losses."
  },
  {
   "property": "C70",
   "status": "proved",
   "theorems": [
    "ISO.Props.C70_last",
    "ISO.Props.C70_slots",
    "ISO.Props.C70_named",
    "ISO.Props.C70_printed",
    "ISO.Props.C70_total",
    "ISO.Props.C70_aggregated"
   ],
   "note": "The class EndUses of OpenStudio is not in the repository; it is modelled as a list of values with fuel and category whose getter adds them up. C70_last and C70_slots for every arithmetic."
  },
  {
   "property": "C71",
   "status": "proved",
   "theorems": [
    "ISO.Props.C71_heating",
    "ISO.Props.C71_cooling"
   ],
   "note": "The indoor temperatures, the losses and the needs are each monotone in the set-points."
  },
  {
   "property": "C72",
   "status": "proved",
   "theorems": [
    "ISO.Props.C72_heating",
    "ISO.Props.C72_cooling",
    "ISO.Props.C72_appliances",
    "ISO.Props.C72_sun"
   ],
   "note": "For buildings whose air exchange does not depend on the indoor temperature (WindDriven), without hot-cold waste, and years with results that are numbers. Induction over the hours with a comparison principle; the totals by the energy balance of the whole year."
  },
  {
   "property": "C73",
   "status": "proved",
   "theorems": [
    "ISO.Props.C73_exists",
    "ISO.Props.C73_unique",
    "ISO.Props.C73_results",
    "ISO.Props.C73_no_demand",
    "ISO.Props.C73_months",
    "ISO.Props.C73_months_no_demand"
   ],
   "note": "All thirteen end uses of all hours against a specification (Spec/HourlyWhole.lean) that uses only the input records; existence and uniqueness of the course; the NaN of a year without demand included."
  },
  {
   "property": "C74",
   "status": "proved",
   "theorems": [
    "ISO.Props.C74_byHour",
    "ISO.Props.C74_byMonth",
    "ISO.Props.C74_monthly",
    "ISO.Props.C74_all"
   ],
   "note": "Composes file reading (C01-C10, C52, C59), weather (C57, C16, C17), the hourly specification (C73), the monthly formulas (C68) and printing (C60). The monthly theorem is for ordinary months (no month exactly at gain/loss ratio one), as in C68. Numbers are real numbers up to the digits that are printed; rounding of binary64 is treated in C62-C65."
  },
  {
   "property": "C75",
   "status": "proved",
   "theorems": [
    "ISO.Props.C75_monthly",
    "ISO.Props.C75_hourly",
    "ISO.Props.C75_line",
    "ISO.Props.C75_monthly_kinds",
    "ISO.Props.C75_hourly_kinds",
    "ISO.Props.C75_every"
   ],
   "note": "The groups are lists of parameter names as they stand in the file (Spec/Editing.lean); C75_every: every parameter the program knows is in a group, for the monthly and for the hourly tables. For the kinds of shading devices (monthly) and the hours of occupancy (hourly) it is assumed that the program runs to its end with both files, since a kind that does not exist is undefined behaviour."
  },
  {
   "property": "C76",
   "status": "proved",
   "theorems": [
    "ISO.Props.C76_print",
    "ISO.Props.C76_read",
    "ISO.Props.C76_boiler",
    "ISO.Props.C76_chiller",
    "ISO.Props.C76_thermostat",
    "ISO.Props.C76_cooling",
    "ISO.Props.C76_envelope",
    "ISO.Props.C76_setback",
    "ISO.Props.C76_setup",
    "ISO.Props.C76_appliances",
    "ISO.Props.C76_sun",
    "ISO.Props.C76_monthly_boiler",
    "ISO.Props.C76_monthly_chiller"
   ],
   "note": "Order of the decimal values of the cell texts. The hourly theorems hold for both hourly tables; in a year without any demand the cells say nan in both. The monthly theorems have the conditions of C69 and C71 on the months. Appliances, sun protection and set-points (C76_setback, C76_setup): hourly tables, under the conditions of C72 (air change driven by the wind, heavy enough mass)."
  },
  {
   "property": "C77",
   "status": "proved",
   "theorems": [
    "ISO.Props.C77_monthly",
    "ISO.Props.C77_monthly_any",
    "ISO.Props.C77_hourly"
   ],
   "note": "For every pair of weather files that YearFile describes; the hourly theorem needs no condition on the building beyond that the program accepts the file."
  },
  {
   "property": "C78",
   "status": "proved",
   "theorems": [
    "ISO.Props.C78_warmer",
    "ISO.Props.C78_printed",
    "ISO.Props.C78_monthly",
    "ISO.Props.C78_monthly_printed"
   ],
   "note": "Hourly: under the conditions of C72: air change driven by the wind, heavy enough mass, no waste by simultaneous heating and cooling, heat recovery between 0 and 1. Monthly: for a building kept at the same temperatures all week, heating in the months that are on average colder outside than the set-point."
  },
  {
   "property": "C79",
   "status": "proved",
   "theorems": [
    "ISO.Props.C79_year",
    "ISO.Props.C79_printed"
   ],
   "note": "Under the conditions of C72 (air change driven by the wind, heavy enough mass, no waste), for a year that ColdYear describes (Spec/ColdYear.lean): the condition on the mass is checked on one steady state with the lowest temperature outdoors. Lamps, appliances and sun only give heat (OnlyGains)."
  },
  {
   "property": "C80",
   "status": "proved",
   "theorems": [
    "ISO.Props.C80_getters",
    "ISO.Props.C80_call",
    "ISO.Props.C80_history"
   ],
   "note": "Spec/Settings.lean gives the line of every setting and when a line and a call say the same (SaysSame). C80_history: load and calls against load of the file with the lines on top, with the weather file apart from the building file. Settings that no line gives (Accessor.extra) have no line to agree with and are left out; C57 covers their setters."
  },
  {
   "property": "C81",
   "status": "proved",
   "theorems": [
    "ISO.Props.C81_month",
    "ISO.Props.C81_hours",
    "ISO.Props.C81_months"
   ],
   "note": "C81_month is the table of the monthly simulation, C81_hours and C81_months the two tables of the hourly one, each on the text that the program prints. The specification is Spec/WeatherTime.lean. WeatherTimeCases.lean runs the mended office with a constant year and with one that is warmer from February on."
  },
  {
   "property": "C82",
   "status": "proved",
   "theorems": [
    "ISO.Props.C82_sensitivity",
    "ISO.Props.C82_forgets",
    "ISO.Props.C82_ratio"
   ],
   "note": "C82_sensitivity bounds the difference in every hour, C82_forgets the difference k hours after the last difference of the weather, C82_ratio says that the ratio lies in [0, 1). All constants are explicit in Spec/Memory.lean. The conditions (WindDriven, HeavyEnough, PlainSystems) are those of C72 and C78. The example runs the small office in the windy year and the same year with a January that is four degrees colder."
  },
  {
   "property": "C83",
   "status": "proved",
   "theorems": [
    "ISO.Props.C83_monthly",
    "ISO.Props.C83_hourly",
    "ISO.Props.C83_halfHours"
   ],
   "note": "Statements about whole runs of the program, from the two files to the text of the tables. SameSun in Spec/SolarClock.lean says when two places have the sun alike. C83_halfHours is a disagreement with the EPW format, which has half-hour zones: EpwData.cpp casts the zone to int (DESIGN.md, section 6). The examples compare the file of Chicago with one 15 degrees and an hour to the east and one with time zone -6.5."
  },
  {
   "property": "C84",
   "status": "proved",
   "theorems": [
    "ISO.Props.C84_hourly",
    "ISO.Props.C84_monthly",
    "ISO.Props.C84_water",
    "ISO.Props.C84_district"
   ],
   "note": "Exact equality of the printed texts. C84_monthly assumes that the two efficiencies of a district system are not zero (they are used although there is none: a zero would put DBL_MAX into the gas column)."
  },
  {
   "property": "C85",
   "status": "proved",
   "theorems": [
    "ISO.Props.C85_hourly",
    "ISO.Props.C85_hourly_overnight",
    "ISO.Props.C85_monthly",
    "ISO.Props.C85_monthly_overnight",
    "ISO.Props.C85_disagree",
    "ISO.Props.C85_agree"
   ],
   "note": "C85_disagree is a disagreement of the two simulations; the documentation (Population.hpp) sides with the hourly one. Stated of the column of interior equipment, where nothing else enters; the same fraction enters the other columns of the monthly simulation (C68)."
  }
 ]
}