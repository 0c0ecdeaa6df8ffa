{
 "claims": [
  {
   "property": "C01",
   "status": "proved",
   "theorems": [
    "Sat.C01_history_independent",
    "Sat.C01_record_independent_near"
   ],
   "note": "Every arithmetic (law-free), all records, all finite histories of returning calls."
  },
  {
   "property": "C02",
   "status": "proved",
   "theorems": [
    "Sat.C02_footprint_near",
    "Sat.C02_footprint_deep"
   ],
   "note": "Every arithmetic, all records, all times."
  },
  {
   "property": "C03",
   "status": "proved",
   "theorems": [
    "Sat.C03_error_flag"
   ],
   "note": "Every arithmetic, any stale error value."
  },
  {
   "property": "C04",
   "status": "proved",
   "theorems": [
    "Sat.C04_datetime",
    "Sat.C04_subsecond"
   ],
   "note": "Every arithmetic. That the record is unchanged is the clone at propogation/mod.rs:32; the model function returns no record."
  },
  {
   "property": "C05",
   "status": "proved",
   "theorems": [
    "Sat.C05_init_overwrites",
    "Sat.C05_reinit_after_use"
   ],
   "note": "Every arithmetic; all record pairs."
  },
  {
   "property": "C06",
   "status": "proved",
   "theorems": [
    "Sat.C06_sgp4init_elements",
    "Sat.C06_twoline_elements"
   ],
   "note": "Every arithmetic; all input lines."
  },
  {
   "property": "C07",
   "status": "proved",
   "theorems": [
    "Sat.C07_classification",
    "Sat.C07_guard_fails"
   ],
   "note": "Every arithmetic; both sides of the guard of sgp4init.rs:337."
  },
  {
   "property": "C08",
   "status": "proved",
   "theorems": [
    "Sat.C08_kepler_bounded",
    "Sat.C08_kepler_once",
    "Sat.C08_kepler_once_real",
    "Sat.C08_kepler_once_f64",
    "Sat.C08_near_returns"
   ],
   "note": "Every arithmetic; the at-least-once part in exact arithmetic and f64."
  },
  {
   "property": "C09",
   "status": "proved",
   "theorems": [
    "Sat.C09_loop_terminates",
    "Sat.C09_dspace_returns",
    "Sat.C09_sgp4_returns",
    "Sat.C09_f64_returns",
    "Sat.C09_f64_exact",
    "Sat.C09_integrator_at_epoch",
    "Sat.C09_initialised_exact",
    "Sat.C09_violated_forever"
   ],
   "note": "Exact arithmetic and f64; no assumption on the mathematical library. C09_violated_forever: the hang."
  },
  {
   "property": "C10",
   "status": "proved",
   "theorems": [
    "Sat.C10_violated_corrections_discarded",
    "Sat.C10_violated_ecc_periodics_discarded"
   ],
   "note": "Every arithmetic. The expectation that the corrections reach the output is false of the code; the non-interference that holds instead is proved for every record and time."
  },
  {
   "property": "C11",
   "status": "proved",
   "theorems": [
    "Sat.C11_decay_reported",
    "Sat.C11_above_surface"
   ],
   "note": "Exact arithmetic for the distance statement; the reported-as-decayed direction for every arithmetic."
  },
  {
   "property": "C12",
   "status": "proved",
   "theorems": [
    "Sat.C12_orbital_plane"
   ],
   "note": "Exact arithmetic, all records and times with an Ok result."
  },
  {
   "property": "C13",
   "status": "proved",
   "theorems": [
    "Sat.C13_node_rotation"
   ],
   "note": "Exact arithmetic, all near-earth records, all rotations, all times."
  },
  {
   "property": "C14",
   "status": "proved",
   "theorems": [
    "Sat.C14_whole_turns"
   ],
   "note": "Exact arithmetic, all near-earth records, all integer numbers of turns."
  },
  {
   "property": "C15",
   "status": "proved",
   "theorems": [
    "Sat.C15_kepler_residual"
   ],
   "note": "Exact arithmetic."
  },
  {
   "property": "C16",
   "status": "proved",
   "theorems": [
    "Sat.C16_outcome",
    "Sat.C16_error_conditions",
    "Sat.C16_near_no_Ep"
   ],
   "note": "Every arithmetic; conditions written with the independent formulas of Verif/Spec/Sgp4Spec.lean."
  },
  {
   "property": "C17",
   "status": "proved",
   "theorems": [
    "Sat.C17_finite",
    "Sat.C17_violated_nan_time",
    "Sat.C17_violated_huge_time",
    "Sat.C17_violated_finite"
   ],
   "note": "IEEE-754 arithmetic, for every mathematical library meeting Libm.Faithful. The unconditional version is false of the code (proved for NaN times, for huge finite times, and for a concrete finite record)."
  },
  {
   "property": "C18",
   "status": "proved",
   "theorems": [
    "Sat.C18_only_columns"
   ],
   "note": "Every arithmetic, all pairs of ASCII lines of any length: the result depends only on the columns read."
  },
  {
   "property": "C19",
   "status": "proved",
   "theorems": [
    "Sat.C19_no_panic",
    "Sat.C19_twoline_no_panic"
   ],
   "note": "Every arithmetic, all ASCII lines of at least 61 and 63 columns."
  },
  {
   "property": "C20",
   "status": "proved",
   "theorems": [
    "Sat.C20_outcome",
    "Sat.C20_panics_iff",
    "Sat.C20_errs_iff",
    "Sat.C20_parse_panics_iff",
    "Sat.C20_multiple_panics_iff",
    "Sat.C20_multiple_panics_iff_real",
    "Sat.C20_truncated",
    "Sat.C20_long_ascii",
    "Sat.C20_violated_short_line",
    "Sat.C20_violated_boundary",
    "Sat.C20_violated_text",
    "Sat.C20_violated_name"
   ],
   "note": "The expectation that malformed input always yields Err is false of the code; the exact condition is proved, with whole families of panicking inputs. multiple_crash is a file for C20_multiple_panics_iff."
  },
  {
   "property": "C21",
   "status": "proved",
   "theorems": [
    "Sat.C21_decode",
    "Sat.C21_decode_real"
   ],
   "note": "Every arithmetic (C21_decode); exact values in the units of the record (C21_decode_real). The side conditions are those named in the statement."
  },
  {
   "property": "C22",
   "status": "proved",
   "theorems": [
    "Sat.C22_violated_leading_zeros",
    "Sat.C22_violated_negative"
   ],
   "note": "The expectation is false of the code: the exact factor 10^k is proved for every mantissa with k leading zeros, and every negative second derivative is rejected. Mantissas without leading zeros: C21_decode_real."
  },
  {
   "property": "C23",
   "status": "proved",
   "theorems": [
    "Sat.C23_year_window"
   ],
   "note": "Every arithmetic, all texts."
  },
  {
   "property": "C24",
   "status": "proved",
   "theorems": [
    "Sat.C24_epoch",
    "Sat.C24_f64"
   ],
   "note": "Exact arithmetic: all year fields 0..99, all real days in [0, 2^64). In IEEE-754 arithmetic within 2^-30 days for all days in [0, 400]."
  },
  {
   "property": "C25",
   "status": "proved",
   "theorems": [
    "Sat.C25_parse",
    "Sat.C25_structural_errors",
    "Sat.C25_name"
   ],
   "note": "Every arithmetic, all texts."
  },
  {
   "property": "C26",
   "status": "proved",
   "theorems": [
    "Sat.C26_blank_lines"
   ],
   "note": "Every arithmetic, all texts."
  },
  {
   "property": "C27",
   "status": "proved",
   "theorems": [
    "Sat.C27_accounting",
    "Sat.C27_returns_iff",
    "Sat.C27_error_index"
   ],
   "note": "Every arithmetic, all texts. Grouped (Props/ParseMultiple.lean) is the grouping rule stated on its own."
  },
  {
   "property": "C28",
   "status": "proved",
   "theorems": [
    "Sat.C28_three_line_file",
    "Sat.C28_all_good",
    "Sat.C28_violated_name25"
   ],
   "note": "Every arithmetic, any number of sets; the 25-byte exception named in the statement is proved too."
  },
  {
   "property": "C29",
   "status": "proved",
   "theorems": [
    "Sat.C29_two_line_file",
    "Sat.C29_complete_iff",
    "Sat.C29_violated_two_line_file",
    "Sat.C29_single"
   ],
   "note": "The expectation (n records) is false of the code for every n >= 2; what is read is proved for all n and contents."
  },
  {
   "property": "C30",
   "status": "proved",
   "theorems": [
    "Sat.C30_errors_named"
   ],
   "note": "Every arithmetic, all texts."
  },
  {
   "property": "C31",
   "status": "proved",
   "theorems": [
    "Sat.C31_finite",
    "Sat.C31_violated_words"
   ],
   "note": "f64. The condition on letters is necessary: C31_violated_words shows every accepted pair becomes an accepted pair with a non-finite inclination."
  },
  {
   "property": "C32",
   "status": "proved",
   "theorems": [
    "Sat.C32_calendar",
    "Sat.C32_f64",
    "Sat.C32_violated_century"
   ],
   "note": "Exact and IEEE-754 arithmetic; the failure for 1900 and 2100 named in the statement is proved too."
  },
  {
   "property": "C33",
   "status": "proved",
   "theorems": [
    "Sat.C33_recombine",
    "Sat.C33_f64"
   ],
   "note": "Exact arithmetic; d < 2^64 (the cast to u64 saturates beyond). In IEEE-754 arithmetic within 2^-52 days for every double in [0, 2^52)."
  },
  {
   "property": "C34",
   "status": "proved",
   "theorems": [
    "Sat.C34_jday_counts_days",
    "Sat.C34_jday_datetime",
    "Sat.C34_f64_exact",
    "Sat.C34_f64_error",
    "Sat.C34_every_year",
    "Sat.C34_right_iff",
    "Sat.C34_violated_outside"
   ],
   "note": "Exact arithmetic and IEEE-754 arithmetic (exact at 0h, within 2^-31 days at any time of day). C34_every_year: what jday counts over any span of any years; C34_right_iff: the range is the largest possible."
  },
  {
   "property": "C35",
   "status": "proved",
   "theorems": [
    "Sat.C35_elapsed",
    "Sat.C35_monotone",
    "Sat.C35_f64_monotone"
   ],
   "note": "All valid instants in range with whole milliseconds; monotone in exact and in IEEE-754 arithmetic."
  },
  {
   "property": "C36",
   "status": "proved",
   "theorems": [
    "Sat.C36_range",
    "Sat.C36_f64",
    "Sat.C36_f64_all"
   ],
   "note": "Exact arithmetic for all Julian dates; IEEE-754 arithmetic whenever the polynomial is finite (C36_f64), which holds for all |jd| <= 2^100 (C36_f64_all)."
  },
  {
   "property": "C37",
   "status": "proved",
   "theorems": [
    "Sat.C37_polynomial",
    "Sat.C37_daily_advance"
   ],
   "note": "Exact arithmetic, all real Julian dates."
  },
  {
   "property": "C38",
   "status": "proved",
   "theorems": [
    "Sat.C38_rotations",
    "Sat.C38_inverse",
    "Sat.C38_isometry",
    "Sat.C38_distance",
    "Sat.C38_compose",
    "Sat.C38_f64_round_trip"
   ],
   "note": "Exact arithmetic proved; in f64 the round trip is bounded under the stated accuracy of sin and cos (Libm.Faithful, shown satisfiable)."
  },
  {
   "property": "C39",
   "status": "proved",
   "theorems": [
    "Sat.C39_on_ellipsoid",
    "Sat.C39_height_along_normal"
   ],
   "note": "Exact arithmetic."
  },
  {
   "property": "C40",
   "status": "proved",
   "theorems": [
    "Sat.C40_error_bound",
    "Sat.C40_equator",
    "Sat.C40_violated_round_trip"
   ],
   "note": "Exact arithmetic. The expectation (the position comes back) is false of the code for every latitude strictly between equator and pole; size and shape of the error are proved."
  },
  {
   "property": "C41",
   "status": "proved",
   "theorems": [
    "Sat.C41_longitude_normalised",
    "Sat.C41_f64",
    "Sat.C41_violated_never_returns"
   ],
   "note": "Exact arithmetic and f64 (under Libm.Faithful); for gmst of magnitude at least 2^58 the f64 loop never exits (proved)."
  },
  {
   "property": "C42",
   "status": "proved",
   "theorems": [
    "Sat.C42_components",
    "Sat.C42_isometry",
    "Sat.C42_pairwise_isometry",
    "Sat.C42_overhead"
   ],
   "note": "Exact arithmetic."
  },
  {
   "property": "C43",
   "status": "proved",
   "theorems": [
    "Sat.C43_ranges",
    "Sat.C43_reconstruct",
    "Sat.C43_ecf_look_angles",
    "Sat.C43_f64_ranges"
   ],
   "note": "Exact arithmetic; ranges also in f64."
  },
  {
   "property": "C44",
   "status": "proved",
   "theorems": [
    "Sat.C44_asin_argument",
    "Sat.C44_violated_tiny"
   ],
   "note": "IEEE-754 arithmetic, all finite vectors with a component of magnitude >= 2^-511, overflow included; below that the zero-distance failure named in the statement is proved."
  },
  {
   "property": "C45",
   "status": "proved",
   "theorems": [
    "Sat.C45_doppler_formula",
    "Sat.C45_doppler_at_least_one",
    "Sat.C45_doppler_translation",
    "Sat.C45_doppler_bound",
    "Sat.C45_f64_at_least_one",
    "Sat.C45_f64_number",
    "Sat.C45_violated_direction_lost"
   ],
   "note": "The expected direction dependence is false of the code (proved); the rest is proved in exact arithmetic and, for the bounds, in f64."
  },
  {
   "property": "C46",
   "status": "proved",
   "theorems": [
    "Sat.C46_inverse",
    "Sat.C46_checked",
    "Sat.C46_f64_checked",
    "Sat.C46_f64_nan",
    "Sat.C46_f64_inverse"
   ],
   "note": "Exact arithmetic and f64; in f64 a NaN latitude passes the check (C46_f64_nan)."
  },
  {
   "property": "C47",
   "status": "proved",
   "theorems": [
    "Sat.C47_range_is_length",
    "Sat.C47_range_separates",
    "Sat.C47_range_triangle",
    "Sat.C47_add_subtract"
   ],
   "note": "Exact arithmetic."
  },
  {
   "property": "C48",
   "status": "proved",
   "theorems": [
    "Sat.C48_dpper_identity"
   ],
   "note": "Every arithmetic."
  },
  {
   "property": "C49",
   "status": "proved",
   "theorems": [
    "Sat.C49_lyddane",
    "Sat.C49_direct"
   ],
   "note": "Exact arithmetic, all records and elements."
  },
  {
   "property": "C50",
   "status": "proved",
   "theorems": [
    "Sat.C50_synchronous",
    "Sat.C50_halfday",
    "Sat.C50_violated_halfday"
   ],
   "note": "Exact arithmetic. The expectation is false for half-day orbits: three terms lack the factor 2 (dspace.rs:273-275); the exact discrepancy is proved."
  },
  {
   "property": "C51",
   "status": "proved",
   "theorems": [
    "Sat.C51_class",
    "Sat.C51_coefficients",
    "Sat.C51_class_f64",
    "Sat.C51_windows_f64"
   ],
   "note": "Exact arithmetic and f64, all options (coefficients: exact arithmetic)."
  },
  {
   "property": "C52",
   "status": "proved",
   "theorems": [
    "Sat.C52_moon",
    "Sat.C52_sun"
   ],
   "note": "Exact arithmetic, all epochs and orbits."
  },
  {
   "property": "C53",
   "status": "proved",
   "theorems": [
    "Sat.C53_initl"
   ],
   "note": "Exact arithmetic."
  },
  {
   "property": "C54",
   "status": "proved",
   "theorems": [
    "Sat.C54_constants",
    "Sat.C54_constants_f64"
   ],
   "note": "Exact arithmetic and f64 (the doubles nearest to the stated decimals)."
  },
  {
   "property": "C55",
   "status": "proved",
   "theorems": [
    "Sat.C55_epoch_without_drag"
   ],
   "note": "Exact arithmetic, both methods."
  },
  {
   "property": "C56",
   "status": "proved",
   "theorems": [
    "Sat.C56_recovered_motion",
    "Sat.C56_secular_rates"
   ],
   "note": "Exact arithmetic, against the independent specification Sat.Spec.R3."
  },
  {
   "property": "C57",
   "status": "proved",
   "theorems": [
    "Sat.C57_drag_coefficients",
    "Sat.C57_drag_series",
    "Sat.C57_long_period_coefficients"
   ],
   "note": "Exact arithmetic, against Sat.Spec.R3."
  },
  {
   "property": "C58",
   "status": "proved",
   "theorems": [
    "Sat.C58_drag_advance_full",
    "Sat.C58_drag_advance_simplified"
   ],
   "note": "Asymptotic statement (big-O as t -> 0) over the reals."
  },
  {
   "property": "C59",
   "status": "proved",
   "theorems": [
    "Sat.C59_inclination_functions",
    "Sat.kaula_values"
   ],
   "note": "Against Kaula's general formula (Sat.Spec.Res.kaulaF, any degree, order, index)."
  },
  {
   "property": "C60",
   "status": "proved",
   "theorems": [
    "Sat.C60_eccentricity_functions_join",
    "Sat.gCoef_table"
   ],
   "note": "One-sided limits over the reals."
  },
  {
   "property": "C61",
   "status": "proved",
   "theorems": [
    "Sat.C61_lunar_solar_coefficients",
    "Sat.C61_lunar_solar_rates",
    "Sat.C61_lunar_solar_periodics"
   ],
   "note": "Exact arithmetic, against the independent specification Sat.Spec.SDP."
  },
  {
   "property": "C62",
   "status": "proved",
   "theorems": [
    "Sat.C62_deep_space_outcome"
   ],
   "note": "Exact arithmetic; complete outcome, errors included. Which parts of the theory the program drops is C10."
  },
  {
   "property": "C63",
   "status": "proved",
   "theorems": [
    "Sat.C63_half_day",
    "Sat.C63_one_day",
    "Sat.C63_no_resonance"
   ],
   "note": "Exact arithmetic, against Sat.Spec.Res."
  },
  {
   "property": "C64",
   "status": "proved",
   "theorems": [
    "Sat.C64_near_earth_published",
    "Sat.C64_near_earth_outcome"
   ],
   "note": "Exact arithmetic; complete outcome, errors included."
  },
  {
   "property": "C65",
   "status": "proved",
   "theorems": [
    "Sat.C65_kepler_converges",
    "Sat.C65_near_earth_solution"
   ],
   "note": "Exact arithmetic."
  },
  {
   "property": "C66",
   "status": "proved",
   "theorems": [
    "Sat.C66_accepted",
    "Sat.C66_accepted_at_epoch",
    "Sat.C66_accepted_without_drag"
   ],
   "note": "Exact arithmetic. Samples.lean shows element sets meeting the hypotheses."
  },
  {
   "property": "C67",
   "status": "proved",
   "theorems": [
    "Sat.C67_between_perigee_and_apogee"
   ],
   "note": "Exact arithmetic."
  },
  {
   "property": "C68",
   "status": "proved",
   "theorems": [
    "Sat.C68_reading_returns_real",
    "Sat.C68_reading_returns_f64",
    "Sat.C68_datetime_returns_f64"
   ],
   "note": "No assumption on the mathematical library. propogate_datetime in exact arithmetic: C09_sgp4_returns."
  },
  {
   "property": "C69",
   "status": "proved",
   "theorems": [
    "Sat.C69_lunar_solar_size",
    "Sat.C69_deep_accepted",
    "Sat.C69_accepted_without_drag",
    "Sat.C69_accepted_at_epoch"
   ],
   "note": "Exact arithmetic."
  },
  {
   "property": "C70",
   "status": "proved",
   "theorems": [
    "Sat.C70_init_is_epoch"
   ],
   "note": "Every arithmetic."
  },
  {
   "property": "C71",
   "status": "proved",
   "theorems": [
    "Sat.C71_drag_ends"
   ],
   "note": "Exact arithmetic."
  },
  {
   "property": "C72",
   "status": "proved",
   "theorems": [
    "Sat.C72_tle_accepted"
   ],
   "note": "Exact arithmetic; the ISS set of the crate meets the hypotheses (iss_accepted)."
  },
  {
   "property": "C73",
   "status": "proved",
   "theorems": [
    "Sat.C73_text_to_state",
    "Sat.C73_outcome"
   ],
   "note": "Exact arithmetic."
  },
  {
   "property": "C74",
   "status": "proved",
   "theorems": [
    "Sat.C74_loop",
    "Sat.C74_integrator",
    "Sat.C74_restart"
   ],
   "note": "Exact arithmetic."
  },
  {
   "property": "C75",
   "status": "proved",
   "theorems": [
    "Sat.C75_text_to_record"
   ],
   "note": "Exact arithmetic; navigation-satellite instance nav_accepted."
  },
  {
   "property": "C76",
   "status": "proved",
   "theorems": [
    "Sat.C76_deep_text_to_state",
    "Sat.C73_outcome"
   ],
   "note": "Exact arithmetic; navigation-satellite instance nav_accepted."
  },
  {
   "property": "C77",
   "status": "proved",
   "theorems": [
    "Sat.C77_text_and_date_to_state"
   ],
   "note": "Exact arithmetic; instances iss_accepted and nav_accepted."
  },
  {
   "property": "C78",
   "status": "proved",
   "theorems": [
    "Sat.C78_elapsed_minutes",
    "Sat.C78_epoch_kept"
   ],
   "note": "IEEE-754 binary64."
  },
  {
   "property": "C79",
   "status": "proved",
   "theorems": [
    "Sat.C79_gstime_accuracy"
   ],
   "note": "IEEE-754 binary64."
  },
  {
   "property": "C80",
   "status": "proved",
   "theorems": [
    "Sat.C80_elements_read"
   ],
   "note": "IEEE-754 binary64."
  },
  {
   "property": "C81",
   "status": "proved",
   "theorems": [
    "Sat.C81_near_earth_accuracy",
    "Sat.C81_near_earth_accuracy_perigee",
    "Sat.C81_sample",
    "Sat.newton_solves"
   ],
   "note": "IEEE-754 binary64 against exact arithmetic on the same record; hypotheses listed in structure Ordinary; instance sample_ordinary."
  },
  {
   "property": "C82",
   "status": "proved",
   "theorems": [
    "Sat.C82_deep_space_accuracy",
    "Sat.C82_deep_space_accuracy_perigee",
    "Sat.C82_sample"
   ],
   "note": "IEEE-754 binary64 against exact arithmetic on the same record; hypotheses listed in structure OrdinaryDeep; instance sample_ordinaryDeep."
  },
  {
   "property": "C83",
   "status": "proved",
   "theorems": [
    "Sat.C83_frames",
    "Sat.C83_observer",
    "Sat.C83_topocentric",
    "Sat.C83_look_angles",
    "Sat.C83_doppler",
    "Sat.C83_sample"
   ],
   "note": "IEEE-754 binary64 against the same formula in exact arithmetic on the same inputs."
  },
  {
   "property": "C84",
   "status": "proved",
   "theorems": [
    "Sat.Chain.C84_initialise_and_propagate"
   ],
   "note": "IEEE-754 binary64 against the same program in exact arithmetic. Orbits outside the stated ranges (perigee below 240 km, deep space) are not covered."
  },
  {
   "property": "C85",
   "status": "proved",
   "theorems": [
    "Sat.C85_text_to_state_f64",
    "Sat.C85_text_and_date_f64",
    "Sat.C85_state_at_date_f64",
    "Sat.noaa_state",
    "Sat.noaa_date",
    "Sat.noaa_at_date"
   ],
   "note": "The text is decoded, initialised and propagated in doubles; the comparison is with the published theory evaluated exactly."
  },
  {
   "property": "C86",
   "status": "proved",
   "theorems": [
    "Sat.C86_energy_and_areas",
    "Sat.C86_energy_and_areas_deep",
    "Sat.C86_conserved_without_drag"
   ],
   "note": "EnergyLaw in Props/Laws.lean states the law; exact arithmetic."
  },
  {
   "property": "C87",
   "status": "proved",
   "theorems": [
    "Sat.C86_energy_and_areas",
    "Sat.C86_energy_and_areas_deep",
    "Sat.C86_conserved_without_drag"
   ],
   "note": "AreaLaw in Props/Laws.lean states the law; exact arithmetic."
  },
  {
   "property": "C88",
   "status": "proved",
   "theorems": [
    "Sat.C88_velocity_is_rate",
    "Sat.C88_velocity_is_rate_with_drag"
   ],
   "note": "Tangent in Props/Velocity.lean states the property; exact arithmetic."
  },
  {
   "property": "C89",
   "status": "proved",
   "theorems": [
    "Sat.C89_attraction",
    "Sat.C89_attraction_with_drag"
   ],
   "note": "Falls, newton and distance in Props/Attraction.lean state the property; exact arithmetic."
  },
  {
   "property": "C90",
   "status": "proved",
   "theorems": [
    "Sat.C90_look_angles_f64",
    "Sat.C90_look_angles_from_ground_f64"
   ],
   "note": "Points, Stands and siderealAngle in Props/F64Sight.lean state the property; noaa_sight instantiates it."
  },
  {
   "property": "C91",
   "status": "proved",
   "theorems": [
    "Sat.C91_ground_track_f64",
    "Sat.has_place",
    "Sat.stands_iff",
    "Sat.track_near"
   ],
   "note": "Tracks (Props/F64Track.lean) and Stands (Props/Place.lean) state the property; has_place: every point 6345 km or more from the centre has geodetic coordinates; stands_iff: exactly one point has given coordinates; track_near: the accuracy of eci_to_geodedic by itself; noaa_track instantiates it."
  },
  {
   "property": "C92",
   "status": "proved",
   "theorems": [
    "Sat.C92_checks_exact",
    "Sat.C92_conversions_compose",
    "Sat.C92_ends",
    "Sat.C92_geodetic_in_degrees",
    "Sat.C92_ground_track_degrees_f64"
   ],
   "note": "ShownAt (Props/F64TrackDegrees.lean) states the accuracy in degrees; noaa_shown instantiates it."
  },
  {
   "property": "C93",
   "status": "proved",
   "theorems": [
    "Sat.C93_deep_text_to_state_f64",
    "Sat.C93_deep_text_and_date_f64"
   ],
   "note": "HighTle, PrintedEpoch and CloseToDeepTheory (Props/F64DeepText.lean) state the hypotheses and the accuracy; the hypotheses are read off the printed set. nav_state and nav_date instantiate both for a navigation satellite. Against the theory as carried by the crate (carriedMean, see C62), not the full published deep-space theory."
  },
  {
   "property": "C94",
   "status": "proved",
   "theorems": [
    "Sat.C94_deep_look_angles_f64",
    "Sat.C94_deep_ground_track_f64"
   ],
   "note": "Points (Props/F64Sight.lean) and Tracks (Props/F64Track.lean) state the accuracy, HighTle (Props/F64DeepText.lean) the sets. nav_sight instantiates it for a navigation satellite."
  },
  {
   "property": "C95",
   "status": "proved",
   "theorems": [
    "Sat.rangeRate_is_rate",
    "Sat.C95_range_rate",
    "Sat.C95_doppler_low_f64",
    "Sat.C95_doppler_deep_f64"
   ],
   "note": "rangeRate_is_rate states what the range rate is. The point of observation is at rest in the frame of the state; C45 states the sign defect of the factor. The distance hypothesis is met by every point on the ground, since the theorems also give 6733 and 6569 km as lower bounds of the radius; noaa_doppler instantiates it."
  },
  {
   "property": "C96",
   "status": "proved",
   "theorems": [
    "Sat.C96_node_drift",
    "Sat.C96_perigee_drift"
   ],
   "note": "Exact arithmetic. An example in Props/Drift.lean instantiates both."
  },
  {
   "property": "C97",
   "status": "proved",
   "theorems": [
    "Sat.C97_drag_shrinks"
   ],
   "note": "Exact arithmetic. The span before the epoch is 1/(16 a xi C1) minutes, months for ordinary satellites; shrink (Props/Drift.lean) is the factor whose square multiplies the axis. An example instantiates it."
  },
  {
   "property": "C98",
   "status": "proved",
   "theorems": [
    "Sat.C98_reading_keeps_order",
    "Sat.C98_epoch_keeps_order"
   ],
   "note": "IEEE-754 doubles. An example compares the space station with a GPS satellite."
  },
  {
   "property": "C99",
   "status": "proved",
   "theorems": [
    "Sat.C99_writable",
    "Sat.C99_spelling",
    "Sat.C99_file",
    "Sat.C99_recover"
   ],
   "note": "The writer is part of the specification (Spec/TleWriter.lean); the crate only reads."
  },
  {
   "property": "C100",
   "status": "proved",
   "theorems": [
    "Sat.C100_later_date",
    "Sat.C100_from_text"
   ],
   "note": "IEEE-754 doubles."
  },
  {
   "property": "C101",
   "status": "proved",
   "theorems": [
    "Sat.C101_unused_columns",
    "Sat.C101_epoch_unused"
   ],
   "note": "Every arithmetic."
  },
  {
   "property": "C102",
   "status": "proved",
   "theorems": [
    "Sat.C102_planes"
   ],
   "note": "IEEE-754 doubles, from text to state."
  },
  {
   "property": "C103",
   "status": "proved",
   "theorems": [
    "Sat.C103_in_sight",
    "Sat.C103_antipodes",
    "Sat.C103_in_sight_f64",
    "Sat.C103_deep_in_sight_f64"
   ],
   "note": "Exact arithmetic; end to end in doubles, near-earth and deep-space."
  },
  {
   "property": "C104",
   "status": "proved",
   "theorems": [
    "Sat.C104_latitude_f64",
    "Sat.C104_deep_latitude_f64"
   ],
   "note": "End to end in doubles."
  },
  {
   "property": "C105",
   "status": "proved",
   "theorems": [
    "Sat.C105_goes_round_f64",
    "Sat.C105_deep_goes_round_f64"
   ],
   "note": "End to end in doubles, near-earth and deep-space sets. nav_goes_round is a concrete navigation satellite."
  },
  {
   "property": "C106",
   "status": "proved",
   "theorems": [
    "Sat.C106_dead_reckoning_f64",
    "Sat.C106_dates_f64"
   ],
   "note": "Reckons (Props/F64Reckon.lean) states the property. End to end in doubles."
  },
  {
   "property": "C107",
   "status": "proved",
   "theorems": [
    "Sat.C107_overhead_f64",
    "Sat.C107_deep_overhead_f64"
   ],
   "note": "End to end in doubles: text, date, ground point, look angles. noaa_overhead and nav_overhead are concrete cases."
  },
  {
   "property": "C108",
   "status": "proved",
   "theorems": [
    "Sat.C108_longitude_f64",
    "Sat.C108_geostationary_f64"
   ],
   "note": "End to end in doubles: text, two dates, longitudes. tv_stays is a concrete television satellite."
  },
  {
   "property": "C109",
   "status": "proved",
   "theorems": [
    "Sat.C109_third_law_f64",
    "Sat.C109_deep_third_law_f64"
   ],
   "note": "End to end in doubles, against printed values only. iss_third_law and nav_third_law are concrete satellites."
  },
  {
   "property": "C110",
   "status": "proved",
   "theorems": [
    "Sat.C110_tilt_f64",
    "Sat.C110_deep_tilt_f64"
   ],
   "note": "End to end in doubles, against the printed inclination only. iss_eastward and nav_tilt are concrete satellites."
  },
  {
   "property": "C111",
   "status": "proved",
   "theorems": [
    "Sat.C111_precession_f64",
    "Sat.C111_deep_precession_f64"
   ],
   "note": "End to end in doubles, against printed numbers only. iss_precession is a concrete satellite: 3.9 to 6.1 degrees westward a day; noaa_precession is a sun-synchronous one: 0.98 to 1.07 degrees eastward a day; nav_precession is a deep-space one."
  },
  {
   "property": "C112",
   "status": "proved",
   "theorems": [
    "Sat.C112_epoch_f64",
    "Sat.C112_epoch_velocity_f64",
    "Sat.C112_deep_epoch_f64"
   ],
   "note": "End to end in doubles, against printed numbers only; the specifications ellipsePosition and ellipseVelocity use nothing of the theory, and ellipseVelocity_deriv shows the second is the derivative of the first. iss_epoch and iss_epoch_velocity are a concrete satellite (95 km, 0.25 km/s), nav_epoch a deep-space one (930 km of 26560, 0.21 km/s)."
  },
  {
   "property": "C113",
   "status": "proved",
   "theorems": [
    "Sat.C113_areas_f64",
    "Sat.C113_deep_areas_f64"
   ],
   "note": "End to end in doubles, against printed numbers only. iss_areas and nav_areas are concrete satellites."
  },
  {
   "property": "C114",
   "status": "proved",
   "theorems": [
    "Sat.C114_follow_f64",
    "Sat.C114_follow_velocity_f64",
    "Sat.C114_deep_follow_f64"
   ],
   "note": "End to end in doubles, against printed numbers and the specifications ellipsePosition and ellipseVelocity only. The bound grows with time because the specification leaves out the flattening of the earth and drag. iss_follow is a concrete satellite: 330 km over the quarter of an hour in which it covers 6900 km; iss_follow_velocity: 0.6 km/s over five minutes; nav_follow is a deep-space one: 1850 km and 0.63 km/s over three hours and some 40000 km."
  }
 ]
}