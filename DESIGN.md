# Formal model of satellite-rs in Lean 4 — design

Source: `/repo` (richinfante/satellite-rs, pinned). Model: `/verif/lean/Verif`.

## 1. How the code is modelled

The crate is numeric code over `f64` plus a text parser. The model is written **once**, function by
function, over an abstract arithmetic `class Arith F` (file `Verif/Arith.lean`): one field per
primitive operation of Rust's `f64` the crate uses (`+ - * / % neg abs sqrt floor sin cos asin atan2
powf`, the three comparisons, decimal literals, `as u64`, `i64 as f64`, result of `str::parse::<f64>`).
`Arith` has **no laws**. Three interpretations are used:

* **every `F`** — theorems quantified over an arbitrary `Arith F` (no laws at all) hold in particular for
  the hardware's f64. All state-machine, frame, information-flow, control-flow and parsing properties
  are proved at this level.
* **`F64`** (`Verif/F64/*`) — a concrete executable model of IEEE-754 binary64, round to nearest even,
  with NaN, signed zeros, infinities, subnormals: `+ - * / % sqrt floor`, comparisons and conversions
  are defined bit-exactly; `sin cos asin atan2 powf` (libm, not specified by IEEE/Rust) are parameters
  (class `Libm`), with any assumption on them an explicit hypothesis. Used for rounding, NaN,
  termination and range properties.
* **`ℝ`** (`Verif/RealArith.lean`) — exact real arithmetic with Mathlib's `Real.sin` etc. Used for the geometric and
  calculus properties. What a theorem over ℝ cannot show is the effect of rounding; each such claim says so.

Control effects: `Option` (`none` = the loop never exits) for the unbounded `while` loops, built with
Lean's `partial_fixpoint` (a kernel-checked least fixed point, no fuel); `Panic` results are explicit
(`Outcome.panic`) for slicing, indexing and `panic!`; `Result` is `Except`; `&mut Satrec` is
returned as a new `Satrec`.

Text: `&str` is a list of Unicode scalar values with UTF-8 byte widths; byte slicing panics off char
boundaries exactly as Rust does; `trim` uses the Unicode White_Space set; `parse::<i64>` and
`parse::<f64>` are modelled from the documented grammar of the standard library.

## 2. Trusted base

* Lean 4.33.0 kernel; axioms `propext`, `Classical.choice`, `Quot.sound` only (no own axioms, no
  `sorry`, no `native_decide`/`bv_decide`).
* The reading of the Rust source: every definition cites file and lines. Nothing is executed against the crate;
  `Verif/Tests/*` run the generic model over Lean's compiled `Float` and reproduce the expected values
  of the crate's own unit tests (these are tests, not proofs, and no theorem depends on them).
* Rust semantics assumed: f64 arithmetic without contraction or extended precision; `%` is exact `fmod`;
  `powi(2)` is `x*x`, `powi(4)` is `(x*x)*(x*x)`; float-to-int casts saturate (Rust >= 1.45);
  `str::parse::<f64>` correctly rounded with the grammar documented since Rust 1.55.
* Not modelled: chrono's own calendar (a `DateTime<Utc>` is its year/month/day/h/m/s/nanosecond
  getters), memory, threads, performance, `Debug` formatting, `main.rs`.

## 3. Plan per property

See the table in section 7 (kept in step with MANIFEST.json). Shapes:

* C01-C08, C10, C16, C18-C20, C25-C30, C48, C51: generic `Arith F`, by unfolding staged definitions,
  frame lemmas and induction over call histories / line lists.
* C09, C41: loop combinator rules (well-founded measure for termination, partial correctness for
  divergence), over ℝ and F64.
* C11-C15, C24, C33, C35, C37, C39, C40, C42, C43, C47, C49, C50, C52, C53, C54: ℝ.
* C17, C31, C34, C36, C44, C45, C46, C32, C38: F64 (rounding monotone, exact on representables, relative
  error), together with the ℝ statement where it exists.
* C55-C67, C69-C71, C74, C86, C87: ℝ, against `Spec/Report3`, `Spec/Sdp4`, `Spec/Resonance`: stages of initialisation equal
  the published coefficients, propagation equals the published state; then consequences (acceptance, range, decay, energy, areas).
* C68: termination of everything, ℝ and F64. C72, C73, C75-C77: composition from the text of a set to the state.
* C78-C85: F64, error calculi `Q`/`QA`/`QS`/`Near` (`F64/Approx.lean`, `F64/Relative.lean`), from bounds of single operations to a
  bound for the whole program; the comparison is with the ℝ interpretation or with the published theory.
* C88, C89, C95-C97: ℝ, calculus (derivatives of the published theory) and signs of its rates.
* C90-C94, C103-C112: F64, end to end from the text (and date) to what a user reads off; each combines a theorem of exact geometry or
  calculus about the published theory with the error bounds of C85 (near-earth) and C93 (deep-space).
* C98-C102: generic arithmetic, ℝ and F64; order, round trips and non-interference of the columns.
* C21-C23: generic arithmetic, with an independent specification of the TLE format (a renderer from digit
  fields) and of decimal values.

## 4. Specifications the theorems are stated against

Small files under `Verif/Spec`, written from the literature or from first principles, not from the model:

* `Sgp4Spec` — flat closed formulas of one propagation (secular terms, periodics, Kepler, orientation), and the
  conditions of each error.
* `Report3` — the near-earth theory of Spacetrack Report 3 (recovered mean motion, secular rates, drag
  coefficients, long- and short-period terms), as real functions of the six elements and B*.
* `Sdp4`, `DeepSpec` — sun and moon directions, lunar-solar coefficients and rates of the deep-space theory.
* `Resonance` — Kaula's inclination functions in their general form, tesseral coefficients, start longitudes and rates of
  the one-day and half-day resonances.
* `Geometry` — rotations, frames, ellipsoid. `Calendar` — Gregorian calendar by day counting.
* `TleSpec` — the TLE line format as a renderer from digit fields, and the decimal value of a digit string.

Where a spec formula coincides in shape with the model (both come from the same published algorithm) the
theorem is that the *program's stored fields or outputs, through all stages and the record plumbing*, are that formula.

Some properties carry their own short specification at the head of their module, also free of the model: `KeplerOrbit` (C109),
`Tilted` (C110), `InPlane` and `nodalRate` (C111), `ellipsePosition` and `ellipseVelocity` (C112, C114; `ellipseVelocity_deriv` proves
the second to be the time derivative of the first), `Sweeps` (C113).

`Libm.Faithful` (`F64/LibmSpec.lean`) is the only assumption on the mathematical library, an explicit hypothesis of the
F64 theorems that need one: on finite arguments sin and cos lie in [-1, 1] and within 2^-48 of the
real value; asin, atan2 and powf have the stated ranges and accuracies (2^-48, for powf relative); NaN arguments give NaN.
`exists_faithful` proves it satisfiable, so no such theorem is vacuous.

## 5. What is modelled

| source file | modelled | not modelled |
|---|---|---|
| `constants.rs` | all constants | |
| `lib.rs`, `doppler_factor.rs` | `Vec3` and its methods, position structs, `doppler_factor`, `sign` | `Debug`, `PartialEq` derives, unit tests |
| `ext.rs` | `jday`, `days2mdhms`, `jday_datetime` helpers | |
| `transforms.rs` | all functions | |
| `io.rs` | `Satrec`, errors, `parse_float`, `parse_int`, `twoline2satrec`, `parse`, `parse_multiple` | `Display`/`Debug` text of errors |
| `propogation/*` | `initl`, `dscom`, `dpper`, `dsinit`, `dspace`, `sgp4init`, `sgp4`, `gstime`, `propogate_datetime` | |
| `main.rs` | nothing (prints a greeting) | all |

Simplifications are stated in the comment of the definition concerned. The general ones: a long function is cut into
stages (one definition per stage, same expressions in the same order); fields that are written and never read again are still kept in
the record; unused locals are dropped.

## 6. Defects of the code found while proving

Each is a theorem about the model for a whole family of inputs, not an example.

* C09: for a resonant deep-space orbit and an infinite time, or one beyond 2^63 minutes, `sgp4` never returns.
* C10: the deep-space secular rates, the resonance integration and the periodic corrections are computed and then dropped: the
  result of `sgp4` does not depend on them.
* C17: `Ok` results can be NaN (NaN or huge times; also one finite record at a finite time).
* C20: short lines, multi-byte characters across a column boundary and a name line `0` make the reader panic instead of reporting an error.
* C22: leading zeros of the B* and second-derivative mantissas are lost (value too large by 10^k); negative second derivatives are rejected.
* C28/C29: a set whose name is exactly 25 bytes long is never read (its name is taken for line 1); no file of two or more unnamed sets is read completely.
* C31: `inf`/`nan` spelled in a field are accepted as numbers.
* C32, C34: calendar functions are wrong in 1900 and 2100 and beyond.
* C40: `eci_to_geodedic` lacks a square root; the latitude is wrong everywhere strictly between equator and pole.
* C41: the longitude wrap loop never exits for sidereal angles of magnitude 2^58 and above.
* C44: the zero vector (or one below 2^-511) gives a NaN elevation.
* C45: the Doppler factor is the same for a satellite approaching and receding at the same range rate.
* C46: a NaN latitude passes the range check.
* C50: three half-day resonance derivative terms lack a factor 2.


## 7. Table of properties

Axioms column: union over the theorems of the property; p = propext, c = Classical.choice, q = Quot.sound; no theorem depends on any other.

| id | property | model and proof | status | axioms | theorems |
|---|---|---|---|---|---|
| C01 | Propagation is history independent | generic F; simulation relation on records (same up to scratch fields) preserved by sgp4, induction over the call history | proved | pcq | `C01_history_independent`, `C01_record_independent_near` |
| C02 | Propagation mutates only its scratch fields | generic F; frame lemma sgp4_left by unfolding every path | proved | pcq | `C02_footprint_near`, `C02_footprint_deep` |
| C03 | The error flag agrees with the returned result | generic F; case split over the returning paths | proved | pcq | `C03_error_flag` |
| C04 | Date propagation is pure, and is sgp4 at the elapsed minutes | generic F; unfolding, jday instantiated with the getters | proved | pcq | `C04_datetime`, `C04_subsecond` |
| C05 | Initialisation overwrites all derived state | generic F; resetSatrec forgets the old record, then congruence through the stages | proved | pcq | `C05_init_overwrites`, `C05_reinit_after_use` |
| C06 | Initialisation keeps the mean elements of the TLE | generic F; element projection preserved stage by stage (dpper is the identity at initialisation, C48) | proved | pcq | `C06_sgp4init_elements`, `C06_twoline_elements` |
| C07 | Near-earth / deep-space and simplified-drag classification | generic F; stage-wise method and isimp fields | proved | pcq | `C07_classification`, `C07_guard_fails` |
| C08 | Near-earth propagation always returns | generic F; loop rule for the counted Kepler loop; the first test is a literal comparison | proved | pcq | `C08_kepler_bounded`, `C08_kepler_once`, `C08_kepler_once_real`, `C08_kepler_once_f64`, `C08_near_returns` |
| C09 | Deep-space propagation terminates | ℝ: measure floor(|t|/720) for the integrator loop. F64: integer measure floor((|t|-|atime|)/720), the step is at least 512 while |atime| < 2^63; beyond it the step is absorbed by rounding, so the loop invariant "stuck" never exits | proved | pcq | `C09_loop_terminates`, `C09_dspace_returns`, `C09_sgp4_returns`, `C09_f64_returns`, `C09_f64_exact`, `C09_integrator_at_epoch`, `C09_initialised_exact`, `C09_violated_forever` |
| C10 | Which deep-space corrections reach the output | generic F; non-interference: two records differing in the dropped fields give equal results | proved | pcq | `C10_violated_corrections_discarded`, `C10_violated_ecc_periodics_discarded` |
| C11 | A successful propagation is never below the Earth's surface | generic F for the reported direction, ℝ for the distance: |r| = mrt * radius with unit orientation vectors | proved | pcq | `C11_decay_reported`, `C11_above_surface` |
| C12 | Velocity and position live in one orbital frame | ℝ; the orientation vectors U, V are orthonormal, position and velocity are combinations of them | proved | pcq | `C12_orbital_plane` |
| C13 | Rotating the node rotates the orbit | ℝ; node enters linearly in secular terms and only through sin/cos of the final node | proved | pcq | `C13_node_rotation` |
| C14 | Angles only matter modulo one turn | ℝ; every use of an angle is under `% 2π` or a trigonometric function | proved | pcq | `C14_whole_turns` |
| C15 | Kepler solution quality | ℝ; residual bound at exit of the loop from the Newton step and |e| bound | proved | pcq | `C15_kepler_residual` |
| C16 | Error conditions are exactly the documented ones | generic F; sgp4 refines the flat formulas of Spec/Sgp4Spec.lean (sgp4_refines), then case split | proved | pcq | `C16_outcome`, `C16_error_conditions`, `C16_near_no_Ep` |
| C17 | Ok results are numbers | F64 with Libm.Faithful; interval bounds `Bd` (finite and below 2^e) through the flat formulas; NaN propagation for the violations | proved | pcq | `C17_finite`, `C17_violated_nan_time`, `C17_violated_huge_time`, `C17_violated_finite` |
| C18 | Only the documented columns matter | generic F; slices are functions of the columns, induction over column lists | proved | pcq | `C18_only_columns` |
| C19 | Long enough ASCII lines never panic | generic F; slice lemmas for ASCII lists | proved | pcq | `C19_no_panic`, `C19_twoline_no_panic` |
| C20 | Malformed input: exactly when it is reported and when it crashes | generic F; the parser read as a list of checks in reading order; panicking families by symbolic execution | proved | pcq | `C20_outcome`, `C20_panics_iff`, `C20_errs_iff`, `C20_parse_panics_iff`, `C20_multiple_panics_iff`, `C20_multiple_panics_iff_real`, `C20_truncated`, `C20_long_ascii`, `C20_violated_short_line`, `C20_violated_boundary`, `C20_violated_text`, `C20_violated_name` |
| C21 | Well-formed TLEs decode to the values printed in them | generic F; independent renderer of TLE columns (Spec/TleSpec.lean), parser run on the rendered line; decimal values over ℝ | proved | pcq | `C21_decode`, `C21_decode_real` |
| C22 | Leading zeros of B* and nddot mantissas are lost | ℝ; the parser on a mantissa with k leading zeros | proved | pcq | `C22_violated_leading_zeros`, `C22_violated_negative` |
| C23 | Two-digit years are windowed to 1957-2056 | generic F; case split on the two-digit year | proved | pcq | `C23_year_window` |
| C24 | The epoch Julian date is January 0 plus the day of year | ℝ and F64; calendar specification (Spec/Calendar.lean), error propagation through jday | proved | pcq | `C24_epoch`, `C24_f64` |
| C25 | parse accepts exactly two or three non-blank lines | generic F; the line filter and the length match | proved | pcq | `C25_parse`, `C25_structural_errors`, `C25_name` |
| C26 | Blank lines are irrelevant | generic F; filter idempotence over the line list | proved | pcq | `C26_blank_lines` |
| C27 | parse_multiple accounts for every group of lines | generic F; loop invariant of multiLoop on the index | proved | pcq | `C27_accounting`, `C27_returns_iff`, `C27_error_index` |
| C28 | A file of named element sets is read completely | generic F; induction over the list of sets | proved | pcq | `C28_three_line_file`, `C28_all_good`, `C28_violated_name25` |
| C29 | What is read of a file of unnamed two-line element sets | generic F; strong induction over the list of sets, three at a time | proved | pcq | `C29_two_line_file`, `C29_complete_iff`, `C29_violated_two_line_file`, `C29_single` |
| C30 | Parse errors name the offending field | generic F; error provenance through every parse step | proved | pcq | `C30_errors_named` |
| C31 | Accepted elements are finite numbers | F64; parsed literals without letters are finite with bounded exponent | proved | pcq | `C31_finite`, `C31_violated_words` |
| C32 | Day-of-year conversion agrees with the calendar | ℝ and F64; month loop invariant against cumulative month lengths | proved | pcq | `C32_calendar`, `C32_f64`, `C32_violated_century` |
| C33 | Day-of-year conversion loses nothing | ℝ and F64; floor/fraction decomposition, exact remainders in F64 | proved | pcq | `C33_recombine`, `C33_f64` |
| C34 | Julian date agrees with the Gregorian calendar 1900-03-01 .. 2100-02-28 | ℝ and F64; day count by induction over years/months in Spec/Calendar.lean; F64 exact on integers, error bound otherwise | proved | pcq | `C34_jday_counts_days`, `C34_jday_datetime`, `C34_f64_exact`, `C34_f64_error`, `C34_every_year`, `C34_right_iff`, `C34_violated_outside` |
| C35 | Julian date is strictly monotone and linear in the time of day | ℝ linear; F64 monotone because rounding is monotone and one millisecond exceeds the error | proved | pcq | `C35_elapsed`, `C35_monotone`, `C35_f64_monotone` |
| C36 | Sidereal time is an angle in [0, 2 pi) | ℝ: remainder plus correction; F64: exact fmod and rounding of the added turn | proved | pcq | `C36_range`, `C36_f64`, `C36_f64_all` |
| C37 | Sidereal time is the IAU polynomial modulo one turn | ℝ; polynomial identity modulo 2π | proved | pcq | `C37_polynomial`, `C37_daily_advance` |
| C38 | ECI and ECF conversions are mutually inverse rotations | ℝ rotation matrices; F64 error bound per operation | proved | pcq | `C38_rotations`, `C38_inverse`, `C38_isometry`, `C38_distance`, `C38_compose`, `C38_f64_round_trip` |
| C39 | Geodetic to ECF lands on the ellipsoid | ℝ algebra on the ellipsoid | proved | pcq | `C39_on_ellipsoid`, `C39_height_along_normal` |
| C40 | Error of the geodetic round trip | ℝ; contraction of the (wrong) iteration around the latitude, with numeric bounds | proved | pcq | `C40_error_bound`, `C40_equator`, `C40_violated_round_trip` |
| C41 | Geodetic longitude is normalised and congruent | ℝ and F64; wrap loops: measure in turns; beyond 2^58 the step is absorbed | proved | pcq | `C41_longitude_normalised`, `C41_f64`, `C41_violated_never_returns` |
| C42 | Topocentric conversion is an isometry | ℝ; orthogonal matrix | proved | pcq | `C42_components`, `C42_isometry`, `C42_pairwise_isometry`, `C42_overhead` |
| C43 | Look angles are in range and determine the direction | ℝ and F64 | proved | pcq | `C43_ranges`, `C43_reconstruct`, `C43_ecf_look_angles`, `C43_f64_ranges` |
| C44 | Elevation never hits the arcsine domain error | F64; |z| <= computed range by monotone rounding of sqrt and squares | proved | pcq | `C44_asin_argument`, `C44_violated_tiny` |
| C45 | Doppler factor | ℝ and F64 | proved | pcq | `C45_doppler_formula`, `C45_doppler_at_least_one`, `C45_doppler_translation`, `C45_doppler_bound`, `C45_f64_at_least_one`, `C45_f64_number`, `C45_violated_direction_lost` |
| C46 | Degree/radian conversions | ℝ and F64 | proved | pcq | `C46_inverse`, `C46_checked`, `C46_f64_checked`, `C46_f64_nan`, `C46_f64_inverse` |
| C47 | Vec3::range is a distance | ℝ; norm and triangle inequality | proved | pcq | `C47_range_is_length`, `C47_range_separates`, `C47_range_triangle`, `C47_add_subtract` |
| C48 | Lunar-solar periodics are the identity at initialisation | generic F | proved | none | `C48_dpper_identity` |
| C49 | Lyddane branch keeps the node in the same turn | ℝ; atan2 branch analysis | proved | pcq | `C49_lyddane`, `C49_direct` |
| C50 | Consistency of the resonance derivatives | ℝ; derivative of the rate along the flow | proved | pcq | `C50_synchronous`, `C50_halfday`, `C50_violated_halfday` |
| C51 | Resonance class is decided by mean motion and eccentricity only | ℝ and F64; literal comparisons | proved | pcq | `C51_class`, `C51_coefficients`, `C51_class_f64`, `C51_windows_f64` |
| C52 | Lunar-solar geometry uses orthonormal frames | ℝ; orthonormality by ring after sin²+cos² | proved | pcq | `C52_moon`, `C52_sun` |
| C53 | Mean-motion initialisation | ℝ | proved | pcq | `C53_initl` |
| C54 | Constants are mutually consistent | ℝ; numeric bounds with Real.pi | proved | pcq | `C54_constants`, `C54_constants_f64` |
| C55 | At the epoch the drag term has no effect | ℝ | proved | pcq | `C55_epoch_without_drag` |
| C56 | Initialisation recovers the published mean motion and secular rates | ℝ; stage record = Spec/Report3.lean | proved | pcq | `C56_recovered_motion`, `C56_secular_rates` |
| C57 | Initialisation computes the published drag and long-period coefficients | ℝ; stage record = Spec/Report3.lean | proved | pcq | `C57_drag_coefficients`, `C57_drag_series`, `C57_long_period_coefficients` |
| C58 | The along-track drag series is the integral of the mean motion | ℝ; derivative and big-O | proved | pcq | `C58_drag_advance_full`, `C58_drag_advance_simplified` |
| C59 | Resonance inclination functions are Kaula's | ℝ; Kaula general inclination function, finite sums evaluated | proved | pcq | `C59_inclination_functions`, `kaula_values` |
| C60 | Resonance eccentricity polynomials join up | ℝ; one-sided limits of the piecewise polynomials | proved | pcq | `C60_eccentricity_functions_join`, `gCoef_table` |
| C61 | Initialisation stores the deep-space coefficients in the right fields | ℝ; stage record = Spec/Sdp4.lean | proved | pcq | `C61_lunar_solar_coefficients`, `C61_lunar_solar_rates`, `C61_lunar_solar_periodics` |
| C62 | Deep-space propagation follows the published short-period pipeline | ℝ; sgp4_refines + Spec/Sdp4.lean | proved | pcq | `C62_deep_space_outcome` |
| C63 | Resonance start longitude and rate | ℝ; stage record = Spec/Resonance.lean | proved | pcq | `C63_half_day`, `C63_one_day`, `C63_no_resonance` |
| C64 | Near-earth propagation is the published SGP4 | ℝ; composition of C56, C57, sgp4_refines against Spec/Report3.lean | proved | pcq | `C64_near_earth_published`, `C64_near_earth_outcome` |
| C65 | Kepler's equation is solved | ℝ; Newton quadratic convergence bound | proved | pcq | `C65_kepler_converges`, `C65_near_earth_solution` |
| C66 | Orbits above the atmosphere are accepted | ℝ; bounds of the long/short period terms | proved | pcq | `C66_accepted`, `C66_accepted_at_epoch`, `C66_accepted_without_drag` |
| C67 | The satellite stays between perigee and apogee | ℝ; bounds of the long/short period terms | proved | pcq | `C67_between_perigee_and_apogee` |
| C68 | Reading and propagating always come back | ℝ and F64; composition of the termination rules of C08/C09/C41 and structural recursion of the readers | proved | pcq | `C68_reading_returns_real`, `C68_reading_returns_f64`, `C68_datetime_returns_f64` |
| C69 | Deep-space orbits above the atmosphere are accepted | bounds on the lunar and solar coefficient vectors, then the acceptance argument of C66 | proved | pcq | `C69_lunar_solar_size`, `C69_deep_accepted`, `C69_accepted_without_drag`, `C69_accepted_at_epoch` |
| C70 | Initialisation reports what propagation to the epoch reports | `sgp4` does not read the `init` flag; footprint of C02 | proved | pcq | `C70_init_is_epoch` |
| C71 | With drag, propagation ends in a reported error | the eccentricity is linear in time up to a bounded term | proved | pcq | `C71_drag_ends` |
| C72 | A well-formed element set of an orbit above the atmosphere is accepted | decoding (C21) composed with acceptance (C66, C69) | proved | pcq | `C72_tle_accepted` |
| C73 | From the text of an element set to the published state | decoding (C21) composed with the end-to-end refinement (C51, C63) | proved | pcq | `C73_text_to_state`, `C73_outcome` |
| C74 | The resonance integrator is the published scheme, wherever it last stopped | ℝ; induction over the number of whole steps; derivative computed symbolically | proved | pcq | `C74_loop`, `C74_integrator`, `C74_restart` |
| C75 | What the record read from an element set holds | decoding (C21) composed with C06, C07, C36, C37, C56 | proved | pcq | `C75_text_to_record` |
| C76 | From the text of a deep-space element set to the state, errors included | decoding (C21) composed with the complete outcomes of C62 and C64 | proved | pcq | `C76_deep_text_to_state`, `C73_outcome` |
| C77 | From an element set and a calendar date to the state | C73/C76 composed with C04 and the day count of C34 | proved | pcq | `C77_text_and_date_to_state` |
| C78 | Elapsed time at a calendar date, in doubles | F64; C34/C24 in doubles and the rounding-error calculus of F64/Approx.lean | proved | pcq | `C78_elapsed_minutes`, `C78_epoch_kept` |
| C79 | Sidereal time is accurate in doubles | F64; rounding-error calculus of F64/Approx.lean, reduction modulo the double 2π | proved | pcq | `C79_gstime_accuracy` |
| C80 | Elements read from text are accurate in doubles | F64; C21 (every arithmetic) and the rounding-error calculus | proved | pcq | `C80_elements_read` |
| C81 | The near-earth propagator is accurate in doubles | F64; error calculus followed through every operation of Spec.result (generated operation by operation), Newton iteration with inexact steps (Proofs/NewtonApprox.lean) run in both arithmetics | proved | pcq | `C81_near_earth_accuracy`, `C81_near_earth_accuracy_perigee`, `C81_sample`, `newton_solves` |
| C82 | The deep-space propagator is accurate in doubles | F64; as C81, with the lunar-solar periodics of inclination and eccentricity, the recomputed inclination functions and their branches; termination of the integrator from C09 | proved | pcq | `C82_deep_space_accuracy`, `C82_deep_space_accuracy_perigee`, `C82_sample` |
| C83 | Frame conversions, look angles and Doppler factor are accurate in doubles | F64; error calculus for the algebraic parts; relative error of a sum of three squares under the root; perturbation of an angle at distance m for the azimuth | proved | pcq | `C83_frames`, `C83_observer`, `C83_topocentric`, `C83_look_angles`, `C83_doppler`, `C83_sample` |
| C84 | Initialisation and propagation together are accurate in doubles | F64; the initialisation written as a chain of named quantities proved equal to the model; a relative error for each; drag series bounded from the elements; error of the propagation as in C81 with wider inputs | proved | pcq | `Chain.C84_initialise_and_propagate` |
| C85 | From the printed text to the state within a metre of the published theory | composition of C21 in F64 and in the reals, C84, C73 and C78; for the exact instant, bounds on velocity and acceleration of the theory along a straight path of mean elements (the lower limit of the eccentricity is Lipschitz) and C65 | proved | pcq | `C85_text_to_state_f64`, `C85_text_and_date_f64`, `C85_state_at_date_f64`, `noaa_state`, `noaa_date`, `noaa_at_date` |
| C86 | Speed and distance obey the energy equation | ℝ; the unperturbed velocity obeys the energy equation exactly; size of the short-period terms of velocity and distance; published equations of C64 and C62 | proved | pcq | `C86_energy_and_areas`, `C86_energy_and_areas_deep`, `C86_conserved_without_drag` |
| C87 | The line to the satellite sweeps equal areas in equal times | as C86; length of position x velocity from the two perpendicular unit vectors of the report | proved | pcq | `C86_energy_and_areas`, `C86_energy_and_areas_deep`, `C86_conserved_without_drag` |
| C88 | The velocity is the rate of change of the position | R; the solution of Kepler equation is a differentiable function of the mean elements (inverse of a strictly increasing function); derivative of every quantity of the report along slowly changing elements, in units of the mean motion; sizes of the secular rates and of the drag coefficients; mean value theorem for the tolerance of the Kepler iteration | proved | pcq | `C88_velocity_is_rate`, `C88_velocity_is_rate_with_drag` |
| C89 | The satellite accelerates as Newton's law of attraction says | R; derivative of the velocity of the report along slowly changing elements, compared with the two-body acceleration n^2 a^3/r^2 towards the centre; Kepler third law n^2 a^3 = ke^2; bound of the short-period terms in the distance | proved | pcq | `C89_attraction`, `C89_attraction_with_drag` |
| C90 | Where to look for the satellite: from text, date and observer to range, elevation and azimuth | F64; state at the exact instant from C85, sidereal time from C79 and a Lipschitz bound of the IAU polynomial, rotation and topocentric transform as isometries, rounding of the look angles from C83 | proved | pcq | `C90_look_angles_f64`, `C90_look_angles_from_ground_f64` |
| C91 | The ground track: from text and date to latitude, longitude and height | F64; geodetic coordinates of a point by the intermediate value theorem; each rounded latitude iteration as a perturbed exact one, contraction by 0.007; longitude from C41; height through the hypotenuse so that it stays accurate near the poles; state and sidereal time as in C90 | proved | pcq | `C91_ground_track_f64`, `has_place`, `stands_iff`, `track_near` |
| C92 | Coordinates can always be shown in degrees | F64; no double lies between the double pi and the number (gap below a 53-bit significand); rounding is monotone, so products stay within the rounded end; ends by kernel computation; accuracy from C91 | proved | pcq | `C92_checks_exact`, `C92_conversions_compose`, `C92_ends`, `C92_geodetic_in_degrees`, `C92_ground_track_degrees_f64` |
| C93 | From the text of a deep-space set to the state, in doubles | F64; error calculus over initl, the drag and secular coefficients, the lunar orientation and the lunar-solar coefficients of dscom (Props/F64DeepInit, F64DeepMoon), the front half of sgp4 (F64DeepFront) and its tail (F64TailFar); eccentricity kept in range by bounds proportional to the eccentricity; text and epoch by C21, C24 and C78; exact side by C76 | proved | pcq | `C93_deep_text_to_state_f64`, `C93_deep_text_and_date_f64` |
| C94 | Where to look for a deep-space satellite, and what it is above | F64; C93 at a date with the distance bounded below and above, the sidereal angle and the error lemmas points_near (C90) and track_near (C91) | proved | pcq | `C94_deep_look_angles_f64`, `C94_deep_ground_track_f64` |
| C95 | The Doppler factor is that of the range rate | R; derivative of the square root, the arithmetic-geometric inequality and Cauchy-Schwarz; F64: C83_doppler, C85 and C93 at a date, and a perturbation bound of the range rate | proved | pcq | `rangeRate_is_rate`, `C95_range_rate`, `C95_doppler_low_f64`, `C95_doppler_deep_f64` |
| C96 | Which way node and perigee drift | R; C56 rates, the zonal terms bounded against the leading one | proved | pcq | `C96_node_drift`, `C96_perigee_drift` |
| C97 | Drag makes the orbit shrink | R; C57 series, sign of the drag coefficient from the height of perigee above the level s, difference of the polynomial factored | proved | pcq | `C97_drag_shrinks` |
| C98 | Reading never merges or swaps printed values | F64; error of every conversion below half the step of the format | proved | pcq | `C98_reading_keeps_order`, `C98_epoch_keeps_order` |
| C99 | Element sets can be written and read back | generic; column arithmetic on concatenated fields; recovery by C98 | proved | pcq | `C99_writable`, `C99_spelling`, `C99_file`, `C99_recover` |
| C100 | A later date is a later propagation time | F64; C34 error bound and error calculus | proved | pcq | `C100_later_date`, `C100_from_text` |
| C101 | What the propagated state does not depend on | generic; relabelling invariance of initialisation and propagation | proved | pcq | `C101_unused_columns`, `C101_epoch_unused` |
| C102 | Orbital planes of a constellation | F64; C85 for both sets and rotation symmetry of the published theory | proved | pcq | `C102_planes` |
| C103 | Above the horizon means in sight | real geometry of the tangent plane (C39, C43); F64 by C90 | proved | pcq | `C103_in_sight`, `C103_antipodes`, `C103_in_sight_f64`, `C103_deep_in_sight_f64` |
| C104 | The satellite keeps below the latitude of its inclination | F64; C91 and the short-period bound of the inclination | proved | pcq | `C104_latitude_f64`, `C104_deep_latitude_f64` |
| C105 | The satellite goes round: every revolution takes it north and south of the equator | F64; intermediate value theorem for the argument of the Kepler equation, then C85 at a nearby double | proved | pcq | `C105_goes_round_f64`, `C105_deep_goes_round_f64` |
| C106 | Consecutive positions agree with the velocity between them | F64; C85 at both times and the rates of the theory (C88) over short steps | proved | pcq | `C106_dead_reckoning_f64`, `C106_dates_f64` |
| C107 | From the point below it the satellite is seen overhead | F64; C90 and C91 at the same moment, and the change of a point of the meridian with its latitude (mean value) | proved | pcq | `C107_overhead_f64`, `C107_deep_overhead_f64` |
| C108 | A geostationary satellite stands still | F64; the direction of the position in the plane of the equator against the mean longitude (complex numbers), the rates of the theory for a 24-hour orbit, and the rate of the sidereal angle | proved | pcq | `C108_longitude_f64`, `C108_geostationary_f64` |
| C109 | Distance and speed fit the printed revolutions per day (third law of Kepler) | F64; recovered mean motion within 0.4 per cent of the printed one, the energy equation of C86 for the theory, then the error bounds of C85 and C93 | proved | pcq | `C109_third_law_f64`, `C109_deep_third_law_f64` |
| C110 | The orbit is tilted, and turns, as printed | F64; the cross product of the theory is the areal velocity times the normal of the osculating plane, whose inclination is near the mean one; then the error bounds of C85 and C93 | proved | pcq | `C110_tilt_f64`, `C110_deep_tilt_f64` |
| C111 | The plane of the orbit turns at the rate the oblate earth gives | F64; the normal of the osculating plane as for C110 with all three components, the rate of the node against the second zonal harmonic (C95), recovered against printed mean motion (C109); then the error bounds of C85 and C93 | proved | pcq | `C111_precession_f64`, `C111_deep_precession_f64` |
| C112 | At the epoch the satellite is where the printed elements put it, and moves as they say | F64; in the orbital plane as complex plane: Lipschitz bounds for the ellipse and its velocity in the eccentricity vector and the eccentric longitude, size of long- and short-period terms; then the rotations, and the error bounds of C85 and C93 | proved | pcq | `C112_epoch_f64`, `C112_epoch_velocity_f64`, `C112_deep_epoch_f64` |
| C113 | The line to the satellite sweeps equal areas in equal times, at the printed rate | F64; the area law of the theory (C87), the rounding error of the cross product (C110), axis and printed mean motion (C109), change of the eccentricity with time; then the error bounds of C85 and C93 | proved | pcq | `C113_areas_f64`, `C113_deep_areas_f64` |
| C114 | Around the epoch the satellite moves along the printed ellipse, at the printed pace | F64; secular rates of the theory integrated from the epoch (mean value theorem), Lipschitz bounds for the ellipse as for C112; then the rotations, and the error bounds of C85 and C93 | proved | pcq | `C114_follow_f64`, `C114_follow_velocity_f64`, `C114_deep_follow_f64` |
