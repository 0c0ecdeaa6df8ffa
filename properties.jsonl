{"id": "C01", "title": "Propagation is history independent", "statement": "Calling sgp4 on an initialised record at time t returns the same position, velocity or error whatever sequence of sgp4 calls (at any times, successful or not, including NaN or infinite times) was made on the same record before; only calls that do not return are excluded.", "quantifier": "all element records produced by an initialisation, all finite sequences of earlier propagation times, all final times t, every interpretation of the arithmetic", "why_tests_cant": "The set of earlier call histories is infinite and the call mutates the record; a test samples a handful of histories.", "anchors": ["src/propogation/sgp4.rs: sgp4", "src/propogation/dspace.rs: dspace", "src/io.rs: Satrec"]}
{"id": "C02", "title": "Propagation mutates only its scratch fields", "statement": "After sgp4 returns, a near-earth record differs from the input only in t and error; a deep-space record differs only in t, error, aycof, xlcof, con41, x1mth2, x7thm1. No element, epoch, name, resonance or integrator field is ever changed.", "quantifier": "all records, all times, every arithmetic", "why_tests_cant": "It is a frame condition over ~100 fields and every control path.", "anchors": ["src/propogation/sgp4.rs: sgp4", "src/io.rs: Satrec"]}
{"id": "C03", "title": "The error flag agrees with the returned result", "statement": "After sgp4 returns, the record's error field is 0 exactly when the call returned Ok and otherwise equals the numeric code of the returned error; a stale error of an earlier call never survives; code 5 is never produced.", "quantifier": "all records (with any stale error value), all times", "why_tests_cant": "Must hold on every return path and for every previous value of the flag.", "anchors": ["src/propogation/sgp4.rs: sgp4, SGP4Error::code"]}
{"id": "C04", "title": "Date propagation is pure, and is sgp4 at the elapsed minutes", "statement": "propogate_datetime leaves the record unchanged and returns exactly what sgp4 returns on that record at 1440*(JD(time) - epoch JD); because it ignores the sub-second part, two instants in the same second give identical results.", "quantifier": "all records, all UTC date-times", "why_tests_cant": "Quantifies over all records and date-times; the ignored sub-second part is an independence property.", "anchors": ["src/propogation/mod.rs: propogate_datetime", "src/ext.rs: jday, jday_datetime"]}
{"id": "C05", "title": "Initialisation overwrites all derived state", "statement": "sgp4init called with the same options on two records that agree on the descriptive fields (name, satnum, epoch fields, ndot, nddot, a, alta, altp) gives the same result and the same record, however the other ~90 fields differed before; so re-initialising a used record is the same as initialising a fresh one.", "quantifier": "all pairs of records, all options, every arithmetic", "why_tests_cant": "A single forgotten reset among ~90 fields only shows for particular stale values.", "anchors": ["src/propogation/sgp4init.rs: sgp4init", "src/io.rs: Satrec::zero"]}
{"id": "C06", "title": "Initialisation keeps the mean elements of the TLE", "statement": "When twoline2satrec succeeds, bstar, eccentricity, inclination, node, argument of perigee and mean anomaly of the returned record are exactly the parsed ones (also for deep-space orbits, where initialisation runs the periodics routine over them), the epoch fields and satellite number are the parsed ones, error is 0, the operation mode is I and the record is marked initialised; only the mean motion is replaced (un-Kozai).", "quantifier": "all pairs of input lines, every arithmetic", "why_tests_cant": "Holds for every accepted TLE through all branches of the deep-space initialisation.", "anchors": ["src/io.rs: twoline2satrec, parse_satrec", "src/propogation/sgp4init.rs: sgp4init", "src/propogation/dpper.rs: dpper"]}
{"id": "C07", "title": "Near-earth / deep-space and simplified-drag classification", "statement": "After initialisation (of a record whose guard holds) a record uses the deep-space method exactly when 2*pi / (un-Kozai'd mean motion) >= 225 minutes; it uses simplified drag exactly when it is deep-space or its perigee radius is below 220 km altitude.", "quantifier": "all options, every arithmetic", "why_tests_cant": "Threshold behaviour must be right at the exact boundary for all inputs.", "anchors": ["src/propogation/sgp4init.rs: sgp4init"]}
{"id": "C08", "title": "Near-earth propagation always returns", "statement": "For a near-earth record sgp4 returns for every time value (finite, infinite or NaN); the Kepler iteration runs at least one and at most 10 times.", "quantifier": "all near-earth records, all times, every arithmetic", "why_tests_cant": "Termination for all inputs, including NaN and infinity, is not testable.", "anchors": ["src/propogation/sgp4.rs: sgp4 (Kepler loop)"]}
{"id": "C09", "title": "Deep-space propagation terminates", "statement": "In exact arithmetic sgp4 returns for every record and every time; from the integrator state left by initialisation the resonance integrator stops at the 720-minute grid point nearest to t on the epoch side, after floor(|t|/720) steps. In f64 sgp4 returns for every record and every t that is NaN or at most 2^63 minutes in size, and for an initialised resonant orbit it returns for no other t: with an infinite t, or a finite one beyond 2^63 minutes, the integrator loop never exits (a hang of the library).", "quantifier": "all records and all times, exact arithmetic and f64", "why_tests_cant": "Loop termination over an unbounded input range.", "anchors": ["src/propogation/dspace.rs: dspace", "src/propogation/sgp4.rs: sgp4"]}
{"id": "C10", "title": "Which deep-space corrections reach the output", "statement": "Of everything computed for deep-space orbits, only the eccentricity drift and the perturbed inclination influence the propagated state: two records that differ arbitrarily in all other deep-space quantities (rates of node, perigee, inclination and mean anomaly, all resonance coefficients and integrator state, all other periodics) give the same result at every time; the eccentricity periodics decide only whether an error is reported. (A user expects all these corrections to reach the output: the code violates that, their values are shadowed or discarded.)", "quantifier": "all deep-space records and times", "why_tests_cant": "It is an information-flow statement: the output is independent of a set of fields for all their values.", "anchors": ["src/propogation/sgp4.rs: sgp4 lines 235-243, 307-331", "src/propogation/dspace.rs: dspace", "src/propogation/dpper.rs: dpper"]}
{"id": "C11", "title": "A successful propagation is never below the Earth's surface", "statement": "If sgp4 returns Ok, the length of the returned position vector equals (perturbed radius)*6378.137 km and is at least 6378.137 km; a radius below one earth radius is always reported as DecayCondition.", "quantifier": "all records, all times (exact arithmetic for the vector length; the decay check for every arithmetic)", "why_tests_cant": "Geometric identity for all orientations; cannot be sampled.", "anchors": ["src/propogation/sgp4.rs: sgp4 lines 412-466"]}
{"id": "C12", "title": "Velocity and position live in one orbital frame", "statement": "For every Ok result the position is along a unit vector U and the velocity is a combination of U and a unit vector V orthogonal to U, so that position x velocity is parallel to the orbit normal (sin i sin Omega, -sin i cos Omega, cos i) of the perturbed inclination and node.", "quantifier": "all records, all times, exact arithmetic", "why_tests_cant": "Algebraic identity over all angles.", "anchors": ["src/propogation/sgp4.rs: sgp4 lines 420-446"]}
{"id": "C13", "title": "Rotating the node rotates the orbit", "statement": "For near-earth records, adding delta to the right ascension of the ascending node rotates every propagated position and velocity about the z axis by exactly delta, and produces an error in exactly the same cases.", "quantifier": "all near-earth records, all times, all delta, exact arithmetic", "why_tests_cant": "A symmetry law quantified over all orbits and angles, through modular reductions and the Kepler iteration.", "anchors": ["src/propogation/sgp4.rs: sgp4"]}
{"id": "C14", "title": "Angles only matter modulo one turn", "statement": "Adding any whole number of turns to the mean anomaly, argument of perigee or node of a near-earth record does not change any propagation result.", "quantifier": "all near-earth records, all times, all integers k, exact arithmetic", "why_tests_cant": "Quantified over all k and all records.", "anchors": ["src/propogation/sgp4.rs: sgp4"]}
{"id": "C15", "title": "Kepler solution quality", "statement": "Whenever the Kepler iteration stops because its correction is below 1e-12, the eccentric longitude E it found satisfies Kepler's equation U = E - axn sin E + ayn cos E with residual at most ((|axn|+|ayn|)/2) * 1e-24.", "quantifier": "all right-hand sides and all eccentricity vectors, exact arithmetic", "why_tests_cant": "Numerical-analysis bound over all inputs.", "anchors": ["src/propogation/sgp4.rs: sgp4 lines 352-374"]}
{"id": "C16", "title": "Error conditions are exactly the documented ones", "statement": "sgp4 reports Nm iff the mean motion is <= 0; otherwise Eccentricty iff the drag-corrected eccentricity is >= 1 or < -0.001; then (deep-space only) Ep iff the periodics push eccentricity outside [0,1]; then Pl iff the semi-latus rectum is negative; then DecayCondition iff the radius is < 1; otherwise Ok. Near-earth records never report Ep.", "quantifier": "all records, all times, every arithmetic", "why_tests_cant": "Decision table with precedence over all inputs.", "anchors": ["src/propogation/sgp4.rs: sgp4"]}
{"id": "C17", "title": "Ok results are numbers", "statement": "If sgp4 returns Ok then all six components are finite numbers, provided the elements and time are of moderate size (|t| <= 2^40 minutes, coefficients at most 2^60, semi-major axis between 2^-20 and 2^40 earth radii, eccentricity vector inside the unit circle by 2^-40). (The code violates the unconditional version: a NaN time is accepted for every near-earth record and returned as Ok with six NaNs, and so is every finite time of 2^512 minutes and more.)", "quantifier": "all records, all times, IEEE-754 arithmetic", "why_tests_cant": "NaN defeats every comparison-based guard; the claim ranges over all f64 bit patterns.", "anchors": ["src/propogation/sgp4.rs: sgp4 (comparisons at lines 246, 261, 381, 449)"]}
{"id": "C18", "title": "Only the documented columns matter", "statement": "The record (or error) produced by parse_satrec / twoline2satrec from two lines of ASCII text depends only on columns 3-7, 19-32, 34-43, 45-52, 54-61 of line 1 and 9-16, 18-25, 27-33, 35-42, 44-51, 53-63 of line 2: line numbers, classification, designator, element-set number, checksum, and the satellite number of line 2 are never looked at.", "quantifier": "all pairs of pairs of lines that agree on those columns", "why_tests_cant": "Non-interference over all contents of all other columns.", "anchors": ["src/io.rs: parse_satrec, twoline2satrec, parse_float, parse_int"]}
{"id": "C19", "title": "Long enough ASCII lines never panic", "statement": "parse_satrec on any two ASCII lines of at least 61 and 63 bytes returns Ok or Err; it never panics, whatever the bytes are.", "quantifier": "all ASCII strings of at least those lengths", "why_tests_cant": "Totality over all strings.", "anchors": ["src/io.rs: parse_satrec, parse_float, parse_int"]}
{"id": "C20", "title": "Malformed input: exactly when it is reported and when it crashes", "statement": "The first of the fifteen fields, in reading order, that is not readable decides: if its bytes are missing (line too short, or a multi-byte character across its ends) the call panics, if its text is malformed that field's error is reported; if all are readable no field error and no panic occurs. parse panics exactly when reading its two element lines does, or when they are accepted and the name line is '0' followed by nothing or by a multi-byte character. parse_multiple panics exactly when one of the groups into which it cuts the file does: one bad set makes the whole file unreadable. Cutting a readable line short changes nothing or panics. (A user expects Err for every malformed text: the code violates that, e.g. for every first line shorter than 7 bytes.)", "quantifier": "all strings", "why_tests_cant": "The set of malformed inputs is infinite.", "anchors": ["src/io.rs: parse_satrec, parse, parse_multiple"]}
{"id": "C21", "title": "Well-formed TLEs decode to the values printed in them", "statement": "For lines rendered from field values in the TLE format, parse_satrec succeeds and every element is the correctly rounded decimal value of its field times its unit factor (degrees to radians, rev/day to rad/min, implied decimal points and exponents applied). (Violated when the 5-digit B* or second-derivative mantissa has a leading zero, and negative second derivatives are rejected; the theorem carries exactly those side conditions.)", "quantifier": "all field values, every arithmetic with a correctly rounded decimal conversion", "why_tests_cant": "Round-trip law over an infinite (well, astronomically large) set of TLEs.", "anchors": ["src/io.rs: parse_satrec"]}
{"id": "C22", "title": "Leading zeros of B* and nddot mantissas are lost", "statement": "A five-digit mantissa with k leading zeros is read as 10^k times its value, for every mantissa other than zero and every exponent, and a set with a negative second derivative is rejected. (A user expects ' 01234-4' to mean 0.01234e-4: the code violates that, it prints the mantissa as an integer; mantissas without leading zeros are right.)", "quantifier": "all mantissas with k leading zeros", "why_tests_cant": "Holds for every mantissa; proves the exact factor by which the result is wrong.", "anchors": ["src/io.rs: parse_satrec lines 372-394"]}
{"id": "C23", "title": "Two-digit years are windowed to 1957-2056", "statement": "Whatever two characters stand in the epoch-year columns, if they parse then the year used for the epoch lies between 1957 and 2056, is congruent to the field modulo 100, and years 57..99 map to 19xx and 00..56 to 20xx.", "quantifier": "all contents of the two columns", "why_tests_cant": "All strings of the column, including signs and blanks.", "anchors": ["src/io.rs: parse_satrec lines 413-418"]}
{"id": "C24", "title": "The epoch Julian date is January 0 plus the day of year", "statement": "For every year 1957..2056 and every epoch day d >= 0, the epoch Julian date computed through month/day/hour/minute/second is exactly (Julian date of January 0 of that year) + d, in exact arithmetic.", "quantifier": "all years of the window, all real d >= 0", "why_tests_cant": "Continuum of inputs through floor functions and a month loop.", "anchors": ["src/ext.rs: days2mdhms, jday", "src/io.rs: parse_satrec"]}
{"id": "C25", "title": "parse accepts exactly two or three non-blank lines", "statement": "parse returns InvalidTLEBadLineCount iff the text does not have 2 or 3 non-blank lines; with 2 or 3 it returns InvalidTLELineCheckFailed iff the first byte of the last-but-one line is not '1' or of the last line is not '2'; otherwise it is twoline2satrec of these lines with the name (text after '0 ' or the whole line) attached for three lines and None for two.", "quantifier": "all strings", "why_tests_cant": "Complete case analysis over all strings.", "anchors": ["src/io.rs: parse"]}
{"id": "C26", "title": "Blank lines are irrelevant", "statement": "Inserting or removing blank (whitespace-only) lines anywhere in the text never changes the result of parse or parse_multiple.", "quantifier": "all texts and all insertions of blank lines", "why_tests_cant": "Quantified over all texts and all insertion points.", "anchors": ["src/io.rs: parse, parse_multiple"]}
{"id": "C27", "title": "parse_multiple accounts for every group of lines", "statement": "parse_multiple splits the non-blank lines into consecutive groups and reports exactly one record or one error per group, records and errors each in input order, every error carrying the index of the first line of its group; no line is used twice and none is skipped. The groups are: three lines (name and set) unless the first is 25 bytes long when trimmed, then two; at the end whatever is left.", "quantifier": "all strings on which it does not panic", "why_tests_cant": "A conservation law over an index loop with three branches and unbounded input.", "anchors": ["src/io.rs: parse_multiple"]}
{"id": "C28", "title": "A file of named element sets is read completely", "statement": "For a text made of n three-line sets whose name lines are not 25 bytes long, parse_multiple behaves as n independent three-line reads: the i-th set yields the record twoline2satrec gives with its name, or an error with index 3*i. (Violated if a trimmed name is exactly 25 bytes long: the name is then taken for line 1.)", "quantifier": "all n, all lists of sets", "why_tests_cant": "Unbounded number of sets, all names.", "anchors": ["src/io.rs: parse_multiple"]}
{"id": "C29", "title": "What is read of a file of unnamed two-line element sets", "statement": "Of a text of n standard two-line sets, parse_multiple returns exactly the third, sixth, ... set, each named by another satellite's second line, and the last set when n mod 3 = 1; with n/3 errors (two more when n mod 3 = 2). So it is read completely exactly when n = 1. (A user expects n records: violated for every n >= 2.)", "quantifier": "all n >= 1, all well-formed sets", "why_tests_cant": "The failure is structural and must be shown for all contents.", "anchors": ["src/io.rs: parse_multiple"]}
{"id": "C30", "title": "Parse errors name the offending field", "statement": "Every error of parse_satrec identifies a field and, for column errors, the exact column range and the exact text found there; number errors are reported as IntParseError also for float fields and FloatParseError is never produced.", "quantifier": "all pairs of lines", "why_tests_cant": "Universal statement over all erroneous inputs.", "anchors": ["src/io.rs: parse_float, parse_int, parse_satrec, SatrecParseError"]}
{"id": "C31", "title": "Accepted elements are finite numbers", "statement": "If parse_satrec returns Ok and no letter stands in the columns of the decimal numbers, every element of the record (epoch days, ndot, nddot, B*, inclination, node, eccentricity, perigee, anomaly, mean motion) is finite. Without the condition this fails: the columns accept the words nan, inf, infinity and exponents that overflow, and the record then holds a NaN or an infinity.", "quantifier": "all pairs of ASCII lines, IEEE-754 arithmetic", "why_tests_cant": "Quantifies over all field texts.", "anchors": ["src/io.rs: parse_float, parse_satrec"]}
{"id": "C32", "title": "Day-of-year conversion agrees with the calendar", "statement": "For years 1901..2099 and day-of-year 1 <= d < 366 (367 in leap years), days2mdhms returns the month and day of month of the Gregorian calendar, hour in 0..23, minute in 0..59, 0 <= second < 60. (For 1900 and 2100 the month/day are wrong after February 28: proved.)", "quantifier": "all years in range, all f64 / real days", "why_tests_cant": "Continuum of fractional days and floating-point rounding at the h/m/s carries.", "anchors": ["src/ext.rs: days2mdhms"]}
{"id": "C33", "title": "Day-of-year conversion loses nothing", "statement": "month/day/hour/minute/second returned by days2mdhms recombine to exactly the day number passed in (exact arithmetic), for every real d >= 0, including d beyond the end of the year.", "quantifier": "all years, all real d >= 0", "why_tests_cant": "Inverse law over a continuum.", "anchors": ["src/ext.rs: days2mdhms"]}
{"id": "C34", "title": "Julian date agrees with the Gregorian calendar 1900-03-01 .. 2100-02-28", "statement": "jday at 0h of any Gregorian date in this range is the Julian date obtained by counting days one by one from 1900-03-01 = JD 2415079.5, also in f64 arithmetic where the result is exact; between any two dates of any years it advances by the number of days in between plus one for every skipped leap day of a century passed, so this range is the largest possible: at every valid date before it the value is at least a day too small and at every date after it at least a day too large.", "quantifier": "all valid calendar dates in the range, f64 and exact arithmetic; all valid dates of all years, exact arithmetic", "why_tests_cant": "All 73000 dates in f64, with proof rather than enumeration.", "anchors": ["src/ext.rs: jday"]}
{"id": "C35", "title": "Julian date is strictly monotone and linear in the time of day", "statement": "For valid date-times in the calendar range, an earlier date-time has a strictly smaller jday; differences of jday within and across days equal elapsed time in days (exact arithmetic).", "quantifier": "all pairs of date-times in range", "why_tests_cant": "Pairs of date-times, all carries.", "anchors": ["src/ext.rs: jday, jday_datetime"]}
{"id": "C36", "title": "Sidereal time is an angle in [0, 2 pi)", "statement": "gstime returns a value in [0, 2*pi) for every finite Julian date whose intermediate results do not overflow, in f64 arithmetic as well as in exact arithmetic.", "quantifier": "all real / f64 Julian dates", "why_tests_cant": "Needs an argument about all roundings at the wrap-around point.", "anchors": ["src/propogation/gstime.rs: gstime, gstime_datetime", "src/propogation/initl.rs: initl"]}
{"id": "C37", "title": "Sidereal time is the IAU polynomial modulo one turn", "statement": "gstime(jd) is congruent modulo 2*pi to the polynomial in centuries since J2000; over a day it advances by one turn plus the sidereal excess.", "quantifier": "all real Julian dates", "why_tests_cant": "Congruence for all inputs.", "anchors": ["src/propogation/gstime.rs: gstime"]}
{"id": "C38", "title": "ECI and ECF conversions are mutually inverse rotations", "statement": "ecf_to_eci and eci_to_ecf with the same angle are inverse to each other, keep z, keep lengths and distances, and compose additively in the angle, in exact arithmetic; in f64 arithmetic the round trip differs from the input by at most a stated multiple of the unit roundoff times the vector length.", "quantifier": "all vectors, all angles", "why_tests_cant": "All vectors and angles, and a rounding-error bound for all f64 inputs.", "anchors": ["src/transforms.rs: eci_to_ecf, ecf_to_eci"]}
{"id": "C39", "title": "Geodetic to ECF lands on the ellipsoid", "statement": "geodedic_to_ecf at height 0 satisfies the equation of the WGS ellipsoid with semi-axes 6378.137 and 6356.7523142; at height h the point is h km along the outward normal from the surface point.", "quantifier": "all latitudes, longitudes, heights, exact arithmetic", "why_tests_cant": "Algebraic identity over a continuum.", "anchors": ["src/transforms.rs: geodedic_to_ecf"]}
{"id": "C40", "title": "Error of the geodetic round trip", "statement": "eci_to_geodedic after geodedic_to_ecf and ecf_to_eci returns, for every position above -100 km other than at a pole and every sidereal angle: the longitude exactly (normalised); the latitude within 150 m on the ground; and a height too low by a(1/w - 1/sqrt w), w = 1 - e^2 sin^2(latitude), within 155 m: up to 21.6 km. It is exact on the equator and never exact between equator and poles. (A user expects the position back: violated by a missing square root.)", "quantifier": "all geodetic positions", "why_tests_cant": "The failure is proved for all latitudes, the correctness for the whole equator.", "anchors": ["src/transforms.rs: eci_to_geodedic, geodedic_to_ecf"]}
{"id": "C41", "title": "Geodetic longitude is normalised and congruent", "statement": "When eci_to_geodedic returns, longitude is in [-pi, pi] and congruent to atan2(y,x) - gmst modulo 2 pi; latitude is in [-pi/2, pi/2]; it returns for every real gmst and for every f64 gmst of magnitude up to 2^50. (It never returns for infinite or huge f64 gmst.)", "quantifier": "all vectors, all gmst, exact and f64 arithmetic", "why_tests_cant": "Loop termination and range for all inputs.", "anchors": ["src/transforms.rs: eci_to_geodedic"]}
{"id": "C42", "title": "Topocentric conversion is an isometry", "statement": "The topocentric coordinates of a satellite are its ECF offset from the observer expressed in an orthonormal south/east/zenith basis: their squared length is the squared distance observer-satellite, and a point h above the observer along the vertical maps to (0,0,h).", "quantifier": "all observers, all satellite positions, exact arithmetic", "why_tests_cant": "Identity over a continuum.", "anchors": ["src/transforms.rs: topocentric, geodedic_to_ecf"]}
{"id": "C43", "title": "Look angles are in range and determine the direction", "statement": "For a satellite not at the observer: range is the distance, elevation is in [-pi/2, pi/2], azimuth in [0, 2 pi], and (range, elevation, azimuth) reconstruct the topocentric vector: s = -r cos el cos az, e = r cos el sin az, z = r sin el.", "quantifier": "all topocentric vectors, exact arithmetic", "why_tests_cant": "Inverse-trigonometric identities over a continuum.", "anchors": ["src/transforms.rs: topocentric_to_look_angles, ecf_to_look_angles"]}
{"id": "C44", "title": "Elevation never hits the arcsine domain error", "statement": "In f64 arithmetic, for every topocentric vector whose squared components neither overflow nor underflow, the argument given to asin lies in [-1, 1], so elevation is not NaN. (At zero distance elevation is NaN: proved.)", "quantifier": "all f64 vectors in range", "why_tests_cant": "Depends on the rounding of a sum of squares and a square root for every input.", "anchors": ["src/transforms.rs: topocentric_to_look_angles"]}
{"id": "C45", "title": "Doppler factor", "statement": "doppler_factor is 1 + |range rate|/c: at least 1 for every non-NaN input, equal to 1 exactly when the range does not change, unchanged by translating observer and satellite together, and equal for a satellite approaching and receding at the same speed. (A user expects those two on different sides of 1: violated.)", "quantifier": "all positions and velocities", "why_tests_cant": "Universal bound and symmetry.", "anchors": ["src/doppler_factor.rs: doppler_factor, sign", "src/lib.rs: Vec3::range"]}
{"id": "C46", "title": "Degree/radian conversions", "statement": "radians_to_degrees and degrees_to_radians are mutually inverse (exact arithmetic); degrees_lat, degrees_long, radians_lat, radians_long panic exactly outside their closed range and otherwise equal the plain conversion; in f64 a NaN never panics.", "quantifier": "all values, f64 and exact arithmetic", "why_tests_cant": "Exact boundaries over all values.", "anchors": ["src/transforms.rs: radians_to_degrees, degrees_to_radians, degrees_lat, degrees_long, radians_lat, radians_long"]}
{"id": "C47", "title": "Vec3::range is a distance", "statement": "range is non-negative, symmetric, zero exactly for equal vectors and satisfies the triangle inequality (exact arithmetic); add and subtract are inverse to each other.", "quantifier": "all vectors", "why_tests_cant": "Metric laws over a continuum.", "anchors": ["src/lib.rs: Vec3::range, Vec3::add, Vec3::subtract"]}
{"id": "C48", "title": "Lunar-solar periodics are the identity at initialisation", "statement": "dpper with init = Y returns the eccentricity, inclination, node, perigee and mean anomaly it was given, for any record and any coefficients.", "quantifier": "all records, all elements, every arithmetic", "why_tests_cant": "All coefficient values.", "anchors": ["src/propogation/dpper.rs: dpper"]}
{"id": "C49", "title": "Lyddane branch keeps the node in the same turn", "statement": "For low inclinations dpper returns a node within pi of the reduced input node and congruent modulo 2 pi to the direction of the perturbed node vector; the sum argp + m + cos(i)*node is changed only by the periodic terms, not by the choice of turn.", "quantifier": "all records, all elements with inclination below 0.2, exact arithmetic", "why_tests_cant": "Quadrant logic for all angles.", "anchors": ["src/propogation/dpper.rs: dpper lines 246-283"]}
{"id": "C50", "title": "Consistency of the resonance derivatives", "statement": "The second derivative term used by the resonance integrator is the derivative of the first derivative term with respect to the resonance longitude times the longitude rate for synchronous orbits; for half-day orbits it is short of that by exactly the three terms that lack the factor 2. (A user expects consistency for both: violated for every half-day orbit whose three terms do not cancel.)", "quantifier": "all longitudes, all coefficients, exact arithmetic", "why_tests_cant": "Calculus identity over a continuum.", "anchors": ["src/propogation/dspace.rs: dspace lines 241-277"]}
{"id": "C51", "title": "Resonance class is decided by mean motion and eccentricity only", "statement": "dsinit reports resonance 1 iff 0.0034906585 < n < 0.0052359877, else 2 iff 8.26e-3 <= n <= 9.24e-3 and e >= 0.5, else 0; non-resonant orbits keep all resonance coefficients as given and resonant ones start the integrator at epoch.", "quantifier": "all options, exact arithmetic and f64 (NaN and infinities included)", "why_tests_cant": "Window boundaries for all inputs.", "anchors": ["src/propogation/dsinit.rs: dsinit"]}
{"id": "C52", "title": "Lunar-solar geometry uses orthonormal frames", "statement": "In dscom the direction cosines built for the Moon are those of two orthonormal vectors (unit length, orthogonal) rotated into the orbital frame, for every epoch and every orbit orientation.", "quantifier": "all epochs, all orbits, exact arithmetic", "why_tests_cant": "Trigonometric identity over a continuum, with square roots that must not be of negative numbers.", "anchors": ["src/propogation/dscom.rs: dscom"]}
{"id": "C53", "title": "Mean-motion initialisation", "statement": "initl returns con41 = 3 cos^2 i - 1, con42 = 1 - 5 cos^2 i, ainv*ao = 1, posq = (ao (1-e^2))^2, rp = ao (1-e), sidereal time in [0, 2 pi) in both operation modes, and never selects deep space itself.", "quantifier": "all options with 0 <= e < 1 and positive recovered mean motion, exact arithmetic", "why_tests_cant": "Algebraic identities over a continuum.", "anchors": ["src/propogation/initl.rs: initl"]}
{"id": "C54", "title": "Constants are mutually consistent", "statement": "xke*tumin = 1 up to 1e-15, xke^2 * R^3 = 3600 mu up to a relative 1e-14, rev/day conversion xpdotp = 1440/(2 pi), degree and mile factors are inverse pairs.", "quantifier": "the fixed constants as real numbers and as f64", "why_tests_cant": "Stated as exact real-number inequalities rather than float equality of printed values.", "anchors": ["src/constants.rs"]}
{"id": "C55", "title": "At the epoch the drag term has no effect", "statement": "Initialisation reports the same outcome at the epoch (position, velocity or error) whatever the drag coefficient B* is.", "quantifier": "all element sets with 0 <= e < 1, near-earth and deep-space, all B*, exact arithmetic", "why_tests_cant": "Quantifies over all pairs of element sets differing in one real field.", "anchors": ["src/propogation/sgp4.rs: sgp4", "src/propogation/sgp4init.rs: sgp4init"]}
{"id": "C56", "title": "Initialisation recovers the published mean motion and secular rates", "statement": "The mean motion stored by initialisation is Spacetrack Report #3's recovered (un-Kozai'd) mean motion, and the stored mean-anomaly, perigee and node rates are the published J2, J2^2, J4 secular rates.", "quantifier": "all near-earth element sets with 0 <= e < 1 and positive mean motion, exact arithmetic", "why_tests_cant": "Equality of closed-form functions over a continuum of orbits, against an independent specification.", "anchors": ["src/propogation/initl.rs: initl", "src/propogation/sgp4init.rs: sgp4init"]}
{"id": "C57", "title": "Initialisation computes the published drag and long-period coefficients", "statement": "C1, C4, C5, D2, D3, D4 and the perigee-dependent s and q parameters stored by initialisation are those of Spacetrack Report #3 (including the 98 km, 156 km and 220 km switches), and the long-period coefficients are the published ones with the guard at i = 180 deg.", "quantifier": "all near-earth element sets with 0 <= e < 1 and positive mean motion, exact arithmetic", "why_tests_cant": "Equality of closed-form functions over a continuum of orbits, against an independent specification.", "anchors": ["src/propogation/sgp4init.rs: sgp4init lines 300-420"]}
{"id": "C58", "title": "The along-track drag series is the integral of the mean motion", "statement": "The polynomial added to the mean longitude (t2cof..t5cof) agrees with the integral of the decayed mean motion up to O(t^5) (full drag model) and O(t^2) (simplified drag model, perigee below 220 km).", "quantifier": "all near-earth element sets, exact arithmetic, as an asymptotic statement in t", "why_tests_cant": "Asymptotic statement about a power series.", "anchors": ["src/propogation/sgp4init.rs: sgp4init", "src/propogation/sgp4.rs: sgp4"]}
{"id": "C59", "title": "Resonance inclination functions are Kaula's", "statement": "The f-coefficients used for 12-hour and 24-hour resonances are the Kaula inclination functions F_lmp(i): exactly for those whose constants are exact, and within 1e-6 for the two (degree 5, order 2) whose decimal constants are rounded.", "quantifier": "all inclinations, exact arithmetic", "why_tests_cant": "Identity of trigonometric polynomials over a continuum, against an independent sum formula.", "anchors": ["src/propogation/dsinit.rs: dsinit lines 280-430"]}
{"id": "C60", "title": "Resonance eccentricity polynomials join up", "statement": "At the branch points 0.65, 0.7 and 0.715 the piecewise eccentricity polynomials used for 12-hour resonance agree from both sides up to a jump of at most 0.21 % (at 0.65) and 1.9 % (at 0.7 and 0.715).", "quantifier": "the piecewise polynomials as functions of all eccentricities", "why_tests_cant": "The size of a jump is a statement about one-sided limits, not sampled values.", "anchors": ["src/propogation/dsinit.rs: dsinit lines 290-360"]}
{"id": "C61", "title": "Initialisation stores the deep-space coefficients in the right fields", "statement": "For a deep-space element set, every lunar-solar periodic coefficient stored by initialisation (se2 ... xl4 and solar/lunar twins) and every lunar-solar secular rate is the published third-body expression of the Sun's or the Moon's position at the epoch, none swapped; the starting anomalies of Sun and Moon are those of the epoch.", "quantifier": "all deep-space element sets, exact arithmetic", "why_tests_cant": "Ranges over all element sets; swapped assignments leave each single number plausible.", "anchors": ["src/propogation/sgp4init.rs: sgp4init", "src/propogation/dscom.rs: dscom"]}
{"id": "C62", "title": "Deep-space propagation follows the published short-period pipeline", "statement": "For a deep-space element set and every time, the outcome of propagation is obtained by exactly the published long-period, Kepler and short-period corrections, with the perturbed inclination, from mean elements which carry secular gravity, simplified drag, the lunar-solar rate of the eccentricity and the lunar-solar periodics of the inclination (and nothing else of the deep-space theory); errors are reported exactly under the stated conditions.", "quantifier": "all deep-space element sets and all times, exact arithmetic", "why_tests_cant": "Equality of closed-form functions over a continuum, against an independent specification.", "anchors": ["src/propogation/sgp4.rs: sgp4"]}
{"id": "C63", "title": "Resonance start longitude and rate", "statement": "For 24-hour resonance the stored start longitude is M + node + argp - sidereal time reduced to one turn, for 12-hour resonance M + 2 node - 2 sidereal time, the stored rate is the secular rate of that angle minus the mean motion at epoch, and the stored coefficients are the published products of tesseral harmonic, Kaula inclination function and eccentricity function; without resonance all of them are zero.", "quantifier": "all element sets in a resonance window, exact arithmetic", "why_tests_cant": "Congruence modulo a turn over a continuum of inputs.", "anchors": ["src/propogation/dsinit.rs: dsinit lines 436-500"]}
{"id": "C64", "title": "Near-earth propagation is the published SGP4", "statement": "For every near-earth element set and every time, the outcome of propagation is that of Spacetrack Report #3's equations: secular gravity and drag, long-period terms, Kepler's equation by the clamped Newton iteration, short-period terms, orientation vectors, and km / km/s units; errors are reported exactly under the stated conditions.", "quantifier": "all near-earth element sets, all times, exact arithmetic", "why_tests_cant": "End-to-end equality with an independent closed-form specification over a continuum.", "anchors": ["src/propogation/sgp4.rs: sgp4", "src/propogation/sgp4init.rs: sgp4init", "src/propogation/initl.rs: initl"]}
{"id": "C65", "title": "Kepler's equation is solved", "statement": "For eccentricities up to 0.45 the Newton iteration stops by convergence (not by the iteration cap), and the eccentric longitude used satisfies Kepler's equation to 1.45e-12 and is within 3e-12 rad of the true solution.", "quantifier": "all mean elements with eccentricity up to 0.45, exact arithmetic", "why_tests_cant": "Convergence of a numerical iteration for a continuum of inputs.", "anchors": ["src/propogation/sgp4.rs: sgp4 lines 355-385"]}
{"id": "C66", "title": "Orbits above the atmosphere are accepted", "statement": "A near-earth element set with eccentricity at most 1/2 and perigee at least 1.01 earth radii (65 km up) initialises without error, and propagates without error to every time at which its mean elements are still of that kind.", "quantifier": "all such element sets and times, exact arithmetic", "why_tests_cant": "Absence of error over a continuum; the check is made after periodic terms are added, so it is not visible in the inputs.", "anchors": ["src/propogation/sgp4.rs: sgp4", "src/propogation/sgp4init.rs: sgp4init"]}
{"id": "C67", "title": "The satellite stays between perigee and apogee", "statement": "For a near-earth element set, the distance from the Earth's centre of every returned position lies between 0.996 of the mean perigee distance and 1.004 of the mean apogee distance at that time.", "quantifier": "all near-earth element sets and times with mean eccentricity at most 1/2 and mean perigee above one earth radius, exact arithmetic", "why_tests_cant": "Bound over a continuum of orbits, anomalies and perturbation phases.", "anchors": ["src/propogation/sgp4.rs: sgp4"]}
{"id": "C68", "title": "Reading and propagating always come back", "statement": "Reading any text as element sets (twoline2satrec, parse, parse_multiple) returns a result, an error or a panic but never hangs; and propagating any record to a calendar date returns for every date whose year is at most 2^31 in size, provided the record's epoch is NaN or below 2^50 days.", "quantifier": "all texts; all records and dates; exact arithmetic and f64", "why_tests_cant": "Termination over unbounded inputs.", "anchors": ["src/io.rs: twoline2satrec, parse, parse_multiple", "src/propogation/mod.rs: propogate_datetime", "src/propogation/dspace.rs: dspace"]}
{"id": "C69", "title": "Deep-space orbits above the atmosphere are accepted", "statement": "A deep-space element set (period at least 225 min, up to 41 days) with eccentricity at most 1/2 and perigee above 65 km initialises without error. Without drag, with a period up to 30 h and eccentricity at most 0.45, it also propagates without error for 69 days either way: lunar and solar terms together change the eccentricity by at most 1.05e-4 e/n, and at a rate of at most 3.4e-9 e/n per minute (n the mean motion in rad/min).", "quantifier": "all such element sets, epochs and times, exact arithmetic", "why_tests_cant": "Absence of error over a continuum of orbits and lunar-solar geometries; the check is made after periodic terms are added.", "anchors": ["src/propogation/sgp4.rs: sgp4", "src/propogation/sgp4init.rs: sgp4init", "src/propogation/dscom.rs: dscom", "src/propogation/dsinit.rs: dsinit", "src/propogation/dpper.rs: dpper"]}
{"id": "C70", "title": "Initialisation reports what propagation to the epoch reports", "statement": "The result of initialisation (state vector or error) is the result of propagating the initialised record to zero minutes, also after any sequence of propagations that return.", "quantifier": "all records, element sets, call sequences and every arithmetic (including f64 with NaN and overflow)", "why_tests_cant": "Equality over unbounded call sequences and all records.", "anchors": ["src/propogation/sgp4init.rs: sgp4init", "src/propogation/sgp4.rs: sgp4"]}
{"id": "C71", "title": "With drag, propagation ends in a reported error", "statement": "A near-earth element set whose drag changes the eccentricity (B* C4 is not zero) is reported as an error (Eccentricty) at every time further than (2 + 2|B* C5|) / |B* C4| minutes from epoch: propagation never extrapolates such a set for ever.", "quantifier": "all near-earth element sets with drag, all times beyond the bound, exact arithmetic", "why_tests_cant": "Behaviour at all sufficiently large times.", "anchors": ["src/propogation/sgp4.rs: sgp4", "src/propogation/sgp4init.rs: sgp4init"]}
{"id": "C72", "title": "A well-formed element set of an orbit above the atmosphere is accepted", "statement": "A two-line set rendered from field values in the TLE format, with non-negative second derivative, eccentricity at most 1/2, mean motion at least 0.025 rev/day and perigee (from the printed mean motion) at least 86 km up, is accepted by twoline2satrec, whatever its other contents.", "quantifier": "all such texts, exact arithmetic", "why_tests_cant": "All texts; the acceptance test runs a propagation with lunar-solar terms.", "anchors": ["src/io.rs: twoline2satrec, parse_satrec", "src/propogation/sgp4init.rs: sgp4init", "src/propogation/sgp4.rs: sgp4"]}
{"id": "C73", "title": "From the text of an element set to the published state", "statement": "Whatever near-earth record twoline2satrec makes of a well-formed two-line set (mantissas without leading zeros), propagating it to any time gives an error or exactly the position and velocity of SGP4 as published (Spacetrack Report 3 / Vallado) for the printed elements, at the eccentric longitude of the published Newton iteration.", "quantifier": "all such texts and times, exact arithmetic", "why_tests_cant": "End-to-end refinement over all texts and times.", "anchors": ["src/io.rs: twoline2satrec", "src/propogation/sgp4init.rs: sgp4init", "src/propogation/sgp4.rs: sgp4"]}
{"id": "C74", "title": "The resonance integrator is the published scheme, wherever it last stopped", "statement": "For every resonant (one-day or half-day) orbit and every time, the integrator takes whole 720-minute second-order Taylor steps from epoch towards the time and one step over the rest (with the rate law of the resonance, its slope as in C50), returns the resulting mean motion and mean anomaly, and leaves its state at the last grid point. The result is the same whether it starts at epoch or where an earlier call for any other time left it.", "quantifier": "all coefficients, all times, all earlier times, exact arithmetic", "why_tests_cant": "Unbounded number of integration steps; all call histories.", "anchors": ["src/propogation/dspace.rs: dspace lines 222-310"]}
{"id": "C75", "title": "What the record read from an element set holds", "statement": "The record made of a well-formed two-line set has the printed day of the printed year (1957 to 2056) as its epoch, the recovered (un-Kozai'd) mean motion, a semi-major axis, apogee and perigee height that follow from the printed mean motion by Kepler's third law in earth radii, is of the deep-space class exactly if the recovered period is at least 225 minutes, and stores the sidereal time of the epoch in [0, 2 pi).", "quantifier": "all such texts, exact arithmetic", "why_tests_cant": "All texts; composition of parsing, calendar, initialisation and sidereal time.", "anchors": ["src/io.rs: twoline2satrec, parse_satrec", "src/propogation/initl.rs: initl", "src/propogation/gstime.rs: gstime"]}
{"id": "C76", "title": "From the text of a deep-space element set to the state, errors included", "statement": "Propagating the deep-space record made of a well-formed two-line set to any time gives exactly the outcome (state or which error) of the part of the published deep-space theory the crate carries, with the printed elements and lunar-solar arguments counted from the printed epoch; likewise the complete outcome for near-earth sets.", "quantifier": "all such texts and times, exact arithmetic", "why_tests_cant": "End-to-end refinement over all texts and times, including every error branch.", "anchors": ["src/io.rs: twoline2satrec", "src/propogation/sgp4init.rs: sgp4init", "src/propogation/sgp4.rs: sgp4", "src/propogation/dscom.rs: dscom"]}
{"id": "C77", "title": "From an element set and a calendar date to the state", "statement": "Propagating the record of a well-formed two-line set to a UTC date-time (1900-03-01 to 2100-02-28) gives the outcome of the theory at the number of minutes, counted day by day in the Gregorian calendar, from the printed epoch to that date and time of day.", "quantifier": "all such texts and all such date-times, exact arithmetic", "why_tests_cant": "All pairs of texts and dates; needs the calendar, the parser and the theory together.", "anchors": ["src/propogation/mod.rs: propogate_datetime", "src/io.rs: twoline2satrec", "src/ext.rs: jday"]}
{"id": "C78", "title": "Elapsed time at a calendar date, in doubles", "statement": "When a state is asked for at a UTC date-time, the time handed to the theory is within 150 microseconds of the time, counted day by day in the calendar, from the printed epoch of the element set to that date-time; no rounding in the Julian dates, their difference or the conversion to minutes makes it worse.", "quantifier": "all well-formed two-line texts, all date-times from 1900-03-01 to 2100-02-28, IEEE-754 binary64", "why_tests_cant": "A bound on accumulated rounding over all dates and texts.", "anchors": ["src/propogation/mod.rs: propogate_datetime", "src/ext.rs: jday", "src/io.rs: twoline2satrec"]}
{"id": "C79", "title": "Sidereal time is accurate in doubles", "statement": "For every double Julian date within a century of J2000 the computed Greenwich sidereal time is finite, in [0, 2 pi), and within 1e-9 radians (6 mm at the equator) of the IAU polynomial as an angle.", "quantifier": "all doubles in that range, IEEE-754 binary64", "why_tests_cant": "Rounding of a polynomial with cancellation and a reduction modulo the double nearest to 2 pi, over all doubles.", "anchors": ["src/propogation/gstime.rs: gstime"]}
{"id": "C80", "title": "Elements read from text are accurate in doubles", "statement": "For every well-formed two-line text the parsed angles are within 1e-14 radians, the eccentricity within 2^-52 and the mean motion within 1e-15 radians per minute of the printed values, and all are finite.", "quantifier": "all such texts, IEEE-754 binary64", "why_tests_cant": "All texts; decimal-to-binary conversion composed with unit conversions.", "anchors": ["src/io.rs: parse_satrec"]}
{"id": "C81", "title": "The near-earth propagator is accurate in doubles", "statement": "For a near-earth record in doubles and a time within 100000 minutes of epoch, with coefficients of the usual size and eccentricity at most 0.44: if the propagator run in exact arithmetic on the numbers stored in the record stays outside the earth, then the run in double precision also returns a state (no error, no NaN), and each position component is within one metre and each velocity component within 1 mm/s of the exact run. The bound includes the Kepler iteration, which need not make the same number of steps.", "quantifier": "all such records and times; every libm whose functions are accurate to 2^-48; IEEE-754 binary64", "why_tests_cant": "Accumulated rounding over every operation and over an iteration with a data-dependent number of steps, for all records.", "anchors": ["src/propogation/sgp4.rs: sgp4"]}
{"id": "C82", "title": "The deep-space propagator is accurate in doubles", "statement": "For a deep-space record in doubles and a time within 100000 minutes of epoch, with coefficients of the usual size, eccentricity at most 0.44, perturbed eccentricity not about to become negative and inclination not within eight degrees of 180: if the propagator run in exact arithmetic on the numbers stored in the record stays outside the earth, then the run in double precision also returns a state (no error, no NaN, and the resonance integrator terminates), and each position component is within one metre and each velocity component within 1 mm/s of the exact run.", "quantifier": "all such records and times; every libm whose functions are accurate to 2^-48; IEEE-754 binary64", "why_tests_cant": "Accumulated rounding over every operation, the lunar-solar sums, and two loops with a data-dependent number of steps, for all records.", "anchors": ["src/propogation/sgp4.rs: sgp4", "src/propogation/dpper.rs: dpper", "src/propogation/dspace.rs: dspace"]}
{"id": "C83", "title": "Frame conversions, look angles and Doppler factor are accurate in doubles", "statement": "For finite double inputs with satellite coordinates up to 100000 km and observers up to 10000 km above or below the ellipsoid: the two frame rotations and the observer's earth-fixed position are within one micrometre of the formula evaluated exactly, the topocentric components within three; the range is within 0.1 mm; the sine of the elevation is within 1e-7/range(km) of exact; the azimuth agrees, modulo a turn, within 2e-8 divided by the horizontal distance in km; and the Doppler factor is within 1e-12 for velocities up to 1000 km/s per component. In particular none of them is NaN or infinite when the observer and satellite are at least 1 km apart.", "quantifier": "all such observers, satellites, velocities and sidereal angles; every libm whose functions are accurate to 2^-48; IEEE-754 binary64", "why_tests_cant": "Rounding errors for all inputs, with a bound that must degrade in the right way near the zenith and at close range.", "anchors": ["src/transforms.rs: eci_to_ecf, ecf_to_eci, geodedic_to_ecf, topocentric, ecf_to_look_angles", "src/doppler_factor.rs: doppler_factor"]}
{"id": "C84", "title": "Initialisation and propagation together are accurate in doubles", "statement": "Given element values that are the exact ones up to rounding (relative error two ulps in eccentricity and drag term, five in mean motion; a few 1e-15 rad in the angles), initialising a record and propagating it, all in doubles, succeeds, and the position is within one metre and the velocity within two millimetres per second, in every component, of what the same program computes in exact arithmetic from the exact elements. This covers every coefficient computed at initialisation. It holds for ordinary low orbits up to a month from epoch: perigee of the mean orbit at least 240 km up, eccentricity at most 0.43 and not within 1e-9 of the threshold 1e-4, inclination below 171 degrees, 6.45 to 17.98 revolutions per day, and a drag term bounded in terms of time span and eccentricity (a perigee below 400 km makes it count by the fifth power of 322 km over the height above 78 km). The state returned by initialisation itself is equally accurate.", "quantifier": "all such elements, roundings of them, and finite times; every libm whose functions are accurate to 2^-48; IEEE-754 binary64", "why_tests_cant": "The rounding errors of sixty coefficients, some of which divide by the eccentricity, and their amplification over a month, for all elements.", "anchors": ["src/propogation/sgp4init.rs: sgp4init", "src/propogation/initl.rs: initl", "src/propogation/sgp4.rs: sgp4"]}
{"id": "C85", "title": "From the printed text to the state within a metre of the published theory", "statement": "A well-formed two-line set of an ordinary low orbit (as in C84, in terms of the printed digits) is accepted, and the state computed in doubles from the text, for any time within a month of the epoch, is within one metre and two millimetres per second per component of that of SGP4 as published in Spacetrack Report No. 3 for the printed elements. For a calendar date the state is that close to the theory at an instant within 150 microseconds of the one asked for, and within 4.3 metres and 25 millimetres per second of the theory (with the exact, unique solution of Kepler's equation) at exactly the instant asked for.", "quantifier": "all well-formed two-line texts with normalised mantissas, finite times, dates 1900-03-01 to 2100-02-28; every libm accurate to 2^-48; IEEE-754 binary64", "why_tests_cant": "It joins parsing, unit conversion, calendar arithmetic, initialisation, secular theory, the Kepler iteration and rounding in one statement about all texts; the tests compare 3 orbits with tolerances taken from another implementation.", "anchors": ["src/io.rs: twoline2satrec, parse_satrec", "src/propogation/sgp4init.rs: sgp4init", "src/propogation/sgp4.rs: sgp4", "src/propogation/mod.rs: propogate_datetime"]}
{"id": "C86", "title": "Speed and distance obey the energy equation", "statement": "Whenever propagation succeeds, the speed v and distance r returned obey v^2 = mu (2/r - 1/a), where mu = 398600.5 km^3/s^2 and a is the semi-major axis of the mean orbit at that time: v^2 r / mu + r / a differs from 2 by at most 0.008. Without drag a is that of the elements given, so the energy is conserved for all times. Units of position and velocity are thereby tied to each other.", "quantifier": "all element sets and times (real arithmetic), near-earth and deep-space, such that the mean orbit has eccentricity at most 1/2 and perigee above the surface", "why_tests_cant": "A test sees single states; the law is about every state of every orbit, and is not an equation of the program.", "anchors": ["src/propogation/sgp4.rs: sgp4", "src/propogation/sgp4init.rs: sgp4init"]}
{"id": "C87", "title": "The line to the satellite sweeps equal areas in equal times", "statement": "Whenever propagation succeeds, the square of the length of position x velocity (km^2/s) is mu a (1 - e^2) up to 1.1 per cent, with a, e the semi-major axis and eccentricity of the mean orbit at that time: the areal velocity is constant up to 0.6 per cent along an orbit, and without drag it is the same at all times.", "quantifier": "all element sets and times (real arithmetic), near-earth and deep-space, such that the mean orbit has eccentricity at most 1/2 and perigee above the surface", "why_tests_cant": "A conservation law over all times of an orbit and all orbits.", "anchors": ["src/propogation/sgp4.rs: sgp4", "src/propogation/sgp4init.rs: sgp4init"]}
{"id": "C88", "title": "The velocity is the rate of change of the position", "statement": "For every record of a near-earth orbit the positions returned at all times lie on one differentiable curve (up to 0.03 millimetres per earth radius of semi-major axis, the tolerance of the solution of Kepler's equation), and the velocity returned (km/s) is the rate of that curve up to 6.1 per cent of the mean orbital speed, in each component. Without drag the curve is moreover Lipschitz for all times: positions do not jump, two positions differ by at most 2.7 times the mean orbital speed times the time between them.", "quantifier": "all near-earth element sets (real arithmetic) with eccentricity at most 0.43 and inclination below 171 degrees: without drag, perigee above the surface, all times; with drag, eccentricity at least 0.001, semi-major axis at most two radii, perigee at least 240 km, drag term at most 0.001 and at most 5000 e^2, all times t with |B* t| at most 2, the drag term below 400 km multiplied by the fifth power of 322 km over the height above 78 km", "why_tests_cant": "Position and velocity come from separate formulas; that one is the derivative of the other is a statement about all times of all orbits and about limits, which no sample of times can show.", "anchors": ["src/propogation/sgp4.rs: sgp4", "src/propogation/sgp4init.rs: sgp4init"]}
{"id": "C89", "title": "The satellite accelerates as Newton's law of attraction says", "statement": "For every record of a near-earth orbit the positions and velocities returned at all times lie on two differentiable curves X and W (up to the tolerance of the solution of Kepler's equation). The rate of X is W up to 6.1 per cent of the mean orbital speed, and the rate of W is the attraction of the earth at X, -398600.5 X/|X|^3 km/s^2, up to 6.5 per cent of its size, in each component: towards the centre of the earth and with the inverse square of the distance.", "quantifier": "all near-earth element sets (real arithmetic) with eccentricity at most 0.43 and inclination below 171 degrees: without drag, perigee above the surface, all times; with drag, eccentricity at least 0.001, semi-major axis at most two radii, perigee at least 240 km, drag term at most 0.001 and at most 5000 e^2, all times t with |B* t| at most 2, the drag term below 400 km multiplied by the fifth power of 322 km over the height above 78 km", "why_tests_cant": "The code nowhere evaluates an acceleration; that the closed formulas of the theory obey the equation of motion is a statement about second derivatives at all times of all orbits, which no sample of states can show.", "anchors": ["src/propogation/sgp4.rs: sgp4", "src/propogation/sgp4init.rs: sgp4init"]}
{"id": "C90", "title": "Where to look for the satellite: from text, date and observer to range, elevation and azimuth", "statement": "In IEEE doubles, for every element set of an ordinary low orbit as printed, every date and time of day within a month of the printed epoch and every observer (as in C85): propagating the record to the date succeeds, and the range, elevation and azimuth computed from the position, from the Greenwich sidereal time of the date and from the observer's coordinates point along the line from the observer's place on the ellipsoid to the position of the published theory at exactly that instant, turned by the IAU sidereal angle of that instant, up to 8 metres: range within 8 m, sine of elevation within 16 m divided by the distance, azimuth (from north through east) within 32 m divided by the horizontal distance.", "quantifier": "all well-formed two-line texts of low orbits as in C85 (eccentricity at most 0.43 and not exactly 0.0001, 6.45 to 17.98 revolutions per day, inclination at most 171 degrees, perigee at least 240 km up, drag term at most 0.001 (below 400 km multiplied by the fifth power of 322 km over the height above 78 km)), all whole seconds within 30 days of the epoch, 1900-03-01 to 2100-02-28, all observers with finite coordinates and height at most 10000 km (at least 100 km below the perigee: no condition on the distance; otherwise satellite at least 1.1 km away), every libm within the stated accuracy", "why_tests_cant": "It composes every stage of the crate (text, initialisation, propagation, Julian date, sidereal time, frames, look angles), each with its own rounding; a sample of dates cannot bound the error for all of them.", "anchors": ["src/transforms.rs: ecf_to_look_angles", "src/transforms.rs: eci_to_ecf", "src/propogation/gstime.rs: gstime_datetime", "src/propogation/mod.rs: propogate_datetime", "src/io.rs: twoline2satrec"]}
{"id": "C91", "title": "The ground track: from text and date to latitude, longitude and height", "statement": "In IEEE doubles, for every element set of an ordinary low orbit as printed and every date and time of day within a month of the printed epoch (as in C85): the position of the published theory at exactly that instant, turned by the IAU sidereal angle of that instant, has geodetic coordinates, and the conversion of the computed position with the computed sidereal time returns. The latitude it returns is within 152 m (times the cosine of the latitude) plus 17 m of the true one as seen from the centre of the earth, the longitude within 22 m divided by the distance from the axis, and the height is too low by a(1/w - 1/sqrt w), w = 1 - e2 sin2 of the latitude (the defect of C40, up to 21.6 km), within 155 m plus 17 m, for satellites at least a kilometre off the axis.", "quantifier": "all well-formed two-line texts of low orbits as in C85, all whole seconds within 30 days of the epoch, 1900-03-01 to 2100-02-28; all geodetic coordinates of the true position; every libm within the stated accuracy", "why_tests_cant": "It composes parsing, initialisation, propagation, Julian date, sidereal time, two normalisation loops and twenty latitude iterations, all rounded; the repository has no test of the conversion at all, and a sample of dates cannot bound the error.", "anchors": ["src/transforms.rs: eci_to_geodedic", "src/propogation/gstime.rs: gstime_datetime", "src/propogation/mod.rs: propogate_datetime", "src/io.rs: twoline2satrec"]}
{"id": "C92", "title": "Coordinates can always be shown in degrees", "statement": "In IEEE doubles the checks of degrees_lat and degrees_long are the mathematical ones: a double is rejected exactly when it is infinite or exceeds a quarter (half) turn, although the program compares with rounded bounds. Whatever one checked conversion returns is accepted by the conversion back, the ends of the ranges go to each other exactly, and the latitude and longitude found by eci_to_geodedic are always accepted. From printed text and date (as in C91) the degrees shown are the geodetic latitude of the position of the published theory within 0.0015 degrees and its longitude within 1.3 degrees divided by the distance from the axis in km, up to whole turns.", "quantifier": "all doubles; all finite positions with components up to 2^450 and all sidereal angles up to 2^50; all printed sets and dates of C91; every libm within the stated accuracy", "why_tests_cant": "Rounding could push a value at the boundary just out of range and panic; only a proof covers every double and every position over the poles or the date line.", "anchors": ["src/transforms.rs: degrees_lat, degrees_long, radians_lat, radians_long, eci_to_geodedic"]}
{"id": "C93", "title": "From the text of a deep-space set to the state, in doubles", "statement": "In IEEE doubles, with a libm of the stated accuracy, a well-formed two-line set of an ordinary deep-space orbit (0.573 to 6.371 revolutions a day, eccentricity up to 0.41, inclination up to 160 degrees, drag term up to 0.001) is accepted by twoline2satrec as a deep-space orbit, and sgp4 for any time within 30 days of the epoch returns a position within one metre and a velocity within one millimetre per second, in every component, of those of the deep-space theory as the crate carries it (C62), evaluated exactly for the printed elements and the printed epoch. The same for propogate_datetime at any date and time of day, at an instant within 150 microseconds of the one asked for.", "quantifier": "all such printed sets, all finite times within 30 days, all dates within 30 days of the epoch, every libm within the stated accuracy", "why_tests_cant": "Rounding of the text, of the epoch (half a tenth of a millisecond), of the lunar and solar arguments and of some two thousand operations adds up differently at every set and time; a few reference vectors say nothing about the others.", "anchors": ["src/io.rs: twoline2satrec, parse_satrec", "src/propogation/sgp4init.rs: sgp4init", "src/propogation/dscom.rs: dscom", "src/propogation/dpper.rs: dpper", "src/propogation/dsinit.rs: dsinit", "src/propogation/sgp4.rs: sgp4", "src/propogation/mod.rs: propogate_datetime"]}
{"id": "C94", "title": "Where to look for a deep-space satellite, and what it is above", "statement": "In IEEE doubles, for every element set of an ordinary deep-space orbit as printed (as in C93) and every date and time of day within a month of the printed epoch: propagating the record to the date succeeds. Seen by any observer within 150 km of the ellipsoid, the range, elevation and azimuth computed from the position, from the Greenwich sidereal time of the date and from the observer's coordinates point, up to 3.3 metres, along the line from the observer's place to the position of the theory as the crate carries it (C62) at an instant within 150 microseconds of the one asked for, turned by the IAU sidereal angle of the date. The conversion to geodetic coordinates returns the latitude, longitude and height of that position up to 1.2 metres (times the factors of C91) beyond the defect of C40.", "quantifier": "all printed sets as in C93, all whole seconds within 30 days of the epoch, all observers with finite coordinates and height within 150 km of the ellipsoid; all geodetic coordinates of the true position; every libm within the stated accuracy", "why_tests_cant": "It composes text, lunar-solar initialisation, propagation, Julian date, sidereal time, frames and look angles, each with its own rounding; no sample of sets, dates and observers bounds the error for all.", "anchors": ["src/transforms.rs: ecf_to_look_angles", "src/transforms.rs: eci_to_ecf", "src/transforms.rs: eci_to_geodedic", "src/propogation/gstime.rs: gstime_datetime", "src/propogation/mod.rs: propogate_datetime", "src/io.rs: twoline2satrec"]}
{"id": "C95", "title": "The Doppler factor is that of the range rate", "statement": "For every point of observation, position away from it and velocity, in exact arithmetic: the Doppler factor is one plus the absolute value of the range rate (the derivative of the distance to the satellite moving with that velocity) over the speed of light, up to |v|^2 / (2 distance) over the speed of light, because the factor takes the change of the distance over one second along a straight line. In IEEE doubles, for every ordinary low or deep-space element set as printed and every date and time of day within a month of the epoch: the factor computed from the propagated state is one plus the size of the range rate of the theory (deep-space: as the crate carries it, at an instant within 150 microseconds) over the speed of light, up to 0.51 (|v| + 0.1)^2 / distance + 10^-4 km/s over the speed of light.", "quantifier": "all real vectors with positive distance; all printed sets as in C85 and C93, all whole seconds within 30 days of the epoch, all points of observation with finite components up to 100000 km and at least 1.1 km from the satellite; every libm within the stated accuracy", "why_tests_cant": "The deviation of the one-second difference from the derivative is an inequality over all vectors, and the accuracy end to end composes parsing, propagation and the formula, each with its own rounding.", "anchors": ["src/doppler_factor.rs: doppler_factor", "src/propogation/mod.rs: propogate_datetime", "src/io.rs: twoline2satrec"]}
{"id": "C96", "title": "Which way node and perigee drift", "statement": "Initialising any element set whose mean perigee is above the surface leaves a rate of the node that is negative (westward) exactly when the inclination is below 90 degrees and positive exactly when it is above, and equal to -(3/2) J2 n cos i / p^2 up to one per cent; and a rate of the perigee that is positive when 5 cos^2 i >= 1.003 (inclination below 63.4 degrees, or above 116.6) and negative when 5 cos^2 i <= 1.", "quantifier": "all element sets with eccentricity in [0, 1), positive recovered mean motion and mean perigee at least one earth radius from the centre, near-earth and deep-space; exact arithmetic", "why_tests_cant": "The sign depends on three coefficients, two of them small and of changing sign; that no inclination, eccentricity and size makes it wrong is an inequality over all element sets.", "anchors": ["src/propogation/sgp4init.rs: sgp4init", "src/io.rs: Satrec (nodedot, argpdot)"]}
{"id": "C97", "title": "Drag makes the orbit shrink", "statement": "For every near-earth element set with a positive drag term and mean perigee of at least 98 km, of two times (the first not earlier than a stated span before the epoch) the semi-major axis of the mean orbit is strictly smaller and the mean motion strictly larger at the later one, as long as the orbit has not collapsed; the returned positions and velocities obey the energy equation of these axes.", "quantifier": "all near-earth element sets with positive drag term, eccentricity in [0, 1), positive recovered mean motion and mean perigee of at least 98 km; all pairs of times as stated; exact arithmetic", "why_tests_cant": "The sign of the leading drag coefficient depends on eccentricity, inclination and height through a sum of terms of either sign, and the higher coefficients enter with powers of the time.", "anchors": ["src/propogation/sgp4init.rs: sgp4init", "src/propogation/sgp4.rs: sgp4"]}
{"id": "C98", "title": "Reading never merges or swaps printed values", "statement": "For any two printed two-line sets, whichever of inclination, node, perigee, anomaly, eccentricity, mean motion, epoch day, first derivative or drag term is compared, the set that prints the smaller value yields the record with the smaller double; and the set with the earlier printed epoch, counted by the calendar, yields the smaller Julian date. So different printed values never become equal doubles.", "quantifier": "all pairs of printed two-line sets with non-negative second derivative (drag terms normalised or zero, epoch days up to 400 for the Julian dates); IEEE-754 doubles", "why_tests_cant": "Each conversion rounds several times; that no pair out of the billions of printable values per field collides or changes places needs an error bound against the step of the format.", "anchors": ["src/io.rs: parse_satrec", "src/ext.rs: jday", "src/constants.rs: DEG_2_RAD, XPDOTP"]}
{"id": "C99", "title": "Element sets can be written and read back", "statement": "Every element set whose values fit the columns of the two-line format can be written as two lines that show these values; read as a file, with any blank lines in between, the text gives exactly the result of reading the two lines. How numbers are spelled (leading blanks or zeros, plus sign or blank, the contents of unused columns) does not change the result, and two sets that are written and read to the same record had the same satellite number, epoch, angles, eccentricity, mean motion, first derivative and drag term.", "quantifier": "all element sets whose values fit the columns (second derivative not negative for reading; drag terms normalised or zero for recovery); all spellings; exact arithmetic of any kind for the results, IEEE-754 doubles for recovery", "why_tests_cant": "A round trip test covers a few sets; that no representable set is refused, misread or merged with another ranges over some 10^60 texts.", "anchors": ["src/io.rs: parse, twoline2satrec, parse_satrec"]}
{"id": "C100", "title": "A later date is a later propagation time", "statement": "For two dates given to the second, propagating a record to each is propagating it to a number of minutes since its epoch; the two numbers differ by the time between the dates to within 90 microseconds, and the later date always has the strictly larger number, across month ends, leap days and years.", "quantifier": "all records with epochs within 45000 days of J2000, in particular all that are read from printed sets; all pairs of dates from 1900-03-01 to 2100-02-28 to the second; IEEE-754 doubles", "why_tests_cant": "The minutes are the difference of two rounded Julian dates of about 2.4 million; that no pair of seconds in 200 years is merged or swapped needs an error bound.", "anchors": ["src/propogation/mod.rs: propogate_datetime", "src/ext.rs: jday"]}
{"id": "C101", "title": "What the propagated state does not depend on", "statement": "The satellite number and the two derivatives of the mean motion (columns 3-7, 34-43 and 45-52 of line 1), like every column the reader ignores, have no influence on any propagated state: two accepted sets that agree in the epoch, the drag term and the elements are initialised alike and give the same states or errors at all times. For near-earth orbits the epoch has no influence either: at the same number of minutes after their epochs the states are the same.", "quantifier": "all pairs of ASCII line pairs that the reader accepts; all times; every arithmetic; near-earth and deep-space (epoch: near-earth only)", "why_tests_cant": "A test perturbs a few columns of a few sets; independence is a statement about pairs of all inputs at all times.", "anchors": ["src/io.rs: twoline2satrec", "src/propogation/sgp4init.rs: sgp4init", "src/propogation/sgp4.rs: sgp4"]}
{"id": "C102", "title": "Orbital planes of a constellation", "statement": "Two printed element sets of an ordinary low orbit that differ only in the node (and in number, epoch and derivatives) are both accepted, and at the same number of minutes after their epochs, up to a month, the second satellite is where the first one would be after a turn about the axis of the Earth by the difference of the printed nodes, to within 2.5 metres and 5 millimetres per second in every component.", "quantifier": "all pairs of printed sets of ordinary low orbits that differ only in node and label; all times up to a month from epoch; IEEE-754 doubles with a faithful math library", "why_tests_cant": "The turn is exact only in exact arithmetic; in doubles all later roundings differ between the two sets, and a bound for all of them at all times is an error analysis.", "anchors": ["src/io.rs: twoline2satrec", "src/propogation/sgp4.rs: sgp4"]}
{"id": "C103", "title": "Above the horizon means in sight", "statement": "For an observer at or above the ground, a satellite whose elevation is not negative can be seen: no point of the straight line to it is below the surface of the reference ellipsoid. For an observer on the ground the converse holds too: a satellite with negative elevation is hidden by the Earth. No satellite is above the horizon of two observers at opposite places of the Earth. From the printed text, the calendar date and the observer on, in doubles: a computed elevation of at least 1/2000 radian means that the satellite of the published theory is in sight, and one of at most -1/2000 that it is hidden.", "quantifier": "all observers and satellite positions in exact arithmetic; all printed sets of ordinary low orbits, all dates within a month and all observers at least 100 km below the perigee in doubles", "why_tests_cant": "A test checks the elevation of a few positions; that the sign of the elevation decides visibility is geometry of the whole ellipsoid.", "anchors": ["src/transforms.rs: ecf_to_look_angles, topocentric, geodedic_to_ecf"]}
{"id": "C104", "title": "The satellite keeps below the latitude of its inclination", "statement": "From a printed element set and a calendar date within a month, in doubles: the latitude returned for the satellite is at most the printed inclination, and for retrograde orbits at most its supplement to 180 degrees, up to 0.004 radian (0.23 degrees, most of which is the difference of geodetic and geocentric latitude). For deep-space sets the margin is 0.022 radian (1.3 degrees, for the pull of moon and sun on the inclination); so a geostationary satellite stays over the equator.", "quantifier": "all printed sets of ordinary low, middle and deep-space orbits; all dates within a month of the epoch; IEEE-754 doubles with a faithful math library", "why_tests_cant": "A test looks at a few points of a few ground tracks; a bound for all orbits and instants needs the theory and an error analysis through reading, propagation, sidereal time and the iteration for the latitude.", "anchors": ["src/transforms.rs: eci_to_geodedic", "src/propogation/mod.rs: propogate_datetime", "src/io.rs: twoline2satrec"]}
{"id": "C105", "title": "The satellite goes round: every revolution takes it north and south of the equator", "statement": "From a printed element set inclined by at least one degree, in doubles: every interval of 1.2 printed revolutions within range contains a double-precision time for which the propagator reports a position north of the equatorial plane by at least 5000 km times the sine of the inclination less 3 km (80 km at the least), and one for which it reports a position as far south. For deep-space sets inclined by at least two degrees the same holds with 4400 km times the sine of the inclination less 81 km (70 km at the least), within a month of the epoch.", "quantifier": "all printed sets of ordinary low and middle orbits inclined by 1 to 171 degrees, and of ordinary deep-space orbits inclined by 2 to 160 degrees; all intervals of 1.2 revolutions within a month of the epoch; IEEE-754 doubles with a faithful math library", "why_tests_cant": "That something happens in every revolution is a liveness statement about a continuum of intervals; a test follows one satellite over a few sampled instants.", "anchors": ["src/propogation/sgp4.rs: sgp4", "src/io.rs: twoline2satrec"]}
{"id": "C106", "title": "Consecutive positions agree with the velocity between them", "statement": "Dead reckoning, from a printed element set, in doubles: of two times in range, D minutes apart, the position reported for the later is that reported for the earlier moved by its reported velocity, in every coordinate up to 2.1 metres plus 29.4 D km (6 per cent of the speed of a low orbit: terms of the theory that the velocity leaves out) plus 533 D^2 km (what gravity can do in the time). In particular reported positions never jump, and velocities have the right sign and unit. The same for two calendar dates, over the time that the calendar counts between them.", "quantifier": "all printed sets of ordinary low and middle orbits; all pairs of double-precision times, and of dates, within range; IEEE-754 doubles with a faithful math library", "why_tests_cant": "Jumps where angles wrap around, or a velocity of the wrong sign, at some time of some orbit, are not found by sampling; the statement ranges over all pairs of times and all element sets.", "anchors": ["src/propogation/sgp4.rs: sgp4", "src/io.rs: twoline2satrec"]}
{"id": "C107", "title": "From the point below it the satellite is seen overhead", "statement": "The two ways of locating a satellite agree, from text and date, in doubles: convert the reported position to longitude and latitude, put an observer there at sea level, and the look angles of the same satellite at the same moment have an elevation of at least 89 degrees and a range equal to the geodetic height up to 201 metres. The reported height, which the missing square root makes too low, is less than that range by at most 22 km and more by at most 400 metres.", "quantifier": "all printed sets of ordinary low, middle and deep-space orbits; all calendar moments in range; IEEE-754 doubles with a faithful math library", "why_tests_cant": "The agreement of six functions (propagation, sidereal time, geodetic conversion, earth-fixed conversion, observer position, look angles), over the whole earth including both poles and the date line, is not settled by trying places.", "anchors": ["src/transforms.rs: eci_to_geodedic", "src/transforms.rs: ecf_to_look_angles", "src/transforms.rs: geodedic_to_ecf", "src/transforms.rs: eci_to_ecf", "src/propogation/mod.rs: propogate_datetime"]}
{"id": "C108", "title": "A geostationary satellite stands still", "statement": "From text and date, in doubles: for a nearly circular, nearly equatorial deep-space set the longitude that is reported is the mean longitude of the theory (node plus perigee plus mean anomaly, each with its secular rate) less the sidereal angle of the moment, up to 2.2 times the eccentricity plus 0.0015 radian and whole turns. So a set whose mean motion is one revolution per sidereal day to four decimals is reported, at any two moments within a month of its epoch, at longitudes that differ by at most 0.08 degrees for each day between them plus 4.4 times the eccentricity plus 0.2 degrees, across the date line too.", "quantifier": "all printed deep-space sets with eccentricity up to 0.01 and inclination up to one degree, the geostationary ones for the second part; all pairs of calendar moments within a month of the epoch; IEEE-754 doubles with a faithful math library", "why_tests_cant": "That the satellite rate and the earth rate cancel over a month, through two separate chains of functions (propagation and sidereal time), for every epoch, longitude and pair of dates, is a statement about all of them at once; a test sees one satellite on one day.", "anchors": ["src/propogation/mod.rs: propogate_datetime", "src/transforms.rs: eci_to_geodedic", "src/propogation/gstime.rs: gstime_datetime", "src/io.rs: twoline2satrec"]}
{"id": "C109", "title": "Distance and speed fit the printed revolutions per day (third law of Kepler)", "statement": "From text to state, in doubles: let A be the semi-major axis that the third law of Kepler gives for the printed number of revolutions per day, with the gravitational parameter 398600.5 km^3/s^2. The reported distance from the centre of the earth is between 0.99 A (1 - e) and 1.01 A (1 + e), e being the printed eccentricity (for deep-space sets 1.031 times it), and reported distance r and speed v obey the energy equation v^2 r / 398600.5 = 2 - r / A up to 0.015.", "quantifier": "all printed sets of ordinary low and middle orbits and all double-precision times in range; all printed sets of ordinary deep-space orbits and all double-precision times within a month of the epoch; faithful math library", "why_tests_cant": "Ties the text of the set (revolutions per day) to the units and size of both outputs for every set and instant, rounding included; a test compares with one stored ephemeris.", "anchors": ["src/propogation/sgp4.rs: sgp4", "src/propogation/sgp4init.rs: sgp4init", "src/io.rs: twoline2satrec"]}
{"id": "C110", "title": "The orbit is tilted, and turns, as printed", "statement": "From text to state, in doubles: the angular momentum (cross product) of the reported position and velocity is at least 40000 km^2/s, and the cosine of its angle to the axis of the earth is the cosine of the printed inclination up to 0.0006 (0.0185 for deep-space sets, where sun and moon turn the plane). So a satellite with a printed inclination clearly below 90 degrees is reported to go round eastward, and one clearly above westward.", "quantifier": "all printed sets of ordinary low and middle orbits and all double-precision times in range; all printed sets of ordinary deep-space orbits and all double-precision times within a month of the epoch; faithful math library", "why_tests_cant": "It relates both outputs to each other and to a printed column for every set and every instant, rounding included; a wrong sign or a swapped axis in one of many trigonometric formulas may show only for some node, perigee or phase.", "anchors": ["src/propogation/sgp4.rs: sgp4", "src/io.rs: twoline2satrec"]}
{"id": "C111", "title": "The plane of the orbit turns at the rate the oblate earth gives", "statement": "From text to state, in doubles: the plane spanned by the reported position and velocity has the printed inclination, and an ascending node that is the printed one moved by -3/2 J2 (R / (A (1 - e^2)))^2 n cos i per minute since epoch (with printed revolutions per day n, eccentricity e and inclination i, and A from Kepler's third law), up to three per cent of that motion and 0.0014 in each component of the unit normal. So the plane turns westward for inclinations below 90 degrees and eastward above. For deep-space satellites the same holds with 0.0193 in each component of the normal.", "quantifier": "all printed sets of ordinary low and middle orbits and of deep-space orbits, and all double-precision times in range, before and after the epoch; faithful math library", "why_tests_cant": "It relates both outputs, three printed columns and the time for every set and every instant, rounding included; a wrong sign or a missing factor in the secular rate shows only slowly with time and depends on the orbit.", "anchors": ["src/propogation/sgp4.rs: sgp4", "src/propogation/sgp4init.rs: sgp4init", "src/io.rs: twoline2satrec"]}
{"id": "C112", "title": "At the epoch the satellite is where the printed elements put it, and moves as they say", "statement": "From text to state, in doubles: the position reported for zero minutes since epoch is, in each coordinate, the textbook position on the ellipse with the printed eccentricity e, inclination, node, argument of perigee and mean anomaly (Kepler's equation solved exactly, three rotations) and the semi-major axis A that Kepler's third law gives for the printed revolutions per day, up to (0.014 + 0.051 e) A. The velocity reported there is, in each component, the textbook velocity on that ellipse at the printed mean motion n, up to (0.031 + 0.146 e) A n. For deep-space satellites the same holds with (0.034 + 0.07 e) A and (0.05 + 0.179 e) A n.", "quantifier": "all printed sets of ordinary low and middle orbits (eccentricity up to 0.43, inclination up to 171 degrees, perigee above 240 km) and of deep-space orbits (0.573 to 6.371 revolutions per day, eccentricity up to 0.41, inclination up to 160 degrees); faithful math library", "why_tests_cant": "Six printed columns enter through nested trigonometry; a swapped pair of angles or a wrong sign gives the right place for some sets (circular, equatorial, zero perigee) and a wrong one for others.", "anchors": ["src/propogation/sgp4.rs: sgp4", "src/propogation/sgp4init.rs: sgp4init", "src/io.rs: twoline2satrec"]}
{"id": "C113", "title": "The line to the satellite sweeps equal areas in equal times, at the printed rate", "statement": "From text to state, in doubles: at every time in range, the square of the length of position x velocity (twice the area the line from the centre of the earth to the satellite sweeps in a second) is mu A (1 - e^2), with the printed eccentricity e and the semi-major axis A that Kepler's third law gives for the printed revolutions per day: up to 1.7 per cent for near-earth satellites, 3 per cent within a month of the epoch for deep-space ones.", "quantifier": "all printed sets of ordinary low, middle and high orbits, and all double times in range; faithful math library", "why_tests_cant": "The product must stay constant while position and velocity each swing through the whole orbit; a wrong radius, along-track rate or axis breaks it at some points of the orbit only.", "anchors": ["src/propogation/sgp4.rs: sgp4", "src/propogation/sgp4init.rs: sgp4init", "src/io.rs: twoline2satrec"]}
{"id": "C114", "title": "Around the epoch the satellite moves along the printed ellipse, at the printed pace", "statement": "From text to state, in doubles: the position reported for t minutes since epoch (before or after) is, in each coordinate, that of undisturbed motion on the ellipse of the printed elements - eccentric anomaly E with E - e sin E = M + n t, printed mean anomaly M and revolutions per day n, semi-major axis A of Kepler's third law - up to (0.017 + 0.051 e + 0.03 phi) A, where phi is the angle n |t|, and the velocity that of this motion up to (0.043 + 0.148 e + 0.084 phi) A n; for deep-space satellites up to (0.032 + 0.07 e + 0.022 phi) A and (0.05 + 0.18 e + 0.065 phi) A n within a month of the epoch.", "quantifier": "all printed sets of ordinary low, middle and high orbits and all double times in range; faithful math library", "why_tests_cant": "Sign of the time, pace, sense of revolution and all six printed columns enter together; a test compares a few instants of a few orbits with stored output.", "anchors": ["src/propogation/sgp4.rs: sgp4", "src/propogation/sgp4init.rs: sgp4init", "src/io.rs: twoline2satrec"]}
