{
 "C01": "All decorated functions for every backend; get_azimuth_fast has no decorator of its own: never a value in any arithmetic, exactly the documented exception with the math and numpy backends. get_radiation_direct and simulate_span are not decorated and not claimed.",
 "C09": "False as stated: January to March of every year from 2015 on return the 2014 value of that month. C09_refuted is the counterexample, C09_after_table_partial the exact behaviour.",
 "C10": "Exact real arithmetic (rounding not modelled).",
 "C11": "Exact real arithmetic.",
 "C12": "Exact real arithmetic.",
 "C13": "Exact real arithmetic.",
 "C27": "False as stated (the declination parallax uses the axial distance in the denominator and is not the rigorous projection). C27_refuted is the counterexample; the partial theorems give the rigorous special case and the error bound of 0.003 degrees.",
 "C28": "False as stated: the parallax is multiplied by the distance instead of divided (8.794/(3600/R)).",
 "C30": "Exact real arithmetic. The value of the float tangent at its pole is a parameter tp; the bound needs |tp| >= 1 (floats give about 1.6e16), existence and sign need tp different from 0.",
 "C31": "UtcFields d c says that d is an aware datetime whose UTC fields are c (years 1..9999).",
 "C41": "False as stated: for altitudes just below the horizon math.exp raises OverflowError before the result is multiplied by 0. The partial theorems give the exact behaviour; C106 adds the band where double precision returns nan.",
 "C43": "False as stated: the function is constantly 1 in exact arithmetic.",
 "C44": "False as stated: temperature, pressure and the turbidity of the diffuse part are ignored.",
 "C47": "A complex result is represented by the error complexResult in the model.",
 "C68": "False as stated: the altitude in degrees is passed to sin. C68_refuted has a concrete witness (the pressure is chosen to place the altitude at 67.5 degrees).",
 "C69": "False as stated: the altitude in degrees is passed to sin and cos.",
 "C70": "False as stated: the obliquity in degrees is passed to cos. C70_error_partial bounds the effect.",
 "C52": "False of the code: with a UTC clock at longitude 180 the equatorial sunrise is reported for the evening before the requested day (C52_refuted). The partial theorems give the exact condition and a sufficient one (clock within one hour of mean solar time, day at most 21 h).",
 "C57": "False as stated for `where` only: once numpy is installed, use_math() leaves `where` bound to numpy.where (C57_refuted). All other names follow the last switch; C57_where_iff_partial gives the exact condition.",
 "C62": "False as stated: every broadband, beam, diffuse and global entry point raises (missing name, wrong arity, list used as number); C62_exceptions_partial gives the exceptions, C62_masses_partial what does work.",
 "C64": "The model starts from parsed rows and represents the printed source by tokens; months need not be checked beyond consecutiveness (C64_accepts).",
 "C58": "arrB tp ι are numpy arrays of arbitrary shape over idealised numpy scalars; one theorem for each function that accepts arrays. The functions using `if`, timedelta or round on a number do not accept arrays and are not listed.",
 "C59": "The elementary functions of math and numpy are assumed to agree where math does not raise (they are the same real functions in the model). One theorem per function; simulate_span row by row.",
 "C80": "False as stated: the parentheses put the zenith term and the cosine over the same denominator and the zenith angle is in radians; the results are above 900 for every altitude from 0 to 90.",
 "C82": "False as stated: both are proportional to the altitude in degrees and negative at night.",
 "C83": "False as stated: get_aberration_coeffs returns the global dictionary itself; deleting an entry makes every later get_nutation raise KeyError (C83_pop_partial, C83_refuted). C83_harmless_partial: reads and writes under other names have no effect.",
 "C84": "rndB F rounds every operation; F : F64 states the assumptions on rounding and library functions, and binary64 : F64 (Proofs/Binary64.lean) shows that IEEE round-to-nearest-even meets them. LatOk: latitudes within 1e-9 degrees of a pole are included if radians(90) falls short of a right angle by 2^-54 or more (it does in binary64, binary64_pole), the exact side then taking the tangent at the pole to be at least 1e15 and of its sign.",
 "C85": "Same arithmetic as C84. The elevation angle is before refraction.",
 "C86": "Same arithmetic as C84; the exact side takes math.tan at odd multiples of 90 degrees to be some value of size at least 1e6.",
 "C92": "False of the code on days of a clock change (C92_refuted: a zone moving one hour forward). C92_shift_partial: for every time zone the answers for two datetimes of one date differ by exactly the difference of their UTC offsets, hence are equal when the offsets are.",
 "C95": "Real-number arithmetic. Outside means within half a day of the transit (the interval is about one day only).",
 "C100": "False of the code (C100_refuted: longitude -0.5). C100_exact_partial: sent correctly if and only if a whole number of degrees, or not negative and a whole number of minutes. C100_integer_partial: whole degrees, with the date, time and height; C100_positive_partial: too small by less than one minute of arc for non-negative coordinates; C100_negative_partial: too far out by twice the part after the whole degrees rounded down, within one minute, for negative ones.",
 "C101": "False of the code (C101_refuted: 80 N on 15 June 2013, any non-zero value tp of tan at a pole, as math.tan has). C101_errors_partial gives the reported errors exactly.",
 "C102": "False of the code (C102_refuted). C102_round_trip_partial is the round trip for naive timestamps in whole seconds; C102_value_error_partial says every other timestamp makes the log unreadable.",
 "C106": "False of the code (C106_refuted: nan on 10 April 2003, 0.0141 degrees below the horizon). C106_zero_partial, C106_overflow_partial and C106_nan_partial describe the three regions; the altitudes between them, where the outcome depends on the last bits, and those within 1e-6 degrees of the horizon are covered by C106_outcomes_partial only: at every altitude from -90 to 0 the outcome is 0, nan or OverflowError.",
 "C107": "Against the exact-arithmetic model of the same code. Latitudes within 1 degree of a pole are not covered.",
 "C108": "The Almanac's formulas are in Spec/Almanac.lean; exact arithmetic.",
 "C109": "Geometric direction: refraction is not part of the comparison. Exact arithmetic; C84-C86 bound the rounding.",
 "C110": "Double precision as described by F64; geometric direction, before refraction.",
 "C111": "Double precision as described by F64, for numpy's own library; signed zeros are not modelled.",
 "C112": "As C111.",
 "C113": "False: from 0.011 degrees to a millionth of a degree below the horizon the entry is nan (C113_refuted). Missing from the partial theorem: the bands from -0.0171 to -0.011 degrees, where zero or nan depends on the day, and within a millionth of a degree of the horizon; there C113_night_entries_partial says that an entry is 0 or nan, whatever the array contains.",
 "C114": "Exact real arithmetic. The tables of the specification were written down from the report, apart from constants.py.",
 "C115": "The rounding is IEEE round-to-nearest-even throughout; library functions (sin, cos, tan, ...) are correctly rounded in binary64 : F64.",
 "C116": "The defaults hold by definition of the model (rfl), whatever the numeric backend; the theorem states them with numbers only, so that a changed constant breaks it.",
 "C117": "The altitude error of 2e-5 degrees is a hypothesis, discharged by C86 (C117_applies shows it met at every time).",
 "C118": "The excluded intervals around the jumps are those of C86; C118_applies shows the hypotheses met at every time.",
 "C119": "False of the code: with default turbidity and the sun on the horizon the low band is negative (C119_refuted), because the optical masses are computed from radians (C80). The formulas hold; the high band is positive for exponents 0.6 to 2.5, the low band for masses up to 38 (C119_positive_partial).",
 "C120": "False of the code: at pressures above 750 millibars the low band is negative whenever it is returned (C120_low_negative_partial), overhead with the defaults less than 1 W/m2 is returned, and on the horizon the call fails on a complex power. The product, sum and cosine formulas hold (C120_formula_partial, C120_sums_partial).",
 "C121": "The entries of arrays are left out of the model (Py/Mixed.lean); radians and where of an array raise in numpy's terms but are pure in the model, and the exception is raised by the next function of math.",
 "C122": "Characters in, characters out (Model/DeltaTText.lean); the reader of Python source is a separate specification (Spec/PySource.lean). Only ASCII space and digits; what is printed before a failure is not part of the outcome.",
 "C123": "False of the code: at a half-hour with altitude just below 0 the air mass overflows in math.exp and the run ends with OverflowError; witness 2020-06-01 09:11:37 UTC, enclosed by interval arithmetic in the kernel, exact and in double precision (C123_refuted, C123_refuted_double). Proved: the run ends with an exception exactly if some half-hour has an altitude from which exp overflows, which is decided by a formula, at the first such half-hour and after the lines of those before it (C123_exact_partial); the run of a whole day from 2020-06-01 12:05:00 completes with 30 lines (C123_whole_day_partial).",
 "C124": "False of the code for the same reason (C124_refuted); also in double precision (C124_refuted_double). Proved for spans without a time at which the altitude is between -0.0171 and 0, and exactly: the span ends normally if and only if at none of its times the sun is unhidden with exp(depth/|sin altitude|) at least 2^1024, and otherwise it yields the rows before the first such time.",
 "C125": "The clock is a parameter; the digits print() writes for floats are not modelled, the values are.",
 "C126": "Shapes only (backend shapeB); that the entries are those computed one by one is C58 and C111. An operation on arrays that do not fit is followed up to the end of the function, where it counts as ValueError.",
 "C127": "Arrays without entries are left out for the functions with a scalar branch: their truth value depends on the version of numpy.",
 "C128": "C128_exact (exact arithmetic), C128_double (any rounding that fixes its own values and powers of 1), C128_binary64.",
 "C129": "Words of line 22 separated by spaces; that the words are numbers is a hypothesis. Exact arithmetic.",
 "C130": "C130_csv for any backend and any comparisons; C130_main from the log on, exact arithmetic, for entries where pysolar returns numbers. The statistics printed before the file is written (scipy) are not modelled.",
 "C131": "False of the code (C131_refuted). Proved: a criterion for all signatures and calls (C131_criterion_partial); exactly five of the 73 stubs fail it (C131_exact_partial); what the calls do instead (C131_direct_underclear_partial, C131_sidereal_partial, C131_positional_partial). C131_effect_winter_partial and C131_effect_summer_partial: direct_underclear with temperature and pressure where its stub has them raises OverflowError on the first 80 days of the year and returns zero to 100 digits on days 82 to 181. Parameters only; the declared types are not modelled.",
 "C132": "False of the code (C132_refuted: half a minute). C132_float_partial: with a float step of any value nothing is yielded and the generator ends with an exception, given exactly; C132_type_error_partial: TypeError for every float from a millionth of a minute to a million minutes, 1.0 included; C132_int_partial: with an int the model is that of C54 and C55.",
 "C133": "False of the code (C133_refuted: the azimuth of the first place in testGetPosition). C133_partial: the 52 other comparisons succeed, and those eight do with a tolerance of 1.6e-7 degrees. By evaluation on intervals in the kernel; also evidence that the model computes what the code does.",
 "C134": "Values carry their kind (tagB); that every division in these functions has a numpy operand is computed once for all arguments with kinds only (kindB) and carried over by simulation.",
 "C135": "C135_zero_temperature is limited to elevation angles up to 89 degrees because the sign of zero is not modelled.",
 "C136": "By evaluation on intervals in the kernel, as C133. The exact values differ from the printed ones from the seventh or eighth decimal on.",
 "C137": "The hypothesis on the operations is discharged for all backends of the model in C137_backends. For get_azimuth_fast the converse is C01.",
 "C138": "C138_sources is the general form, for an arbitrary backend and an arbitrary set of exceptions.",
 "C139": "Exact arithmetic; unlike C91 there is no additive constant. The value the tangent takes at its poles is arbitrary.",
 "C140": "C140_gap assumes that the tangent at its pole has absolute value at least 1; in double precision it is about 1.6e16.",
 "C141": "C141_clock is the statement in local mean solar time; C141_climb the one in hour angles. Exact arithmetic.",
 "C142": "From C141 with its rate, a rate for C66, and the error bound of C86, whose exclusions it inherits.",
 "C143": "A simulation from mathB to a backend whose values carry the history of their calls and whose schedule decides the module at each call. tm_yday, tm_hour and tm_min come from one module in any one call.",
 "C144": "False: every such cell raises (AttributeError with math). With numeric.log bound the cells run; the plotted masses all exceed 900, the wavelengths grow with the mass and lie in the stated ranges.",
 "C145": "The server is any function from requests to answers; the draws are given. str and float are assumed faithful on the numbers written.",
 "C146": "Exact arithmetic; numpy's mean and std and scipy's tmin and tmax are modelled by their definitions.",
 "C147": "False of the code (C147_refuted: equator, 150 E, the second before midnight UTC on 10 March 2020, by evaluation on intervals in the kernel). C147_same_date_partial: within one UTC date the claim holds; C147_step_partial: in general the later morning value is at most 3.3 W/m2 lower, the later afternoon value at most 3.3 W/m2 higher.",
 "C148": "Assumes the error bounds of F64 and that the tangent exceeds 1e6 next to its pole, as C142.",
 "C149": "Exact arithmetic. C149_clock is the claim by the clock, C149_azimuth by the hour angle, C149_angle for the formula of the azimuth alone; C149_tropics shows that the band of latitudes cannot be dropped.",
 "C150": "False of the code (C150_refuted, by evaluation on intervals in the kernel). C150_same_date_partial: within one UTC date the claim holds, strictly from minute to minute, for all latitudes between the poles, with the afternoon and the azimuth; C150_step_partial: in general the later morning altitude is at most 0.53 degrees lower.",
 "C151": "The floating-point model of C84. C151_double is the claim; turn_minute gives the least turn in a minute in exact arithmetic, 0.001 degrees, azimuth_double the error of the computed azimuth, 0.00045 degrees outside the tropics.",
 "C152": "C152_place: direction and elevation angle in exact arithmetic; C152_altitude: with refraction; C152_double: in double precision, up to 89.8 degrees of elevation.",
 "C153": "C153_day, C153_place: exact arithmetic; C153_double, C153_place_double: existence and the bounds in double precision. The 367 steps between consecutive day numbers are all the steps there are; the latitude is a real variable.",
 "C154": "One theorem per function. Proved by evaluating the calculus of rounding errors (Proofs/Ball.lean, extended in Proofs/BallExp.lean by exponentials and powers) on a finite cover of the ranges of the arguments; the arguments are real variables. Not covered: the effective wavelength (rest.py:156-174) and the irradiances built on it, which raise in the package as shipped (C62).",
 "C155": "Proved once for every backend whose operations treat non-finite values as IEEE arithmetic, math or numpy do (Proofs/NonFinite.lean), then instantiated for the four backends. An infinite elevation is not covered: atan2 of two infinities is finite, and the functions return a position.",
 "C156": "False: the latitude nan (or the longitude nan) gives 0.0 at every time, and clear_index raises ZeroDivisionError. C156_partial: nothing but 0.0 is ever returned for coordinates that are not finite, and with math an infinite latitude raises ValueError.",
 "C157": "False: the documented times have no time zone, so that get_altitude raises NoTimeZoneInfoError before the first row, in every arithmetic (C157_refuted, for every naive start followed by at least one step). C157_partial: NoTimeZoneInfoError is raised for nothing but a start without tzinfo.",
 "C158": "The declination and the equation of time change at midnight UTC (C150); the statement for one date excludes this step, the general one bounds it by the difference of the declinations and hour angles.",
 "C159": "Exact real arithmetic with IEEE special values; C159_double adds double precision, for temperatures 180 to 340 K and pressures 1 to 120000 Pa, outside the ranges excluded by C86. Above 89.891 degrees the formula of the refraction changes sign (C30).",
 "C160": "False: atan2 of two infinities is finite, so that at every time and every latitude between the equator and the north pole a quarter of the longitudes gives finite angles (declination 135 degrees); at 45 degrees north the sun is found at the zenith (C160_refuted). C160_equator_partial: on the equator everything returned is nan.",
 "C161": "For calls that return (C41 and C106 tell which raise just below the horizon). The bound 84 is nearly sharp: it is the largest slope for the smallest optical depth and the largest flux.",
 "C162": "C162_refuted: get_incidence_angle(8, 8, 0, 180) raises ValueError in IEEE double precision, though the exact angle is 0; C162_numpy: nan with numpy. C162_double_partial: everywhere else the result is close to the exact angle, in every arithmetic with the rounding error of double precision; C162_horizontal: no failure for a horizontal panel.",
 "C163": "C163_refuted, C163_azimuth_refuted: a place and time, with coordinates of seven decimals, at which the fast functions raise ValueError in IEEE double precision; C163_elevation_refuted: the same for the elevation angle of the precise algorithm. C163_fast_altitude_partial: no failure farther than 0.000014 degrees from zenith and nadir.",
 "C164": "C164_refuted: get_azimuth_fast(0, 0, 22 March 2007 12:05 UTC) raises ValueError in IEEE double precision (eq_exact_alt: the exact altitude is below 89.4 degrees). C164_fast_azimuth_partial: no failure if the exact azimuth is at least 0.00003 degrees / cos(altitude) away from due east and due west, and the result is close to the exact azimuth.",
 "C165": "C165_refuted: get_azimuth_fast returns 360.0 in IEEE double precision. C165_azimuth_partial: get_azimuth returns a number in [0, 360) or nan, for all arguments; C165_azimuth_everywhere: a number at every place on earth. C165_fast_partial: get_azimuth_fast returns a number in [0, 360] or nan, for all arguments.",
 "C166": "C166_refuted: get_local_hour_angle(0, -1e-15, 0) is 360.0 in IEEE double precision. C166_reduced_partial, C166_reduced_numpy_partial: [0, 360] in every floating-point arithmetic; C166_arcs, C166_arcs_numpy: altitudes and declinations in [-90, 90], incidence angles in [0, 180].",
 "C167": "C167_nonneg, C167_nonneg_numpy: never a negative number. C167_bounded, C167_bounded_numpy: nan or a number in [0, 1235] for altitudes up to 180 degrees. C167_fast, C167_fast_numpy: hence at every altitude returned by get_altitude_fast.",
 "C168": "C168_refuted: 0.0 at an altitude of 1/128 degree; C168_underflow: 0.0 at every instant for all altitudes above 0 up to 0.01 degrees. C168_positive_partial: positive from 0.017 degrees to 90. C168_numpy_partial: the same with numpy, for whatever times, if not nan.",
 "C169": "C169_declination, C169_equation_of_time, C169_flux, C169_optical_depth: each for scalar math and numpy.",
 "C170": "C170_rayleigh, C170_gas, C170_aerosol, C170_aerosol_scattering: each for scalar math and numpy.",
 "C171": "C171_pressure, C171_pressure_numpy, C171_temperature.",
 "C172": "C172_air_mass, C172_rises(_numpy) (any time argument, nan allowed), C172_datetime (numbers).",
 "C173": "C173_refuted: two instants a microsecond apart have the same ephemeris day. C173_advances_partial: never backward, and strictly forward for instants at least a millisecond apart; scalar math and numpy.",
 "C174": "C174_refuted, C174_refuted_double: the last microsecond of January 1993 and the next. C174_same_month_partial: within a month exactly the elapsed time. C174_double_partial: in double precision never backward within a month, strictly forward after a second.",
 "C175": "C175_range: both scalar backends, every argument including infinities and nan; C175_number: at an aware datetime never nan.",
 "C176": "C176_distance, C176_declination, C176_clear, C176_overcast: every argument, nan allowed as a result.",
 "C177": "C177_math, C177_numpy: the value and the exceptions.",
 "C178": "False: C178_refuted and C178_documented_partial (the place and date of the documentation's examples at 14:40 UTC, all defaults: more than 1e11 W/m2; by evaluation on intervals in the kernel). C178_summer_partial: true from day 81 to day 263. C178_winter_partial: exceeded on every other day in every atmosphere, with the exact value; C178_december_partial: more than 1e20 W/m2. C178_double_partial: the same excess in IEEE double precision.",
 "C179": "False: C179_refuted (the place and date of the documentation's examples, default turbidity). C179_exact_partial: the value, and the claim holds if and only if the altitude is at most one degree. C179_scaled_partial: diffuse_transmittance against the published formula, and its growth with the turbidity. C179_double_partial: the same in IEEE double precision.",
 "C180": "False: C180_refuted (turbidity 2 against 1 at the place and date of the documentation's examples). C180_exact_partial: exactly when the irradiance falls and when it rises with the turbidity. C180_double_partial: the same in IEEE double precision.",
 "C181": "False: C181_refuted (a June morning at the place of the documentation's examples). C181_summer_partial: in the summer half of the year it fails at every place with the sun above 2.48 degrees. C181_low_partial: in the other half it holds with the sun up to 1.57 degrees. C181_double_partial: the failure in the summer half of the year in double precision."
}
