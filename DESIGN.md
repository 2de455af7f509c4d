# Formal model of pysolar in Lean 4

## Layers

| layer | where | contents |
|---|---|---|
| Python runtime model | `lean/Verif/Py/` | exceptions as values (`PyErr`, `Py α := Except PyErr α`), extended reals `V` (finite, +inf, -inf, nan), the numeric `Backend` record (what `numeric.py` switches), the proleptic Gregorian calendar and `datetime` objects of the standard library |
| Model of pysolar | `lean/Verif/Model/` | one Lean definition per Python function, branch by branch, citing file and lines; long tables generated mechanically from the text of `/repo` by `tools/gen_tables.py` |
| Specifications | `lean/Verif/Spec/` | independent statements: IERS leap-second dates, Julian Day Number formula, direction vectors, ellipsoid, series, sunrise condition, ... |
| Helper lemmas | `lean/Verif/Proofs/` | evaluation lemmas (the model at finite reals), simulations between backends, analysis |
| Property theorems | `lean/Verif/Props/` | the theorems `Cnn_...` listed in `MANIFEST.json`, with non-vacuity examples beside them |
| Fidelity check | `lean/Verif/Check/` | the model run on machine floats against the values asserted in `/repo/test` (`FloatRun`) and against all 6259 results recorded by the project in `test/pysolar_v_usno.csv` (`UsnoCsv`: largest differences 3.3e-6 degrees in altitude, 5.5e-5 in azimuth). Tests, not proofs; nothing depends on them |

`tools/gen_manifest.py` collects the theorems into `MANIFEST.json`, `tools/gen_axioms.py` prints `AXIOMS.md`.

## The numeric backend

Every model function is written once, over an arbitrary `B : Backend`
(carrier `B.α`, comparison results `B.C`, arrays of datetimes `B.T`; arithmetic, `sin`, `asin`, ... each
possibly raising). Uses:

* theorems `∀ B` hold whatever the arithmetic is, in particular for IEEE floating point, math or numpy;
* `mathB tp`: idealised `math` backend, carrier `V`, exact real arithmetic, raising `ValueError`,
  `ZeroDivisionError`, `OverflowError` where `math`/`float` do. `tp` is an arbitrary value for `tan` at its
  poles (the float code returns some huge number there): theorems hold for every `tp` unless they state a
  hypothesis on it;
* `npB tp`: idealised numpy scalars (nan/inf instead of exceptions); `vecB B ι`: arrays of shape `ι` over `B`;
* `rndB F`: double-precision arithmetic. Every operation is rounded by `F.rnd` and the library functions are
  `F.sin`, ...; `F : F64` (`Py/Rounded.lean`) states what is assumed of them: monotone rounding with relative error
  2^-53, library functions off by about one unit in the last place, `tan` at least 10^6 in size where
  the cosine of its argument vanishes exactly. `binary64 : F64` (`Proofs/Binary64.lean`) is
  round-to-nearest-even, proved to be a nearest double. Overflow gives infinities. `timedelta(hours=x)` rounds
  twice, as CPython does. Used for C84–C86, C103–C107 and C110;
* `nprB F` (`Py/RoundedNumpy.lean`): the same for numpy scalars, with nan and infinities instead of exceptions;
  `arrF F ι`: arrays of them. `F` is then numpy's own library. Used for C111–C113;
* `pairB (rndB F) (mathB tp)` computes both at once, and `ballB` (`Proofs/Ball.lean`) propagates midpoint and
  radius in rational arithmetic by kernel computation: the error bounds of these claims come from the radii.

A `Sim B B'` (simulation of backends, `Proofs/Sim.lean`) is preserved by every model function (one lemma each);
instances give "arrays are computed entry by entry", "math and numpy agree", "never raises".

## How false properties are treated

Forty-six properties of the list are false of the code as it is. For each, `Cnn_refuted` proves the negation of the
stated claim with a concrete witness, and `Cnn_..._partial` theorems state what does hold. The disagreements between
what the code's names, comments or documentation say and what it does, all found while proving:

| id | finding |
|---|---|
| C09 | `get_delta_t` after the table (April 2014): January to March of later years use the 2014 entry of *that month*, not the last entry |
| C27 | `get_topocentric_sun_declination` uses the axial distance also in the denominator; off by up to 0.003 degrees |
| C28 | `get_equatorial_horizontal_parallax` multiplies by the distance instead of dividing |
| C41 | `get_radiation_direct` raises `OverflowError` for altitudes just below the horizon (math backend) |
| C43 | `mean_earth_sun_distance` is constantly 1 (the perturbation is divided away in exact arithmetic) |
| C44 | `global_irradiance_clear` ignores the temperature, pressure and (for the diffuse part) turbidity arguments |
| C52 | sunrise may be reported on the day before the requested one if the clock is far from solar time |
| C57 | `use_math()` leaves `where` bound to `numpy.where` |
| C62 | all REST irradiance entry points raise (`math.log` missing, undefined names, wrong arity) |
| C68, C69 | the altitude in degrees is passed to `sin`/`cos` in the clear-sky and overcast functions |
| C70 | the obliquity in degrees is passed to `cos` in the apparent sidereal time |
| C80 | the REST optical masses divide the cosine, too, by the power of the zenith angle, which is in radians: more than 900 instead of 1 for a sun overhead |
| C82 | the diffuse and overcast irradiances are proportional to the altitude in degrees, hence negative at night |
| C83 | `get_aberration_coeffs` returns the global dictionary itself: a caller that deletes or overwrites an entry changes every later nutation |
| C92 | `get_sunrise_sunset_transit` uses the UTC offset of the datetime given for the whole day: on days of a clock change two datetimes of that day give answers an hour apart |
| C100 | `EncodeRequest` (test/query_usno.py) sends -0.5 degrees as 1 degree 30 minutes west, and degrees as seconds |
| C101 | `ComparePysolarToUSNO` uses a stale azimuth convention: a perfect reference is reported with an error |
| C102 | `ReadEphemeridesLog` cannot read back what `WriteEphemerisDatumToFile` writes for the entries it returned |
| C106 | `get_radiation_direct` returns nan in a narrow band just below the horizon (infinity times `False`) |
| C113 | the same with numpy arrays: nan entries from 0.011 degrees to a millionth of a degree below the horizon |
| C119, C120 | `rest.py`, in a program that binds the names it lacks, returns negative low-band irradiances (low suns; any sun at ordinary pressures) and fails on a complex power on the horizon |
| C123, C124 | `solar_test` and `simulate_span` end with `OverflowError` if one of their times falls a few seconds before sunrise or after sunset |
| C131 | the type stubs of five functions have other parameters or another order than the code; `direct_underclear` called as its stub says takes the temperature for the number of days in the year |
| C132 | `datetime_range` and `simulate_span` with a float step, as their stubs declare it, raise `TypeError`: `range` refuses a float |
| C133 | six comparisons of `TestApi` (test/test_solar.py) succeed only because the expected values contain the rounding errors of the computation |
| C144 | the cells of `rest2-validation.ipynb` raise: they call the functions of C62 |
| C147 | direct radiation uses the day of the year in UTC: it falls in the middle of a morning at 150 degrees east |
| C150 | the fast declination and equation of time change at midnight UTC: the fast altitude falls in the middle of a morning at 120 degrees east |
| C156 | `ZA > 0` is False for nan: the extraterrestrial irradiance of the latitude nan is 0.0, as at night |
| C157 | the docstring and the example of `simulate_span` use datetimes without time zone, which it rejects |
| C160 | an infinite elevation yields finite angles, since `atan2(inf, -inf)` is finite |
| C162 | `get_incidence_angle(8, 8, 0, 180)` raises ValueError: the cosine rounds to 1.0000000000000002 |
| C163 | the fast altitude of a sun overhead can raise ValueError, for the same reason |
| C164 | the fast azimuth on the equator at the equinox raises ValueError at a good quarter of the minutes of the day: the sine of the azimuth is computed as more than 1 |
| C165 | the fast azimuth can be 360.0 |
| C166 | angles reduced with `% 360` can be 360.0: `get_local_hour_angle(0, -1e-15, 0)` |
| C168 | up to 0.01 degrees above the horizon `get_radiation_direct` is 0.0 |
| C173 | two instants a microsecond apart may have the same ephemeris day |
| C174 | the UT Julian day falls when a month with a greater delta-T begins |
| C178 | `direct_underclear` returns more than the solar constant from autumn to spring, in December more than 1e20 W/m² |
| C179 | `diffuse_underclear` multiplies its value at the zenith with the altitude in degrees |
| C180 | `direct_underclear` rises with the turbidity from autumn to spring |
| C181 | `global_irradiance_overcast` exceeds `global_irradiance_clear` on every summer day |

Further remarks recorded while reading the code: `check_aware_dt` raises `KeyError` for an omitted guarded argument
even if the function has a default for it; the generator `util/get_delta_t` accepts month 13 after 12 within a year;
`direct_underclear` and friends use the altitude in degrees throughout.

## Trusted base

* Lean 4.33.0's kernel.
* The axioms `propext`, `Classical.choice`, `Quot.sound` and no others. `AXIOMS.md` lists the result of
  `#print axioms` for every property theorem. No `sorry`, `admit`, `native_decide`, `bv_decide`, no axiom declared.
* The reading of the Python source into `lean/Verif/Model/` (the citations say which lines).
* The model of the Python standard library and numpy in `lean/Verif/Py/`: `datetime` (fields, `utcoffset` as an
  arbitrary function of wall time and fold, `utctimetuple`, `timestamp`, `+`, `-`), `math` domain errors, numpy's
  nan/inf conventions, `datetime64` truncation, `min`, `round`, `//`, `%`, dictionary and list indexing.
* The specification files and the property statements in `properties.jsonl`.

### What is modelled

`solar.py` (all functions; `solar_test` in `Model/SolarTest.lean` with the clock as a parameter), `solartime.py` (all), `radiation.py` (all), `util.py` (all),
`elevation.py` (all; `elevation_test` in `Model/ElevationTest.lean`), `simulate.py` (all), `rest.py` (all), `constants.py` (all tables and the polynomial cache),
`numeric.py` (date parts, backend switching as a state machine over the global names), `tzinfo_check.py` (the
decorator over arbitrary signatures, positional and keyword arguments), `util/get_delta_t` (loop in
`Model/DeltaTGen.lean`, text in `Model/DeltaTText.lean`), `test/query_usno.py` (request, answer, comparison, log, CSV file, statistics; the server is
an arbitrary function, the random numbers are arbitrary; not the constant entries of the request and `urlencode`), `test/test_solar.py` and `test/test_hour_angle.py` (`Model/UnitTests.lean`), and the examples of `doc/index.rst` (`Model/DocExamples.lean`).

### Agreement of the model with the program

The program cannot be run here, but its repository contains numbers it has computed. The model reproduces them:

* The comparisons of `test/test_solar.py` and `test/test_hour_angle.py`, intermediate results of the position formulas
  up to 12 decimals among them, hold of the model in exact arithmetic, proved (C133; six of them with 6 instead of 7
  decimals), and so do the examples of the documentation to a millionth (C136).
* `tools/validate_model.py` runs the model on the machine's floating point for the 6259 times and places of
  `test/pysolar_v_usno.csv`, which records results of the program. All directions agree within 2.8e-6 degrees (less than
  a millisecond of the earth's rotation). This is a test and no part of any proof.

### What is not modelled

* The digits `print` writes for a float in `solar_test`; the other scripts and the data in `test/`, packaging, documentation, the types in the type stubs.
* Floating-point rounding in `mathB`, `npB`, `vecB`: exact reals. Consequences known to differ in floats, proved
  over `binary64`: `x % 360` can return exactly 360.0 (C165, C166); an `asin` or `acos` argument whose exact value is 1 can
  be rounded to slightly more than 1 (C162-C164); the direct radiation underflows just above the horizon (C168). Theorems over every backend, and those over `rndB`, `nprB`, `arrF`, do not depend on exactness.
* The sign of zero: numpy's `1/0.0` is counted as `+inf`.
* Mixed scalar types: `npB` treats all values as `numpy.float64`; the mixture of Python numbers and numpy scalars is
  modelled separately (`tagB`, C134, C135). Python ints and floats are one type of number
  (the code nowhere depends on the distinction except in `datetime_range`, whose step is an integer in `Model/Simulate.lean` and of either type in `Model/SimulateFloat.lean`).
* The machine's local time zone (naive `timestamp()`), which the guard makes unreachable for guarded functions.
* The text written to warnings other than its variable part; the warning filter.
* Termination and memory of the interpreter; threads, except for a switch of `numeric.py` while a function
  runs (C143); the polynomial cache is modelled as a sequential history.
* Downloading in `util/get_delta_t`.

## Plan per property

| id | model | proof |
|---|---|---|
| C01 | all guarded functions over any `B` | unfold the guard; one theorem, a conjunction over all entry points |
| C02, C03 | `check_aware_dt` over arbitrary signatures, args, kwargs | induction over the list of guarded names |
| C04 | all UTC functions, any `B` | functions factor through the UTC instant |
| C05, C06, C07 | loop of `get_leap_seconds` with a warning log | loop = closed form over all years; finite table + monotone tail |
| C08, C09 | `get_delta_t` | index arithmetic; C09 is false in the code: refuted by witness, exact behaviour proved |
| C10-C14 | Julian days, `mathB`/exact rationals | calendar arithmetic, table facts by kernel computation lifted to all dates |
| C15 | `tm_*_math`, `tm_*_numpy` | calendar round trip |
| C16 | any `B` | monad laws |
| C17-C20, C25-C26, C34 | `mathB` | trigonometric identities, `Complex.arg` |
| C21-C24 | `mathB`, generated tables | triangle inequality, interval bounds for jme of years 1..9999 |
| C27, C28 | `mathB` | false in the code (wrong projected distance; R inverted): refuted, error bounded |
| C29-C33, C65 | `mathB` | periodicity, floor arithmetic |
| C35-C38 | `mathB` / any `B` | trigonometric bounds, vector identity |
| C39-C42, C45 | `mathB`, `npB` | C41 is false just below the horizon (overflow): refuted; partial outside the window |
| C43, C44 | `mathB` / any `B` | false in the code: refuted, actual behaviour proved |
| C46, C47 | `mathB` | `Real.rpow` monotonicity |
| C48-C53 | `mathB` | arccos, rounding; C52 false in general: refuted, partial under explicit hypothesis |
| C54-C56 | any `B` / `mathB` | lists, integer division, banker's rounding |
| C57, C60 | state machines | induction over call histories; C57 false for `where`: refuted, partial for the other names |
| C58, C59 | `Sim` | structural preservation, one theorem per function |
| C61-C63 | `mathB` | polynomial inequalities; C62 false (functions always raise): refuted |
| C64 | model of the generator script | induction over data |
| C66 | `mathB` | derivative of the refraction formula bounded below |
| C67-C70 | any `B` / `mathB` | monad laws; refutations with concrete witnesses |
| C71 | `mathB` | the whole chain of `get_topocentric_position` against an independent vector specification (`Spec/SunDirection.lean`): the deviations of C27, C28 and C70 are bounded and added |
| C72-C77 | `mathB` | evaluation to closed formulas written out in the statement |
| C78 | `mathB` | Lipschitz bounds of the longitude series, term by term |
| C79-C82 | `mathB` | evaluation against published formulas (`Spec/Rest2.lean`); C80 and C82 are false: refuted by a sun overhead and by midnight on the equator |
| C83 | state machine over the shared dictionary, any `B` | induction over histories; false in general: refuted by a deletion |
| C84, C85, C86 | `rndB F` against `mathB tp` | ball arithmetic in the kernel for the polynomial and trigonometric chain, by hand for `asin`, `atan2`, `%`; spherical triangle inequality |
| C87, C88 | `mathB tp`; `get_topocentric_position` against the closed forms of the fast functions | leading terms of the VSOP87 series with the rest bounded by its amplitudes; days since 2000 from the day of the year; Taylor bounds |
| C89, C90 | `mathB tp`; `get_topocentric_position`, `get_altitude` | longitude from the day of the year within a degree; sine bounds on quarter turns; culmination inequalities; the sign and size of the refraction correction (C30) |
| C91 | `mathB tp`; `get_azimuth`, `get_topocentric_elevation_angle` | Lipschitz bounds of the series; triangle inequality on the sphere; rotations preserve angles |
| C92 | `get_sunrise_sunset_transit`, arbitrary `tzinfo` | refuted by a zone whose clocks change; the law for the difference from the closed form of the result |
| C93, C94 | `mathB tp`; `get_transit_time`, `get_sunrise_sunset_transit` against `get_topocentric_position` | for each of the 366 day numbers the kernel evaluates the formula and the middle of the range of the sun in fixed point (`NumTrig`, proved error bound); the width of the range is bounded by analysis over all years, longitudes and hour angles |
| C95, C96 | the same, at every instant | C49/C50 give the fast elevation relative to the horizon; the elevation falls away from the meridian (C98's argument), and the precise one is near it by the bounds of C87, C93 |
| C97, C98 | `mathB tp`; azimuth and elevation formulas | sign of the argument of a complex number; strict monotonicity of `cos` and `arcsin` |
| C99 | `get_altitude_fast`, precise elevation | identity of the horizontal vector; `topo_small` bounds the parallax at both places |
| C100 | `Model/QueryUsno.lean`, exact `divmod` | floor lemmas; refuted with -0.5 |
| C101 | `Model/QueryUsno.lean`, `mathB tp` | closed form of the two errors; refuted at a place where the azimuth is provably not 90 or 270 |
| C102 | `Model/QueryUsno.lean`, any backend, any `str`/`float` that are inverse to each other on the numbers written | `split` inverts joining, `strptime` inverts `isoformat`; text lengths |
| C103 | `rndB F` for any `F : F64`, `mathB tp` | ball bounds by `decide +kernel`, arcsine with and without weight |
| C104 | `rndB F`, `mathB tp` | quotient and arcsine errors divided by the cosine of the altitude; the wrong branch only near the east-west line |
| C105 | `rndB F`, `mathB tp` | `exp (-k/s)` is Lipschitz in `s` and insensitive to relative errors of the exponent |
| C106 | `rndB F` | overflow thresholds through `log 2`; infinity times zero; refuted with nan |
| C107 | `rndB F`, `mathB tp` | ball bounds for the argument of `acos`; square-root modulus of continuity near the polar days; CPython's two-step rounding in `timedelta(hours=float)` |
| C108 | `mathB tp` | two largest periodic terms against the Almanac's, the rest bounded by its amplitudes |
| C109 | `mathB tp` | rotations are isometries; triangle inequality for angles over C108 and the size of parallax |
| C110 | `rndB F` | C85 and C109, triangle inequality for angles |
| C111 | `arrF F ι` = `vecB (nprB F) ι` | simulations: math by numpy in double precision, arrays by entries, totality; C84-C86 |
| C112 | `arrF F ι` | the same with datetime64 by datetime; C103, C104 |
| C113 | `arrF F ι` | overflow of the exponential gives infinity, times `False` nan; C105, C106 |
| C114 | `mathB tp`, `Model/Tables.lean` | tables compared with `Spec/SpaTables.lean` by kernel evaluation; C20, C71 |
| C115 | `rndB binary64` against `Spec/SunDirection.lean` | C85 at the poles; `math.radians(90.0)` evaluated bit for bit (`Proofs/FloatPole.lean`) |
| C116 | every `Backend`; `mathB` for the standard atmosphere | default arguments and physical constants, written with numbers only |
| C117 | `rndB F` against exact formulas | irradiance functions of util.py in double precision; ball arithmetic for the parts without `exp` |
| C118 | `rndB F` against exact formulas | elevation.py in double precision (`pow` by its error bound), composed with C86 |
| C119, C120 | `mathB` | rest.py in a program that binds the missing `numeric.log`; the names rest.py reads but nothing defines are the parameter `Globals` of the model |
| C121 | `mixB B` | numbers and arrays mixed with the functions of `math`; the entries of arrays are left out because no outcome depends on them |
| C122 | `Model/DeltaTText.lean` (text to text) against `Spec/PySource.lean` (a reader of Python assignments) | lexing of printed pieces one by one; a four-decimal number is recovered from any rounding within 2⁻⁵³ |
| C123, C124 | `Model/SolarTest.lean` (lines printed before a possible exception), `simulate_span`; `mathB tp`, `rndB F` | closed form of the loop; the witness is enclosed with `ivB` (`Py/Interval.lean`), a backend of integer intervals proved sound in `Proofs/Interval.lean` and evaluated by the kernel |
| C125 | `solar_test` over any `B` | induction over the loop; `ctime` is injective down to the second |
| C126, C127 | `shapeB b k` (`Py/Shapes.lean`): values represented by their shapes | broadcasting is commutative, associative and idempotent; the shape of every formula by rewriting |
| C128 | `Model/ElevationTest.lean` on `mathB`, `rndB F`, `binary64` | powers enclosed by integer roots checked in the kernel; the error bound of C118 for doubles |
| C129, C130 | `Model/QueryUsnoMain.lean`; `splitOn` as the independent reader | tokens of a spaced line by induction; `splitOn` inverts `intercalate`; C102 for the log |
| C131 | `Py/Call.lean` (binding of arguments), `Model/Signatures.lean` (generated by `tools/gen_signatures.py`) | criterion proved for all signatures, evaluated on the 73 |
| C132 | `Model/SimulateFloat.lean`: a step of either number type | case distinction on the type of the step; float arithmetic bounded with `F64` |
| C133 | `Model/UnitTests.lean`; `mathB tp` | `ivB` evaluated by the kernel, with exponentials and powers |
| C134, C135 | `tagB N pd pp` (`Py/Default.lean`): each number with its kind, numpy scalar or Python number, over `npB` or `nprB F` | simulations `mathB → tagB → npB`; `kindB → tagB` shows the kinds of all operands |
| C136 | `Model/DocExamples.lean`; `mathB tp` | as C133 |
| C137, C138 | every function with an argument `when`; an arbitrary backend, then `mathB tp`, `rndB F`, `npB tp`, `nprB F` and arrays | `Proofs/Raises.lean`: `Raises P m`, one lemma for each function |
| C139 | get_topocentric_position, get_topocentric_elevation_angle, get_azimuth; `mathB tp` | `Proofs/Steady.lean`: Lipschitz constants of each step of the chain, from the nutation series to the parallax |
| C140 | get_refraction_correction, get_altitude; `mathB tp` | monotonicity of the cotangent, C66 and C139 |
| C141 | get_altitude, get_topocentric_position; `mathB tp` | C139, the mean value theorem for the cosine, C66, and C87 for the clock |
| C142 | get_altitude; `rndB F` | the rate in C141 against the error bound of C86 |
| C143 | all position, radiation, sunrise and irradiance functions over `swB` (Py/Switching.lean): values with the history of their calls | simulation of `mathB`; a mixture of two libraries meets the bounds of `F64` |
| C144 | cells of rest2-validation.ipynb (Model/Notebook.lean) | refuted by C62; with `log` bound: formulas of C119, C120, monotone in the mass |
| C145 | `GatherRandomEphemeris`, the main program without argument (Model/QueryUsnoGather.lean) | composition of C100 (whole degrees), C129 and C102 (naive times), induction over the rounds |
| C146 | the statistics of the main program | induction over the list; Bhatia-Davis inequality |
| C147, C148 | `get_altitude`, `get_radiation_direct`; `mathB`, `ivB`, `rndB` | C141 with C40 within a UTC date, one day's step of flux and depth bounded; witness on intervals; C142 with a least climb, and C105 |
| C149 | `get_azimuth`, `get_topocentric_azimuth_angle`; `mathB` | the sign of the turn between two horizontal directions, the change of the declination bounded by C139 |
| C150 | `get_altitude_fast`, `get_azimuth_fast`; `mathB`, `ivB` | C98 and C149 for one declination within a UTC date, one day's step of declination and equation of time bounded; witness on intervals |
| C151 | `get_azimuth`; `rndB F` | C149 with a least turn in a minute; C85, with the sun at least 1.3 degrees from the zenith outside the tropics |
| C152 | `get_topocentric_position`, `get_azimuth`, `get_altitude`; `mathB`, `rndB F` | reduced latitude by the mean value theorem, the parallax as in C139, rotation of the horizon; C140 and C86 |
| C153 | `get_sunrise_sunset_transit`; `mathB`, `rndB F` | closed form of the half day, Lipschitz bound of the arc cosine, kernel evaluation of each of the 367 steps of the day number; C107 |
| C154 | rest.py:37-82, 177-303; `rndB F`, `mathB` | calculus of rounding errors with exponentials and powers, kernel evaluation on a cover of the ranges |
| C155 | solar.py, util.py, radiation.py; `mathB`, `npB`, `rndB F`, `nprB F` | `Strict B`: how a backend treats nan and infinities, followed through the model functions |
| C156 | `extraterrestrial_irrad`, `clear_index`; the four backends | witness: nan latitude; the same rules |
| C157 | `simulate_span`, `datetime_range`; every backend | C01 for the first row; rules about exceptions (Proofs/Raises.lean) |
| C158 | `get_altitude_fast`, `get_azimuth_fast`, `extraterrestrial_irrad`; `mathB`, `rndB F` | triangle inequality of angles on the sphere; C37, C77, C103 |
| C159 | `get_altitude`, `get_refraction_correction`; `mathB`, `rndB F` | C30, C31; closed form of the refraction; C86 |
| C160 | `get_topocentric_position`, `get_altitude`; `mathB` | IEEE rules for infinities; rules about nan (Proofs/NonFinite.lean) |
| C161 | `get_radiation_direct`, `get_altitude`; `mathB`, `rndB F` | mean value theorem for `exp(-k/s)`; C105, C140, C152 |
| C162 | `get_incidence_angle`; `rndB F`, `nprB binary64` | error bounds (`ballB`) and arcsine near 1; for the witness every rounding is computed (`b64_near`), sines and cosines from the interval backend |
| C163 | `get_altitude_fast`, `get_azimuth_fast`, `get_topocentric_elevation_angle`; `rndB binary64` | as C162, and C103 |
| C164 | `get_azimuth_fast`; `rndB binary64`, `rndB F` | as C163, following every rounding up to the altitude and bounding the rest; C104 |
| C165 | `get_azimuth`, `get_azimuth_fast`; `rndB binary64`, all arguments | rounding is monotone and leaves doubles alone (`b64_idem`), `degrees(pi)` is 180 exactly; for the witness as C164 |
| C166 | the functions ending in `% 360`, `degrees(asin(...))`, `degrees(acos(...))`; `rndB F`, `nprB F`, `binary64`, all arguments | monotone rounding; `degrees` of the largest arcsine and arccosine is 90 and 180 exactly |
| C167 | `get_radiation_direct`, `get_air_mass_ratio`, `get_apparent_extraterrestrial_flux`, `get_optical_depth`; `rndB binary64`, `nprB binary64`, all arguments | monotone rounding keeps signs and the integer bounds 1085, 1235; the exponent is never positive above the horizon |
| C168 | `get_radiation_direct` and its helpers; `rndB binary64`, `nprB binary64`, altitudes in (0, 90] | bounds of optical depth and air mass; `b64` of less than half the smallest double is 0 |
| C169 | `get_declination`, `equation_of_time`, `get_apparent_extraterrestrial_flux`, `get_optical_depth`; `rndB binary64`, `nprB binary64`, all arguments | a rounded product of a double and a number of at most 1 does not exceed the double; integer bounds survive rounding |
| C170 | `get_rayleigh_transmittance`, `get_gas_transmittance`, `get_aerosol_transmittance`, `get_aerosol_scattering_transmittance`; `rndB binary64`, `nprB binary64` | monotone rounding: numerator and denominator are the same expression with ordered coefficients |
| C171 | `get_pressure_with_elevation`, `get_temperature_with_elevation`; `rndB binary64`, `nprB binary64` | every rounded step is monotone, the exponent is negative |
| C172 | `get_radiation_direct`, `get_air_mass_ratio`; `rndB binary64`, `nprB binary64` | every rounded step is monotone; infinite air mass and underflow as end points of the order |
| C173 | `get_julian_ephemeris_day`; `rndB binary64`, `nprB binary64`, all datetimes | monotone rounding; rounding error of each step; the witness rounded step by step |
| C174 | `get_julian_solar_day`, `get_delta_t`; `mathB`, `rndB binary64`, `nprB binary64`, all datetimes | two entries of the table; monotone rounding; rounding error of each step against the 0.8 s gained in a second |
| C175 | `extraterrestrial_irrad`; `rndB binary64`, `nprB binary64` | the squares of the rounded sine and cosine of one angle sum to nearly 1, so the computed sine of the altitude does not exceed 1 by more than 1e-8 |
| C176 | `mean_earth_sun_distance`, `declination_degree`, `solarelevation_function_clear`, `solarelevation_function_overcast`; `rndB binary64`, `nprB binary64` | ranges carried through each rounded operation; twice a double is exact, so the cosine of twice the altitude belongs to the sine of the altitude |
| C177 | `clear_index`, `extraterrestrial_irrad`; `rndB binary64`, `nprB binary64` | from C175_number; division by the night value 0 and overflow of the quotient |
| C178 | `direct_underclear`, `declination_degree`; `mathB`, all datetimes | sign of the sine of the day of the year; a pressure that places the sun at pi/2 degrees |
| C179 | `diffuse_underclear`, `diffuse_transmittance`; `mathB`, all datetimes | the exact value of both; the altitude of C178 |
| C180, C181 | `direct_underclear`, `global_irradiance_clear`, `global_irradiance_overcast`; `mathB`, all datetimes | the exact values; sign of the sine of the declination formula; interval evaluation for the witnesses |
| C182 | `diffuse_ratio`; `rndB binary64`, `nprB binary64` | gap between different doubles; nearest double; monotone rounding |
| C183 | `diffuse_transmittance`; `rndB binary64`, `nprB binary64` | monotone rounding step by step; error bound of each step |
| C184 | `diffuse_underclear`, `global_irradiance_overcast`; `rndB binary64`, `nprB binary64` | monotone rounding; C176 for the distance, C183 for the transmittance |

## Mutation testing

`seeded/LOG.jsonl` records the experiments: each edits one definition of the model in a scratch copy the way a
realistic bug would change the program, rebuilds, replaces every proof that breaks by `sorry` and then asks
`#print axioms` of every property theorem. "Failed" are the property theorems that no longer stand. If the claim named
by the experiment survived, the theorem was tightened (field `tightened`).
