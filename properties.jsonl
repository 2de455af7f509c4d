{"id": "C01", "title": "Naive datetimes are rejected everywhere", "statement": "Every public function that takes a `when` and documents the timezone requirement (solar.get_topocentric_position, get_position, get_altitude, get_altitude_fast, get_azimuth, get_azimuth_fast, get_hour_angle, get_solar_time; solartime.get_leap_seconds, get_delta_t, get_julian_solar_day, get_julian_ephemeris_day; all `when` functions of util) raises NoTimeZoneInfoError naming the argument 'when' when given a datetime without tzinfo, and never returns a value.", "quantifier": "every naive datetime, every value of the other arguments, both numeric backends", "why_tests_cant": "the offending datetime and the accompanying arguments range over unbounded domains; a test can only try one naive value per function", "anchors": ["pysolar/tzinfo_check.py:check_aware_dt", "pysolar/solar.py:get_position", "pysolar/solar.py:get_azimuth_fast", "pysolar/solartime.py:get_leap_seconds", "pysolar/util.py:get_sunrise_sunset_transit"]}
{"id": "C02", "title": "The timezone guard is transparent for aware datetimes", "statement": "For any decorated function and any call (positional or keyword) whose guarded arguments are all timezone-aware datetimes, the decorated function returns or raises exactly what the undecorated function would, with the same arguments.", "quantifier": "every wrapped function, signature, list of guarded names, positional and keyword argument list", "why_tests_cant": "quantifies over arbitrary wrapped functions and call shapes", "anchors": ["pysolar/tzinfo_check.py:check_aware_dt"]}
{"id": "C03", "title": "The guard's error classification is complete", "statement": "A guarded argument that is missing from the call raises KeyError; one that is neither an array nor has a tzinfo attribute raises ValueError; one with tzinfo None raises NoTimeZoneInfoError; an array passes; the first offending guarded name (in decorator order) decides; the wrapped function is not run when any check fails.", "quantifier": "every signature, guard list and call", "why_tests_cant": "arbitrary combinations of good and bad arguments over arbitrary signatures", "anchors": ["pysolar/tzinfo_check.py:check_aware_dt", "pysolar/tzinfo_check.py:NoTimeZoneInfoError"]}
{"id": "C04", "title": "Results depend only on the instant", "statement": "Two aware datetimes denoting the same UTC instant in different time zones give identical leap seconds, delta-T, Julian days, solar time, hour angle, altitude, azimuth, position (precise and fast), direct radiation and UTC-based irradiance results.", "quantifier": "every pair of aware datetimes with equal instants, any tzinfo (including non-constant offsets), every location, either backend, arbitrary (even floating point) arithmetic", "why_tests_cant": "pairs of time zones, offsets and instants are unbounded", "anchors": ["pysolar/solartime.py:get_julian_solar_day", "pysolar/solartime.py:get_leap_seconds", "pysolar/solartime.py:get_delta_t", "pysolar/solar.py:get_position", "pysolar/solar.py:get_solar_time", "pysolar/numeric.py:tm_yday_math"]}
{"id": "C05", "title": "get_leap_seconds equals the historical TAI-UTC", "statement": "For every aware datetime, get_leap_seconds returns 10 plus the number of leap seconds announced by the IERS that took effect at or before that UTC date (27 of them, 1972-07-01 to 2017-01-01).", "quantifier": "every aware datetime of years 1..9999", "why_tests_cant": "tests sample a few dates; the step boundaries and the two-entries-per-year bookkeeping must be right at every date", "anchors": ["pysolar/solartime.py:get_leap_seconds", "pysolar/solartime.py:leap_seconds_adjustments"]}
{"id": "C06", "title": "Leap seconds are monotone, bounded and the lookup terminates", "statement": "get_leap_seconds always terminates, lies between 10 and 37, and never decreases as time advances.", "quantifier": "every aware datetime and every ordered pair of datetimes", "why_tests_cant": "a while-True loop and a monotonicity claim over all pairs of datetimes", "anchors": ["pysolar/solartime.py:get_leap_seconds"]}
{"id": "C07", "title": "Leap-second staleness warning is issued exactly when due", "statement": "get_leap_seconds issues its warning if and only if the UTC date is in or after July 2026 (the half year after the table's last complete year plus one), exactly once per call, and the returned value is unaffected.", "quantifier": "every aware datetime", "why_tests_cant": "exact characterisation over all dates", "anchors": ["pysolar/solartime.py:get_leap_seconds"]}
{"id": "C08", "title": "get_delta_t returns the tabulated value for the month and never fails", "statement": "For every aware datetime get_delta_t returns a table entry without IndexError; for UTC dates February 1973 to April 2014 it is the entry labelled with that year and month; before February 1973 it is the first entry.", "quantifier": "every aware datetime", "why_tests_cant": "index arithmetic with three clamps must be right for every year and month", "anchors": ["pysolar/solartime.py:get_delta_t", "pysolar/solartime.py:delta_t"]}
{"id": "C09", "title": "get_delta_t uses the latest known value after the table ends", "statement": "For every UTC date after April 2014 get_delta_t returns the last table entry (67.3890 s).", "quantifier": "every aware datetime after the end of the table", "why_tests_cant": "unbounded range of future dates; tests use dates inside the table", "anchors": ["pysolar/solartime.py:get_delta_t"]}
{"id": "C10", "title": "Julian days agree with the calendar", "statement": "get_julian_ephemeris_day and get_julian_solar_day equal the standard integer Julian Day Number of the UTC calendar date (Fliegel-Van Flandern) minus one half plus the UTC fraction of day, plus the TAI/TT (resp. UT1) correction in days.", "quantifier": "every aware datetime of years 1..9999", "why_tests_cant": "the epoch constants and calendar must be consistent at every date, not at one sample", "anchors": ["pysolar/solartime.py:get_julian_solar_day", "pysolar/solartime.py:get_julian_ephemeris_day", "pysolar/solartime.py:gregorian_day_offset", "pysolar/solartime.py:julian_day_offset"]}
{"id": "C11", "title": "JDE minus JD is exactly delta-T", "statement": "get_julian_ephemeris_day(when) - get_julian_solar_day(when) = get_delta_t(when)/86400, and Julian century/millennium are the affine rescalings with J2000.0 mapped to 0.", "quantifier": "every aware datetime", "why_tests_cant": "algebraic identity over all inputs", "anchors": ["pysolar/solartime.py:get_julian_solar_day", "pysolar/solartime.py:get_julian_ephemeris_day", "pysolar/solartime.py:get_julian_century", "pysolar/solartime.py:get_julian_ephemeris_millennium"]}
{"id": "C12", "title": "Ephemeris time advances strictly", "statement": "If one aware datetime is a strictly later instant than another then its Julian ephemeris day is strictly larger; elapsed JDE is elapsed UTC time plus leap seconds in between.", "quantifier": "every ordered pair of aware datetimes", "why_tests_cant": "all ordered pairs, including those straddling leap-second steps", "anchors": ["pysolar/solartime.py:get_julian_ephemeris_day"]}
{"id": "C13", "title": "UT Julian day advances for steps of at least one second", "statement": "If two aware datetimes are at least one second apart, the later has the strictly larger get_julian_solar_day, despite monthly jumps in delta-T.", "quantifier": "every pair of aware datetimes at least 1 s apart", "why_tests_cant": "all pairs straddling table steps", "anchors": ["pysolar/solartime.py:get_julian_solar_day", "pysolar/solartime.py:get_delta_t"]}
{"id": "C14", "title": "The leap-second and delta-T tables are mutually consistent", "statement": "The implied UT1-UTC = leap seconds + 32.184 - delta-T has magnitude below 0.9 s (the defining guarantee of UTC) for every UTC date from February 1973 to the end of the delta-T table.", "quantifier": "every aware datetime in the table range", "why_tests_cant": "two independently maintained tables must agree on every month", "anchors": ["pysolar/solartime.py:get_leap_seconds", "pysolar/solartime.py:get_delta_t", "pysolar/solartime.py:tt_offset"]}
{"id": "C15", "title": "math and numpy date-part extraction agree", "statement": "For every aware or naive datetime, day of year, hour and minute obtained with the math backend equal those obtained with the numpy backend, and lie in 1..366, 0..23 and 0..59.", "quantifier": "every datetime of years 1..9999, every UTC offset", "why_tests_cant": "leap years, offsets crossing year boundaries: unbounded combinations", "anchors": ["pysolar/numeric.py:tm_yday_math", "pysolar/numeric.py:tm_yday_numpy", "pysolar/numeric.py:tm_hour_numpy", "pysolar/numeric.py:tm_min_numpy"]}
{"id": "C16", "title": "get_position is the pair of get_azimuth and get_altitude", "statement": "get_position(args) = (get_azimuth(args), get_altitude(args)) including the exception raised, with the same elevation, temperature and pressure.", "quantifier": "all arguments, any arithmetic", "why_tests_cant": "must hold for all arguments including failing ones", "anchors": ["pysolar/solar.py:get_position", "pysolar/solar.py:get_azimuth", "pysolar/solar.py:get_altitude"]}
{"id": "C17", "title": "Azimuth is always a bearing in [0,360)", "statement": "get_azimuth never raises for finite arguments and aware datetimes and returns a value in [0,360).", "quantifier": "all finite latitudes, longitudes, elevations; all aware datetimes of years 1..9999", "why_tests_cant": "continuous domain incl. poles and wrap-around", "anchors": ["pysolar/solar.py:get_azimuth", "pysolar/solar.py:get_topocentric_azimuth_angle"]}
{"id": "C18", "title": "Elevation angle is within [-90,90] and its arcsine never fails", "statement": "get_topocentric_elevation_angle returns a value in [-90,90] for all finite inputs (its asin argument is always within [-1,1] in exact arithmetic).", "quantifier": "all finite inputs", "why_tests_cant": "domain safety over a continuous 3-dimensional domain", "anchors": ["pysolar/solar.py:get_topocentric_elevation_angle"]}
{"id": "C19", "title": "Azimuth and elevation describe the sun's true local direction", "statement": "For the topocentric declination and hour angle, the unit vector with elevation and azimuth as returned equals the east-north-up components of the sun's direction obtained by rotating (hour angle, declination) to the horizon of the given latitude.", "quantifier": "all latitudes, hour angles and declinations strictly between -90 and 90", "why_tests_cant": "sign/quadrant errors only show in some octants", "anchors": ["pysolar/solar.py:get_topocentric_azimuth_angle", "pysolar/solar.py:get_topocentric_elevation_angle"]}
{"id": "C20", "title": "Ecliptic to equatorial conversion is the rotation by the obliquity", "statement": "The unit vector of the returned right ascension and declination is the ecliptic unit vector (longitude, latitude) rotated about the x axis by the obliquity; right ascension is in [0,360), declination in [-90,90], no domain error.", "quantifier": "all longitudes, obliquities, and latitudes strictly between -90 and 90", "why_tests_cant": "quadrant correctness over a continuous domain", "anchors": ["pysolar/solar.py:get_geocentric_sun_right_ascension", "pysolar/solar.py:get_geocentric_sun_declination"]}
{"id": "C21", "title": "Sun-earth distance stays near 1 AU, so distance corrections never fail", "statement": "For every representable aware datetime the computed sun-earth distance lies between 0.96 and 1.04 AU; get_aberration_correction and get_equatorial_horizontal_parallax therefore never divide by zero.", "quantifier": "every aware datetime of years 1..9999", "why_tests_cant": "a 59-term trigonometric series must be bounded at every instant", "anchors": ["pysolar/solar.py:get_sun_earth_distance", "pysolar/solar.py:get_aberration_correction", "pysolar/solar.py:get_equatorial_horizontal_parallax", "pysolar/constants.py:sun_earth_distance_coeffs"]}
{"id": "C22", "title": "Obliquity and declination stay in the physical range", "statement": "For every representable aware datetime the true obliquity is between 22.5 and 24 degrees and the geocentric sun declination is within +/-24.1 degrees.", "quantifier": "every aware datetime of years 1..9999", "why_tests_cant": "continuous range over 10000 years", "anchors": ["pysolar/solar.py:get_true_ecliptic_obliquity", "pysolar/solar.py:get_geocentric_sun_declination"]}
{"id": "C23", "title": "Nutation is the full 63-term series", "statement": "get_nutation returns longitude and obliquity equal to the sums over all 63 terms of (a+bT) sin / (c+dT) cos of the integer combination of the five fundamental arguments, scaled to degrees; no index error; magnitudes bounded.", "quantifier": "every Julian ephemeris century", "why_tests_cant": "series must align row by row for all times", "anchors": ["pysolar/solar.py:get_nutation", "pysolar/constants.py:nutation_coefficients", "pysolar/constants.py:aberration_sin_terms"]}
{"id": "C24", "title": "get_coeff evaluates the VSOP polynomial", "statement": "get_coeff(jme, table) equals the sum over rows k of jme^k times the sum of A cos(B + C jme), for any table, and is bounded by the sum of |A| |jme|^k.", "quantifier": "every table (any number and length of rows) and every jme", "why_tests_cant": "arbitrary table shapes", "anchors": ["pysolar/solar.py:get_coeff"]}
{"id": "C25", "title": "Projected distances place the observer on the reference ellipsoid", "statement": "(get_projected_radial_distance, get_projected_axial_distance) is the point of the meridian ellipse with axis ratio 0.99664719 whose outward normal has the given geodetic latitude, moved along that normal by elevation / earth radius.", "quantifier": "all latitudes strictly between the poles and all elevations", "why_tests_cant": "continuous domain", "anchors": ["pysolar/solar.py:get_projected_radial_distance", "pysolar/solar.py:get_projected_axial_distance", "pysolar/solar.py:get_flattened_latitude"]}
{"id": "C26", "title": "Parallax in right ascension is the rigorous shift", "statement": "Shifting the hour angle by get_parallax_sun_right_ascension gives exactly the hour angle of the sun as seen from the observer's position rather than the earth's centre.", "quantifier": "all observer distances, hour angles, declinations and parallaxes with the sun not over the observer's meridian singularity", "why_tests_cant": "continuous domain, quadrant correctness", "anchors": ["pysolar/solar.py:get_parallax_sun_right_ascension", "pysolar/solar.py:get_topocentric_local_hour_angle"]}
{"id": "C27", "title": "Topocentric declination is the rigorous parallax declination", "statement": "get_topocentric_sun_declination is the declination of the vector from the observer to the sun (Reda & Andreas eq. 42).", "quantifier": "all observer positions, hour angles, declinations and parallaxes", "why_tests_cant": "one documented sample agrees to 3 decimals even when the formula is wrong", "anchors": ["pysolar/solar.py:get_topocentric_sun_declination"]}
{"id": "C28", "title": "Solar parallax decreases with distance", "statement": "get_equatorial_horizontal_parallax is a decreasing function of the sun-earth distance (8.794 arcsec / R).", "quantifier": "all positive distances", "why_tests_cant": "sample at R close to 1 cannot distinguish R from 1/R", "anchors": ["pysolar/solar.py:get_equatorial_horizontal_parallax"]}
{"id": "C29", "title": "Longitude is periodic", "statement": "Adding any whole multiple of 360 degrees to the longitude leaves get_position, get_altitude, get_azimuth, get_altitude_fast and get_azimuth_fast unchanged.", "quantifier": "all locations, instants, and integer multiples", "why_tests_cant": "unbounded multiples and a continuous domain (exact arithmetic)", "anchors": ["pysolar/solar.py:get_local_hour_angle", "pysolar/solar.py:get_position", "pysolar/solar.py:get_altitude_fast", "pysolar/solar.py:get_azimuth_fast"]}
{"id": "C30", "title": "Refraction is zero below the horizon band and bounded above it", "statement": "get_refraction_correction is 0 for elevation angles below -0.83337 deg (whenever it returns), positive from there until the formula's zenith zero, never above 0.61 deg at standard conditions, and scales linearly with pressure and inversely with temperature.", "quantifier": "all elevation angles in [-90,90], pressures >= 0 and temperatures > 0", "why_tests_cant": "continuous domain with a threshold and a pole", "anchors": ["pysolar/solar.py:get_refraction_correction"]}
{"id": "C31", "title": "get_altitude fails only at identified singular points", "statement": "For finite arguments and aware datetimes get_altitude raises exactly when the temperature is 0, the elevation angle is exactly -5.11 deg or the refraction tangent vanishes (ZeroDivisionError); otherwise it returns elevation angle plus refraction.", "quantifier": "all finite arguments, all aware datetimes", "why_tests_cant": "measure-zero failure points cannot be found by sampling", "anchors": ["pysolar/solar.py:get_altitude", "pysolar/solar.py:get_refraction_correction"]}
{"id": "C32", "title": "Zenith angle and altitude are complementary", "statement": "get_topocentric_zenith_angle + apparent altitude = 90 for the same inputs.", "quantifier": "all inputs", "why_tests_cant": "identity over all inputs", "anchors": ["pysolar/solar.py:get_topocentric_zenith_angle", "pysolar/solar.py:get_altitude"]}
{"id": "C33", "title": "Mean sidereal time is the standard polynomial reduced to [0,360)", "statement": "get_mean_sidereal_time is in [0,360) and differs from the IAU polynomial (with cubic term JC^3/38710000) by less than 0.0134 degrees modulo 360 for all representable dates, and by less than 3e-8 degrees within a century of J2000.", "quantifier": "all Julian days of years 1..9999", "why_tests_cant": "continuous range; wrong cubic term invisible near J2000", "anchors": ["pysolar/solar.py:get_mean_sidereal_time"]}
{"id": "C34", "title": "Incidence angle is the angle between the sun and the panel normal", "statement": "cos(get_incidence_angle) is the dot product of the sun's direction and the panel's normal; the result is in [0,180], no domain error; for slope 0 it is the zenith angle.", "quantifier": "all zenith angles, azimuths, slopes and orientations", "why_tests_cant": "continuous 4-dimensional domain", "anchors": ["pysolar/solar.py:get_incidence_angle"]}
{"id": "C35", "title": "get_declination and equation_of_time stay in their documented ranges", "statement": "get_declination is within +/-23.45 deg with equality attained only at the solstice phases; declination_degree with the default TY equals get_declination of the UTC day; |equation_of_time| <= 18.9 min.", "quantifier": "all day values, all datetimes", "why_tests_cant": "continuous domain", "anchors": ["pysolar/solar.py:get_declination", "pysolar/solar.py:equation_of_time", "pysolar/util.py:declination_degree"]}
{"id": "C36", "title": "get_altitude_fast is the spherical altitude and never fails", "statement": "get_altitude_fast never raises for aware datetimes and finite locations; it is within [-90,90]; its sine is the up-component of the sun direction for the fast declination and hour angle; it never exceeds 90-|lat-decl| for |lat|<=90, with equality at hour angle 0.", "quantifier": "all finite locations and aware datetimes", "why_tests_cant": "continuous domain; domain safety of asin", "anchors": ["pysolar/solar.py:get_altitude_fast", "pysolar/solar.py:get_hour_angle", "pysolar/solar.py:get_declination"]}
{"id": "C37", "title": "get_azimuth_fast is the true bearing for its declination and hour angle", "statement": "Whenever the fast altitude is not +/-90, get_azimuth_fast for |lat|<90 does not raise, lies in [0,360), and with get_altitude_fast gives exactly the local direction vector of the sun; it equals the precise azimuth formula applied to the same declination and hour angle.", "quantifier": "all latitudes strictly between the poles, longitudes and aware datetimes", "why_tests_cant": "quadrant selection must be right in every quadrant", "anchors": ["pysolar/solar.py:get_azimuth_fast", "pysolar/solar.py:get_topocentric_azimuth_angle"]}
{"id": "C38", "title": "Solar time has minute granularity and is linear in longitude", "statement": "get_solar_time, get_hour_angle and the fast position depend on the instant only through the UTC calendar day and minute; one degree of longitude is 4 minutes; hour angle advances 15 degrees per hour.", "quantifier": "all datetimes and longitudes", "why_tests_cant": "all pairs of instants in a common minute", "anchors": ["pysolar/solar.py:get_solar_time", "pysolar/solar.py:get_hour_angle"]}
{"id": "C39", "title": "Extraterrestrial flux and optical depth stay in range", "statement": "get_apparent_extraterrestrial_flux is within [1085,1235] and get_optical_depth within [0.139,0.209].", "quantifier": "all day values", "why_tests_cant": "continuous domain", "anchors": ["pysolar/radiation.py:get_apparent_extraterrestrial_flux", "pysolar/radiation.py:get_optical_depth"]}
{"id": "C40", "title": "Direct radiation is positive, below the flux and increasing with altitude by day", "statement": "For altitude in (0,90] get_radiation_direct returns a value strictly between 0 and the extraterrestrial flux, strictly increasing in altitude.", "quantifier": "all datetimes, all altitudes in (0,90], ordered pairs of altitudes", "why_tests_cant": "continuous domain and ordered pairs", "anchors": ["pysolar/radiation.py:get_radiation_direct", "pysolar/radiation.py:get_air_mass_ratio"]}
{"id": "C41", "title": "Direct radiation is zero when the sun is not above the horizon", "statement": "For every altitude <= 0 get_radiation_direct returns 0 without raising.", "quantifier": "all datetimes and all altitudes in [-90,0]", "why_tests_cant": "a failure window just below the horizon is missed by sampling", "anchors": ["pysolar/radiation.py:get_radiation_direct", "pysolar/radiation.py:get_air_mass_ratio"]}
{"id": "C42", "title": "Extraterrestrial irradiance is bounded and zero at night", "statement": "extraterrestrial_irrad is 0.0 when the sun is below the horizon, otherwise positive and at most 1.0364*SC for SC > 0, never raising.", "quantifier": "all finite locations and aware datetimes, SC > 0", "why_tests_cant": "continuous domain", "anchors": ["pysolar/util.py:extraterrestrial_irrad"]}
{"id": "C43", "title": "mean_earth_sun_distance varies over the year", "statement": "mean_earth_sun_distance follows the annual cycle (1 - 0.0335 sin(2 pi (n-94)/365)), i.e. is below 1 in some part and above 1 in another part of the year.", "quantifier": "all aware datetimes", "why_tests_cant": "tests only check it does not raise", "anchors": ["pysolar/util.py:mean_earth_sun_distance"]}
{"id": "C44", "title": "global_irradiance_clear honours its atmosphere arguments", "statement": "global_irradiance_clear(lat, lon, when, TY, AM, TL, elevation, temperature, pressure) is direct_underclear plus diffuse_underclear evaluated with the caller's TL, temperature and pressure.", "quantifier": "all arguments", "why_tests_cant": "default-argument tests cannot see that arguments are dropped", "anchors": ["pysolar/util.py:global_irradiance_clear", "pysolar/util.py:direct_underclear", "pysolar/util.py:diffuse_underclear"]}
{"id": "C45", "title": "Clear index and diffuse ratio fail exactly on zero denominators", "statement": "clear_index raises ZeroDivisionError exactly when the sun is not above the (fast) horizon and otherwise equals ghi / extraterrestrial irradiance; diffuse_ratio raises exactly when ghi is 0.", "quantifier": "all finite inputs, aware datetimes (Python float data)", "why_tests_cant": "continuous domain", "anchors": ["pysolar/util.py:clear_index", "pysolar/util.py:diffuse_ratio", "pysolar/util.py:extraterrestrial_irrad"]}
{"id": "C46", "title": "Barometric pressure is positive and strictly decreasing", "statement": "For heights below the model's ceiling (Ts + Tl (h-Hb) > 0), get_pressure_with_elevation is positive, strictly decreasing in h, equals Ps at Hb, and satisfies P = Ps (T/Ts)^(gM/(R|Tl|)) with T from get_temperature_with_elevation; it warns exactly when h > 11000.", "quantifier": "all heights below the ceiling, physically signed parameters", "why_tests_cant": "ordered pairs over a continuous domain", "anchors": ["pysolar/elevation.py:get_pressure_with_elevation", "pysolar/elevation.py:get_temperature_with_elevation"]}
{"id": "C47", "title": "Above the barometric ceiling the pressure function gives no real pressure", "statement": "At Ts + Tl (h-Hb) = 0 get_pressure_with_elevation raises ZeroDivisionError and above it (default constants) the power of a negative base is not a real number.", "quantifier": "all heights at or above the ceiling", "why_tests_cant": "failure region far outside sampled heights", "anchors": ["pysolar/elevation.py:get_pressure_with_elevation"]}
{"id": "C48", "title": "Sunrise, transit and sunset are ordered and symmetric", "statement": "Whenever get_sunrise_sunset_transit returns, sunrise <= transit <= sunset in wall time, the two half-days differ by at most two microseconds (each time is rounded to a microsecond), sunset - sunrise <= 24 h, and all carry the tzinfo of `when`.", "quantifier": "all locations and aware datetimes for which it returns", "why_tests_cant": "continuous domain and rounding", "anchors": ["pysolar/util.py:get_sunrise_sunset_transit"]}
{"id": "C49", "title": "Sunrise and sunset are where the sun's centre is 0.833 deg below the horizon", "statement": "At the returned half-day arc, the altitude computed from latitude and the function's own declination is exactly -0.833 deg (zenith 90.833).", "quantifier": "all latitudes strictly between the poles and all days for which it returns", "why_tests_cant": "continuous domain", "anchors": ["pysolar/util.py:get_sunrise_sunset_transit"]}
{"id": "C50", "title": "Polar day and night raise ValueError, and only they do", "statement": "For |lat|<90 get_sunrise_sunset_transit raises ValueError exactly when the sun never crosses -0.833 deg for its declination (cosine of the hour angle outside [-1,1]); otherwise it returns (unless the result leaves years 1..9999).", "quantifier": "all |lat|<90, longitudes and aware datetimes", "why_tests_cant": "boundary over a continuous domain", "anchors": ["pysolar/util.py:get_sunrise_sunset_transit"]}
{"id": "C51", "title": "Sunrise wrappers are projections and depend only on the local date", "statement": "get_sunrise_sunset, get_sunrise_time, get_sunset_time and get_transit_time return the corresponding components of get_sunrise_sunset_transit (or its exception), and all of them depend on `when` only through its local calendar date, tzinfo and UTC offset.", "quantifier": "all arguments", "why_tests_cant": "all pairs of datetimes on one local date", "anchors": ["pysolar/util.py:get_sunrise_sunset", "pysolar/util.py:get_sunrise_time", "pysolar/util.py:get_sunset_time", "pysolar/util.py:get_transit_time"]}
{"id": "C52", "title": "Sunrise and sunset fall on the requested local day", "statement": "get_sunrise_sunset_transit returns times on the same local calendar day as `when` ('answers will be for same day in same timezone').", "quantifier": "all locations and aware datetimes for which it returns", "why_tests_cant": "depends on relation between longitude and offset", "anchors": ["pysolar/util.py:get_sunrise_sunset_transit"]}
{"id": "C53", "title": "Day length behaves physically with latitude", "statement": "The day length is more than 12 h at the equator on every day, and for positive declination it is nondecreasing with latitude from 0 towards the north pole.", "quantifier": "all days; all ordered pairs of northern latitudes for which it returns", "why_tests_cant": "ordered pairs over a continuous domain", "anchors": ["pysolar/util.py:get_sunrise_sunset_transit"]}
{"id": "C54", "title": "datetime_range is an evenly spaced half-open range", "statement": "datetime_range yields floor(span / step) datetimes (span in whole seconds), the n-th being start + n*step, all in [start, end) for a positive step; nothing for an empty or negative span; ZeroDivisionError for step 0.", "quantifier": "all starts, ends and integer steps", "why_tests_cant": "unbounded lengths", "anchors": ["pysolar/simulate.py:datetime_range"]}
{"id": "C55", "title": "simulate_span reports consistent rows", "statement": "Each row yielded by simulate_span is (time, altitude, azimuth, radiation, shade) with time from datetime_range, altitude and azimuth equal to get_altitude/get_azimuth at that time, shade the horizon entry at the rounded azimuth, and radiation 0 exactly when shaded, else get_radiation_direct.", "quantifier": "all spans, steps, horizons and locations; rows of every index", "why_tests_cant": "unbounded number of rows", "anchors": ["pysolar/simulate.py:simulate_span"]}
{"id": "C56", "title": "simulate_span's horizon index is within 0..360", "statement": "The index used into the horizon is between 0 and 360 inclusive, so a horizon of 361 entries never causes IndexError, while an azimuth of at least 359.5 makes a 360-entry horizon fail.", "quantifier": "all azimuths in [0,360), all horizons", "why_tests_cant": "wrap-around at 359.5 is rarely hit", "anchors": ["pysolar/simulate.py:simulate_span", "pysolar/solar.py:get_azimuth"]}
{"id": "C57", "title": "use_math / use_numpy select a consistent set of functions", "statement": "After any history of use_math() and use_numpy() calls every numeric function belongs to the backend selected last.", "quantifier": "all finite histories of switches, with and without numpy installed", "why_tests_cant": "all histories", "anchors": ["pysolar/numeric.py:use_math", "pysolar/numeric.py:use_numpy", "pysolar/__init__.py:use_math"]}
{"id": "C58", "title": "Vectorised evaluation is elementwise", "statement": "With the numpy backend, calling the vectorisable functions with arrays (locations, and datetime64 arrays for the fast functions and radiation) gives arrays whose i-th entry is the scalar result for the i-th inputs.", "quantifier": "all array lengths, contents and indices", "why_tests_cant": "all lengths and indices", "anchors": ["pysolar/solar.py:get_altitude_fast", "pysolar/solar.py:get_azimuth_fast", "pysolar/solar.py:get_position", "pysolar/radiation.py:get_radiation_direct", "pysolar/numeric.py:tm_yday_numpy"]}
{"id": "C59", "title": "math and numpy backends agree whenever math succeeds", "statement": "If a call succeeds with the math backend then with the numpy backend it succeeds with the same value (given that the elementary functions agree where math does not raise).", "quantifier": "all scalar arguments of every solar/radiation/time function", "why_tests_cant": "all inputs", "anchors": ["pysolar/numeric.py:use_math", "pysolar/numeric.py:use_numpy", "pysolar/solar.py:get_position"]}
{"id": "C60", "title": "The polynomial cache is transparent", "statement": "constants.get_aberration_coeffs returns the same five named polynomials on every call in any call history, each with its own coefficients (no closure capture mix-up).", "quantifier": "all call histories and all arguments", "why_tests_cant": "all histories", "anchors": ["pysolar/constants.py:get_aberration_coeffs"]}
{"id": "C61", "title": "REST transmittances are fractions", "statement": "Rayleigh, gas, water-vapour, nitrogen and aerosol transmittances are in (0,1] over the physical range of their arguments (optical masses 0..94, water 0..10 cm, tau >= 0).", "quantifier": "all arguments in the stated ranges, both bands", "why_tests_cant": "continuous domain", "anchors": ["pysolar/rest.py:get_rayleigh_transmittance", "pysolar/rest.py:get_gas_transmittance", "pysolar/rest.py:get_water_vapor_transmittance", "pysolar/rest.py:get_nitrogen_transmittance", "pysolar/rest.py:get_aerosol_transmittance", "pysolar/rest.py:get_aerosol_scattering_transmittance"]}
{"id": "C62", "title": "REST irradiance entry points produce an irradiance", "statement": "get_direct_normal_irradiance_by_band, get_broadband_direct_normal_irradiance, get_beam_*_irradiance, get_diffuse_*_irradiance and get_global_broadband_irradiance return a value for daytime altitudes.", "quantifier": "all altitudes and turbidity/atmosphere parameters", "why_tests_cant": "no test covers the module", "anchors": ["pysolar/rest.py:get_direct_normal_irradiance_by_band", "pysolar/rest.py:get_diffuse_irradiance_by_band", "pysolar/rest.py:get_global_broadband_irradiance", "pysolar/rest.py:get_effective_aerosol_wavelength"]}
{"id": "C63", "title": "REST sky albedo and backscatter are physical", "statement": "get_sky_albedo is in (0,1) for turbidity alpha in [0,2.5] and beta >= 0; get_backscattered_diffuse_irradiance_by_band is nonnegative, zero for zero input and linear in the irradiances, never dividing by zero.", "quantifier": "all arguments in range, both bands", "why_tests_cant": "continuous domain", "anchors": ["pysolar/rest.py:get_sky_albedo", "pysolar/rest.py:get_backscattered_diffuse_irradiance_by_band", "pysolar/rest.py:get_ground_albedo"]}
{"id": "C64", "title": "The delta-T table generator and the lookup are inverse", "statement": "For any well-formed monthly data (consecutive months, complete years except first and last), the table printed by util/get_delta_t, read back by get_delta_t's indexing, returns for each month the value given for it.", "quantifier": "all well-formed data files of any length", "why_tests_cant": "arbitrary data length and start month", "anchors": ["util/get_delta_t:parse_data", "pysolar/solartime.py:get_delta_t"]}
{"id": "C65", "title": "The precise position is periodic-safe: local hour angle and longitudes are reduced", "statement": "get_local_hour_angle, get_heliocentric_longitude, get_geocentric_longitude and get_geocentric_sun_right_ascension are in [0,360), and geocentric longitude is heliocentric longitude plus 180 modulo 360, geocentric latitude its negation.", "quantifier": "all arguments", "why_tests_cant": "continuous domain", "anchors": ["pysolar/solar.py:get_local_hour_angle", "pysolar/solar.py:get_geocentric_longitude", "pysolar/solar.py:get_geocentric_latitude", "pysolar/solar.py:get_heliocentric_longitude"]}
{"id": "C66", "title": "Refraction never reorders elevation angles", "statement": "At standard pressure and temperature, a higher geometric elevation angle gives a higher apparent altitude (elevation angle plus get_refraction_correction) whenever both corrections are returned.", "quantifier": "all pairs of elevation angles up to 90 degrees at which the correction is defined, except the one (about 89.89 degrees) at which the formula takes the tangent of exactly 90 degrees", "why_tests_cant": "continuous domain; the jump at -0.83337 degrees and the sign change near the zenith are easily missed", "anchors": ["pysolar/solar.py:get_refraction_correction"]}
{"id": "C67", "title": "Clear-sky and overcast diffuse irradiance coincide", "statement": "diffuse_underovercast and diffuse_underclear return the same value (or raise the same exception) for the same arguments.", "quantifier": "all arguments, aware datetimes", "why_tests_cant": "continuous domain", "anchors": ["pysolar/util.py:diffuse_underclear", "pysolar/util.py:diffuse_underovercast"]}
{"id": "C68", "title": "Clear-sky direct irradiance is non-negative while the sun is up", "statement": "direct_underclear is never negative when get_altitude at the same arguments is between 0 and 90 degrees.", "quantifier": "all locations, datetimes and atmospheres with the sun up", "why_tests_cant": "the sign error depends on the altitude modulo 2 pi read as radians; samples near particular altitudes look plausible", "anchors": ["pysolar/util.py:direct_underclear"]}
{"id": "C69", "title": "The solar elevation functions use the altitude angle", "statement": "solarelevation_function_clear is 0.038175 + 1.5458 sin(h) - 0.5998 sin(h)^2 and solarelevation_function_overcast is -0.0067133 + 0.786 sin(h) + 0.22401 sin(h)^2, h being the altitude angle.", "quantifier": "all locations, datetimes and atmospheres", "why_tests_cant": "continuous domain", "anchors": ["pysolar/util.py:solarelevation_function_clear", "pysolar/util.py:solarelevation_function_overcast"]}
{"id": "C70", "title": "Apparent sidereal time adds the nutation times the cosine of the obliquity", "statement": "get_apparent_sidereal_time is get_mean_sidereal_time plus the nutation in longitude times the cosine of the true obliquity angle.", "quantifier": "all arguments", "why_tests_cant": "the correction is at most 0.005 degrees, below test tolerances", "anchors": ["pysolar/solar.py:get_apparent_sidereal_time"]}
{"id": "C71", "title": "The azimuth and elevation angle point at the sun", "statement": "The direction given by get_azimuth and by get_topocentric_elevation_angle of the topocentric position (no refraction) is within 0.032 degrees of the direction from the observer, placed on the earth ellipsoid, to the sun, obtained with vectors from the published periodic series; within 0.018 degrees for Julian days within a century of J2000.", "quantifier": "all aware datetimes of the years 1 to 9999, all latitudes (at the poles themselves the tangent taken as at least 1e6 in size, and of the sign of the latitude), all longitudes, all elevations up to 50 km", "why_tests_cant": "continuous domain, and no independent vector computation in the tests", "anchors": ["pysolar/solar.py:get_azimuth", "pysolar/solar.py:get_topocentric_position", "pysolar/solar.py:get_topocentric_elevation_angle"]}
{"id": "C72", "title": "Solar time and hour angle follow their formulas exactly", "statement": "get_declination(n) = 23.45 sin(360/365 (n-81)) degrees; equation_of_time(n) = 9.87 sin 2b - 7.53 cos b - 1.5 sin b with b = 360/364 (n-81) degrees; get_solar_time is UTC hour + minute/60 + longitude/15 + equation of time/60; get_hour_angle is 15 (solar time - 12).", "quantifier": "all days, longitudes and aware datetimes", "why_tests_cant": "continuous domain; tests compare a few values with loose tolerances", "anchors": ["pysolar/solar.py:get_declination", "pysolar/solar.py:equation_of_time", "pysolar/solar.py:get_solar_time", "pysolar/solar.py:get_hour_angle"]}
{"id": "C73", "title": "The equation of time stays between -14.61 and 16.46 minutes", "statement": "equation_of_time(n) is in [-14.61, 16.46] minutes for every real n; values above 16.25 and below -14.13 occur.", "quantifier": "all real day numbers", "why_tests_cant": "continuous domain", "anchors": ["pysolar/solar.py:equation_of_time"]}
{"id": "C74", "title": "Direct radiation follows the clear-sky formula", "statement": "get_apparent_extraterrestrial_flux(n) = 1160 + 75 sin(360/365 (n-275)); get_optical_depth(n) = 0.174 + 0.035 sin(360/365 (n-100)); get_air_mass_ratio is 1/sin(altitude), infinite when the sine is 0; get_radiation_direct is flux * exp(-depth/sin(altitude)) of the UTC day of the year for altitudes in (0,90].", "quantifier": "all days, aware datetimes and altitudes", "why_tests_cant": "continuous domain", "anchors": ["pysolar/radiation.py:get_radiation_direct", "pysolar/radiation.py:get_apparent_extraterrestrial_flux", "pysolar/radiation.py:get_optical_depth", "pysolar/radiation.py:get_air_mass_ratio"]}
{"id": "C75", "title": "Obliquity, apparent longitude and topocentric right ascension follow their formulas", "statement": "get_true_ecliptic_obliquity is the Laskar polynomial of jme/10 in arc seconds over 3600 plus the nutation in obliquity; get_aberration_correction is -20.4898/3600/R; get_apparent_sun_longitude is longitude + nutation + aberration; get_topocentric_sun_right_ascension is the geocentric right ascension plus the parallax at the geocentric declination.", "quantifier": "all arguments, R not 0", "why_tests_cant": "terms of 0.005 degrees and less are below test tolerances", "anchors": ["pysolar/solar.py:get_true_ecliptic_obliquity", "pysolar/solar.py:get_aberration_correction", "pysolar/solar.py:get_apparent_sun_longitude", "pysolar/solar.py:get_topocentric_sun_right_ascension"]}
{"id": "C76", "title": "Sunrise, transit and sunset do not depend on the time zone used and move 4 minutes per degree", "statement": "For fixed-offset time zones, the same local calendar date in two zones gives the same three instants to a microsecond; on the same date a longitude d degrees further east gives times 4d minutes earlier to a microsecond.", "quantifier": "all locations, dates and fixed offsets for which the function returns", "why_tests_cant": "unbounded domain", "anchors": ["pysolar/util.py:get_sunrise_sunset_transit"]}
{"id": "C77", "title": "Extraterrestrial irradiance is Spencer's formula with the fast altitude", "statement": "extraterrestrial_irrad is SC times Spencer's eccentricity factor of the UTC day times max(0, sin(get_altitude_fast)).", "quantifier": "all aware datetimes, locations and solar constants", "why_tests_cant": "continuous domain", "anchors": ["pysolar/util.py:extraterrestrial_irrad", "pysolar/solar.py:get_altitude_fast"]}
{"id": "C78", "title": "The sun's longitude advances about one degree per day", "statement": "Between any two datetimes get_geocentric_longitude (modulo 360) advances by 0.926 to 1.045 degrees per day of ephemeris time, by 0.951 to 1.021 within a century of J2000; it does not take the same value twice within 344 days.", "quantifier": "all pairs of aware datetimes of the years 1 to 9999", "why_tests_cant": "pairs of instants in a continuous domain; needs a bound on every term of the series", "anchors": ["pysolar/solar.py:get_geocentric_longitude", "pysolar/solar.py:get_heliocentric_longitude", "pysolar/constants.py"]}
{"id": "C79", "title": "REST transmittances, scattering and albedo follow the published REST2 formulas", "statement": "For each of the two bands get_rayleigh_transmittance, get_gas_transmittance, get_ozone_transmittance, get_nitrogen_transmittance, get_water_vapor_transmittance, get_aerosol_scattering_correction_factor and get_sky_albedo return the values of the REST2 rational functions (Gueymard 2008), the aerosol transmittances are exp(-m t) and exp(-albedo m t), the forward scatterance factor is 1 - exp(-0.6931 - 1.8326 cos Z), the optical depth beta lambda^-alpha; an unknown band raises KeyError in the aerosol scattering transmittance.", "quantifier": "all air masses, amounts and turbidities in the stated ranges", "why_tests_cant": "continuous domain, many coefficients", "anchors": ["pysolar/rest.py:get_rayleigh_transmittance", "pysolar/rest.py:get_gas_transmittance", "pysolar/rest.py:get_ozone_transmittance", "pysolar/rest.py:get_nitrogen_transmittance", "pysolar/rest.py:get_water_vapor_transmittance", "pysolar/rest.py:get_sky_albedo", "pysolar/rest.py:get_aerosol_scattering_correction_factor", "pysolar/rest.py:get_aerosol_forward_scatterance_factor"]}
{"id": "C80", "title": "REST optical masses are the published ones", "statement": "get_optical_mass_rayleigh, _ozone, _water and _aerosol return 1/(cos Z + a Z^c (p - Z)^-q) with Z the zenith angle in degrees (Gueymard 2003), so 1 for a sun overhead at standard pressure.", "quantifier": "all altitudes from 0 to 90 degrees", "why_tests_cant": "continuous domain; the functions have no tests", "anchors": ["pysolar/rest.py:get_optical_mass_rayleigh", "pysolar/rest.py:get_optical_mass_ozone", "pysolar/rest.py:get_optical_mass_water", "pysolar/rest.py:get_optical_mass_aerosol"]}
{"id": "C81", "title": "Clear-sky and overcast irradiance formulas", "statement": "diffuse_transmittance is -21.657 + 41.752 TL + 0.51905 TL^2; the diffuse irradiance is that times get_altitude of the same arguments; the overcast global irradiance is 572 times get_altitude; declination_degree for a year of TY days is 23.45 sin(2 pi (day - 81)/TY) and raises ZeroDivisionError for TY = 0; the direct irradiance is 1367 exp(-0.8662 AM TL declination) sin(altitude number).", "quantifier": "all aware datetimes, places, turbidities and atmospheres", "why_tests_cant": "continuous domain", "anchors": ["pysolar/util.py:diffuse_transmittance", "pysolar/util.py:diffuse_underclear", "pysolar/util.py:diffuse_underovercast", "pysolar/util.py:global_irradiance_overcast", "pysolar/util.py:declination_degree", "pysolar/util.py:direct_underclear"]}
{"id": "C82", "title": "Diffuse and overcast irradiances are never negative", "statement": "diffuse_underclear and global_irradiance_overcast return a number >= 0 at every instant, 0 when the sun is down.", "quantifier": "all aware datetimes and places, default arguments", "why_tests_cant": "continuous domain", "anchors": ["pysolar/util.py:diffuse_underclear", "pysolar/util.py:global_irradiance_overcast"]}
{"id": "C83", "title": "Users of the nutation polynomials do not disturb each other", "statement": "Whatever a program has done with the dictionaries returned by constants.get_aberration_coeffs(), get_nutation(jce) returns the same result as in a fresh interpreter.", "quantifier": "all backends, all finite sequences of calls, reads, writes and deletions on the returned dictionary, all jce", "why_tests_cant": "a test sees one order of calls; the claim is about every history of a shared global", "anchors": ["pysolar/constants.py:get_aberration_coeffs", "pysolar/solar.py:get_nutation"]}
{"id": "C84", "title": "Topocentric position in double precision", "statement": "Computed in double-precision floating point, get_topocentric_position raises no exception; its declination is within 6e-8 degrees and its hour angle within 2.32e-6 degrees (up to whole turns) of the values of the same formulas in exact arithmetic.", "quantifier": "every rounding and C library meeting the stated error bounds (IEEE binary64 round-to-nearest-even among them), all aware datetimes of the years 1..9999, |latitude| <= 90 - 1e-9 (<= 90 if radians(90) rounds to less than a right angle, as in IEEE binary64), |longitude| <= 360, |elevation| <= 50000 m", "why_tests_cant": "rounding errors depend on every input bit; no finite set of inputs bounds them", "anchors": ["pysolar/solar.py:get_topocentric_position", "pysolar/solartime.py", "pysolar/numeric.py"]}
{"id": "C85", "title": "Direction of the sun in double precision", "statement": "Computed in double-precision floating point, get_azimuth raises no exception and returns a value from 0 to 360 (both included); get_topocentric_elevation_angle of the computed position is within 1e-5 degrees of the exact one, or raises ValueError, the latter only if the sun is within 1e-5 degrees of the zenith or nadir; the direction given by both is within 1e-5 degrees of the exact computation and within 0.0321 degrees of the direction to the sun.", "quantifier": "every rounding and C library meeting the stated error bounds, all aware datetimes of the years 1..9999, |latitude| <= 90 - 1e-9 (<= 90 if radians(90) rounds to less than a right angle, as in IEEE binary64), |longitude| <= 360, |elevation| <= 50000 m", "why_tests_cant": "rounding errors depend on every input bit; the azimuth is ill-conditioned near the zenith, where no sample shows the worst case", "anchors": ["pysolar/solar.py:get_azimuth", "pysolar/solar.py:get_topocentric_elevation_angle", "pysolar/solar.py:get_topocentric_azimuth_angle"]}
{"id": "C86", "title": "Altitude with refraction in double precision", "statement": "Computed in double-precision floating point, get_altitude raises no exception and is within 2e-5 degrees of the same formulas in exact arithmetic, unless the elevation angle before refraction is within 1e-5 degrees of the zenith or nadir, at the threshold of the refraction formula (-0.83341 to -0.83333 degrees) or in the interval from -5.31 to -4.89 degrees that contains the poles of that formula.", "quantifier": "every rounding and C library meeting the stated error bounds, all aware datetimes of the years 1..9999, |latitude| <= 90 - 1e-9 (<= 90 if radians(90) rounds to less than a right angle, as in IEEE binary64), |longitude| <= 360, |elevation| <= 50000 m, pressure 1..120000 Pa, temperature 180..340 K", "why_tests_cant": "rounding errors depend on every input bit, and the refraction formula has a jump and poles near which they are unboundedly amplified; tests find neither the bound nor the excluded intervals", "anchors": ["pysolar/solar.py:get_altitude", "pysolar/solar.py:get_refraction_correction", "pysolar/elevation.py"]}
{"id": "C87", "title": "Fast declination and hour angle stay close to the precise ones", "statement": "For every aware datetime whose UTC year is between 1901 and 2099, every latitude strictly between the poles, every longitude and every elevation up to 50 km, get_declination(day of the year) differs from the declination returned by get_topocentric_position by at most 2.07 degrees, and get_hour_angle differs from its hour angle by at most 0.99 degrees modulo full turns.", "quantifier": "every aware datetime with UTC year in 1901..2099 and any tzinfo, -90 < latitude < 90, every real longitude, |elevation| <= 50000", "why_tests_cant": "Two independent algorithms (a one-term formula in the day of the year, and a VSOP87 series with some 200 terms) are compared at every instant of 199 years; a test samples a few instants and cannot bound the difference between samples.", "anchors": ["pysolar/solar.py:get_declination", "pysolar/solar.py:get_hour_angle", "pysolar/solar.py:get_topocentric_position", "pysolar/solar.py:equation_of_time"]}
{"id": "C88", "title": "Fast altitude and azimuth point within 2.3 degrees of the precise direction", "statement": "For every aware datetime whose UTC year is between 1901 and 2099, every latitude strictly between the poles, every longitude and every elevation up to 50 km, get_altitude_fast differs from the precise elevation angle before refraction by at most 2.3 degrees; and unless the fast altitude is exactly 90 or -90 degrees, the direction given by get_altitude_fast and get_azimuth_fast is within 2.3 degrees of the direction given by that elevation angle and get_azimuth.", "quantifier": "every aware datetime with UTC year in 1901..2099 and any tzinfo, -90 < latitude < 90, every real longitude, |elevation| <= 50000", "why_tests_cant": "The azimuth is undefined at the zenith, so the comparison has to be made on the sphere; sampling cannot exclude a wrong quadrant of the fast azimuth or a larger error at some unsampled date and place.", "anchors": ["pysolar/solar.py:get_altitude_fast", "pysolar/solar.py:get_azimuth_fast", "pysolar/solar.py:get_azimuth", "pysolar/solar.py:get_topocentric_elevation_angle"]}
{"id": "C89", "title": "The seasons fall where they should", "statement": "For every aware datetime whose UTC year is between 1901 and 2099 and every place strictly between the poles, the declination returned by get_topocentric_position is positive from 22 March to 20 September and negative from 25 September to 18 March (dates in UTC).", "quantifier": "every aware datetime with UTC year in 1901..2099 and any tzinfo, -90 < latitude < 90, every real longitude, |elevation| <= 50000", "why_tests_cant": "A sign is claimed at every microsecond of about 360 days a year over 199 years; a phase error of a few days in the long series would only show at the unsampled dates around the equinoxes.", "anchors": ["pysolar/solar.py:get_topocentric_position", "pysolar/solar.py:get_geocentric_longitude", "pysolar/solar.py:get_true_ecliptic_obliquity"]}
{"id": "C90", "title": "Polar day and polar night", "statement": "For every year from 1901 to 2099: from 12 to 30 June (UTC) at every latitude from 68 degrees north up to the pole, and from 13 to 30 December from 68 degrees south down to the pole, get_altitude is positive at every instant for all positive pressures and temperatures; and during the same days on the opposite cap, any altitude returned for the standard pressure and temperature is negative.", "quantifier": "every aware datetime with UTC date in the given ranges of the years 1901..2099, 68 <= |latitude| < 90, every longitude, |elevation| <= 50000, every positive pressure and temperature (day), any value at least 1 in absolute value for the tangent of 90 degrees (night)", "why_tests_cant": "The sun must be kept above (or below) the horizon through whole days at every longitude; sampled instants cannot exclude a dip below the horizon at lower culmination, nor that refraction lifts the sun above it.", "anchors": ["pysolar/solar.py:get_altitude", "pysolar/solar.py:get_refraction_correction", "pysolar/solar.py:get_topocentric_position"]}
{"id": "C91", "title": "Speed limit of the computed sun", "statement": "For any two aware datetimes of the years 1 to 9999 and one place strictly between the poles, the angle between the two directions given by get_azimuth and the elevation angle before refraction is at most 15.09 degrees per elapsed hour plus 0.093 degrees, and so is the difference of the elevation angles.", "quantifier": "every pair of aware datetimes with any tzinfos, -90 < latitude < 90, every real longitude, |elevation| <= 50000", "why_tests_cant": "Excludes jumps: at midnight, at month and year ends, at leap days and leap seconds, where angles wrap around, and at the edges of the delta-T tables; tests sample single instants and never all pairs.", "anchors": ["pysolar/solar.py:get_azimuth", "pysolar/solar.py:get_topocentric_position", "pysolar/solar.py:get_apparent_sidereal_time", "pysolar/solartime.py:get_julian_solar_day", "pysolar/solartime.py:get_leap_seconds"]}
{"id": "C92", "title": "Sunrise depends only on the date and the time zone", "statement": "For two aware datetimes with the same calendar date and the same tzinfo, get_sunrise_sunset_transit returns the same three times (its documentation: \"answers will be for same day in same timezone\"). False: the UTC offset of the datetime given is used for the whole day, so on a day on which the clocks change the answers for a datetime before and one after the change differ by the change. What holds: they differ by exactly the difference of the two UTC offsets, to the microsecond.", "quantifier": "all datetimes d, d' of one date, every latitude between the poles, |longitude| <= 180, every tzinfo", "why_tests_cant": "A test with a fixed-offset time zone, or on a day without a clock change, never sees it; the law for the difference covers every time zone.", "anchors": ["pysolar/util.py:get_sunrise_sunset_transit"]}
{"id": "C93", "title": "Transit is when the precise sun crosses the meridian", "statement": "For every date of the years 1901 to 2099, every latitude between the poles, |longitude| <= 180 and |elevation| <= 50 km: at the instant returned by get_transit_time, the hour angle computed by get_topocentric_position is within 0.5 degrees (two minutes of time) of a whole number of turns, provided the time zone has the same UTC offset at that instant as at the datetime given.", "quantifier": "every valid aware datetime with year in 1901..2099 and any tzinfo, -90 < latitude < 90, |longitude| <= 180, |elevation| <= 50000", "why_tests_cant": "Two independent algorithms meet: a Fourier formula in the day of the year and the VSOP87 series. All 366 day numbers, all phases of the leap-year cycle and all longitudes matter; tests compare a few dates.", "anchors": ["pysolar/util.py:get_sunrise_sunset_transit", "pysolar/util.py:get_transit_time", "pysolar/solar.py:get_topocentric_position"]}
{"id": "C94", "title": "Sunrise and sunset against the precise elevation", "statement": "For every date of the years 1901 to 2099, every latitude between the poles, |longitude| <= 180 and |elevation| <= 50 km for which get_sunrise_sunset_transit returns: at the instants returned as sunrise and sunset, the precise elevation angle of the sun before refraction is within 1.24 degrees of -0.833 degrees, provided the time zone has the same UTC offset at that instant as at the datetime given.", "quantifier": "every valid aware datetime with year in 1901..2099 and any tzinfo, -90 < latitude < 90, |longitude| <= 180, |elevation| <= 50000", "why_tests_cant": "Close to the polar circles the times are extremely sensitive, but the elevation at the returned time must still be near the horizon; sampling dates and places cannot bound the largest deviation.", "anchors": ["pysolar/util.py:get_sunrise_sunset_transit", "pysolar/solar.py:get_topocentric_position", "pysolar/solar.py:get_topocentric_elevation_angle"]}
{"id": "C95", "title": "Daylight lies between sunrise and sunset", "statement": "For every date of the years 1901 to 2099, every latitude between the poles, |longitude| <= 180 and |elevation| <= 50 km for which get_sunrise_sunset_transit returns: at every instant from the returned sunrise to the returned sunset the precise elevation angle of the sun (before refraction) is at least -2.08 degrees, and at every instant within half a day of the transit that is before sunrise or after sunset it is at most 0.41 degrees, provided the clocks do not change between the datetime given and the three times.", "quantifier": "every valid aware datetime with year in 1901..2099 and any tzinfo, -90 < latitude < 90, |longitude| <= 180, |elevation| <= 50000; every instant, in any time zone", "why_tests_cant": "A continuum of instants for every date and place; tests check the two end points only.", "anchors": ["pysolar/util.py:get_sunrise_sunset_transit", "pysolar/solar.py:get_topocentric_position", "pysolar/solar.py:get_topocentric_elevation_angle"]}
{"id": "C96", "title": "ValueError means polar day or polar night", "statement": "When get_sunrise_sunset_transit raises ValueError for a date of the years 1901 to 2099 at a place between the poles, the precise sun stays above -2.08 degrees, or stays below 0.41 degrees, during the whole mean solar day of that date at that longitude.", "quantifier": "every valid aware datetime with year in 1901..2099 and any tzinfo, -90 < latitude < 90, |longitude| <= 180, |elevation| <= 50000; every instant of the local mean solar day", "why_tests_cant": "Absence of sunrise is a statement about all instants of a day; the boundary of the polar zones is a curve that sampling misses.", "anchors": ["pysolar/util.py:get_sunrise_sunset_transit", "pysolar/solar.py:get_topocentric_elevation_angle"]}
{"id": "C97", "title": "East in the morning, west in the afternoon", "statement": "A sun with hour angle between 180 and 360 degrees (modulo turns) has an azimuth strictly between 0 and 180 degrees, one with hour angle between 0 and 180 an azimuth strictly between 180 and 360; at hour angle 0 the azimuth is exactly 180 if the declination is not above the latitude and 0 if it is. The same for get_azimuth with the hour angle it computes, and for get_azimuth_fast with the solar time (before and after 12 o'clock).", "quantifier": "all latitudes, declinations and hour angles; all aware datetimes and longitudes", "why_tests_cant": "A wrong quadrant shows only for some combinations of hemisphere, season and hour; the claim is for all of them, including the discontinuity on the meridian.", "anchors": ["pysolar/solar.py:get_topocentric_azimuth_angle", "pysolar/solar.py:get_azimuth", "pysolar/solar.py:get_azimuth_fast"]}
{"id": "C98", "title": "Course of the sun through a day", "statement": "For fixed latitude and declination strictly between -90 and 90 the elevation angle is strictly decreasing in the distance of the hour angle from 0; it is 90 - |lat - dec| at hour angle 0 and |lat + dec| - 90 at 180.", "quantifier": "all latitudes and declinations in (-90, 90), all hour angles in [-180, 180]", "why_tests_cant": "Strict monotonicity over a continuum of pairs.", "anchors": ["pysolar/solar.py:get_topocentric_elevation_angle"]}
{"id": "C99", "title": "The antipode sees the opposite altitude", "statement": "get_altitude_fast at (-lat, lon + 180) is exactly the opposite of that at (lat, lon); the precise elevation angles at the two places, for elevations up to 50 km, are opposite up to 0.036 degrees (the parallax).", "quantifier": "all aware datetimes, latitudes and longitudes", "why_tests_cant": "A symmetry over all places and instants with an explicit worst-case bound.", "anchors": ["pysolar/solar.py:get_altitude_fast", "pysolar/solar.py:get_topocentric_position", "pysolar/solar.py:get_topocentric_elevation_angle"]}
{"id": "C100", "title": "The USNO request names the place asked for", "statement": "The sign, degrees, minutes and seconds that EncodeRequest sends for latitude and longitude denote the coordinates given. False: divmod rounds down, so -0.5 degrees is sent as 1 degree 30 minutes west, and the remainder after the minutes is sent in degrees as if it were seconds. What holds: whole degrees are sent exactly (with the date, time and height), and other non-negative coordinates are too small by less than 1/60 degree.", "quantifier": "all real coordinates, all datetimes and elevations", "why_tests_cant": "The tool only ever generates whole degrees, for which the conversion is right.", "anchors": ["test/query_usno.py:EncodeRequest"]}
{"id": "C101", "title": "A perfect reference is reported without error", "statement": "ComparePysolarToUSNO reports zero errors for a reference ephemeris whose azimuth is the value of get_azimuth and whose zenith distance is 90 minus get_altitude. False: the azimuth of pysolar is converted with (180 - az) % 360, a convention get_azimuth no longer has. What holds: the error in altitude is zero and the error in azimuth is |(180 - az) % 360 - az|, which is zero only for azimuths 90 and 270.", "quantifier": "all places, aware datetimes, elevations", "why_tests_cant": "Only a comparison with real reference data shows the error, and the service queried no longer exists.", "anchors": ["test/query_usno.py:ComparePysolarToUSNO", "test/query_usno.py:EphemerisComparison"]}
{"id": "C102", "title": "The ephemeris log can be written and read back", "statement": "Every entry read by ReadEphemeridesLog can be appended to the log with WriteEphemerisDatumToFile and read again. False: the entries read carry the time zone UTC, which is written as +00:00, and the log can then no longer be read (ValueError). What holds: appending an entry with a naive timestamp in whole seconds and reading the log gives the old entries and the new one, taken as UTC; for every timestamp with an offset or with microseconds reading raises ValueError.", "quantifier": "all logs, all entries whose coordinates are printed without a space, every lawful str/float", "why_tests_cant": "All dates, times and contents of the log; the tool itself writes only naive timestamps.", "anchors": ["test/query_usno.py:ReadEphemeridesLog", "test/query_usno.py:WriteEphemerisDatumToFile"]}
{"id": "C103", "title": "The fast altitude survives double precision", "statement": "In double-precision arithmetic get_declination and get_hour_angle are within 1.3e-13 and 8.5e-13 degrees of the exact values of their formulas. get_altitude_fast is within 1.4e-5 degrees of its exact value, and within 5e-12 degrees divided by the cosine of the altitude; its only exception is a ValueError with the exact altitude within 1.4e-5 degrees of the zenith or nadir.", "quantifier": "all aware datetimes, |latitude| <= 90, |longitude| <= 360, every rounding and maths library within the stated error bounds", "why_tests_cant": "A rounding error that pushes the argument of asin above 1 occurs at isolated instants only; no sample finds the worst case.", "anchors": ["pysolar/solar.py:get_declination", "pysolar/solar.py:get_hour_angle", "pysolar/solar.py:get_altitude_fast"]}
{"id": "C104", "title": "The fast azimuth survives double precision", "statement": "In double-precision arithmetic get_azimuth_fast is within 3e-5 degrees divided by the cosine of the altitude of its exact value, up to full turns, even where rounding takes the other branch of its case distinction. Its only exception is a ValueError with the exact azimuth that close to due east or west.", "quantifier": "all aware datetimes, |latitude| <= 89.9, |longitude| <= 360, cosine of the altitude at least 1/1000, every rounding and maths library within the stated error bounds", "why_tests_cant": "The square-root singularity of asin at due east and west and the branch boundary are sets of measure zero.", "anchors": ["pysolar/solar.py:get_azimuth_fast"]}
{"id": "C105", "title": "Direct radiation survives double precision", "statement": "With the sun from a millionth of a degree to 90 degrees up, get_radiation_direct in double-precision arithmetic returns a number within 1e-11 W/m2 of the exact value of its formula; the flux is within 5.4e-13 and the optical depth within 3e-16.", "quantifier": "all aware datetimes, all altitudes in [1e-6, 90], every rounding and maths library within the stated error bounds", "why_tests_cant": "Air mass and its rounding error grow without bound towards the horizon; the claim is about all altitudes.", "anchors": ["pysolar/radiation.py:get_radiation_direct", "pysolar/radiation.py:get_air_mass_ratio"]}
{"id": "C106", "title": "Below the horizon get_radiation_direct returns zero if it returns", "statement": "In double-precision arithmetic, for every altitude in [-90, 0), get_radiation_direct returns 0 whenever it returns. False: in a band about a thousandth of a degree wide, near 0.014 degrees below the horizon, flux times attenuation overflows to infinity and infinity times False is nan. What holds: 0 for altitudes up to -0.0171 degrees; OverflowError from -0.011 to -1e-6 degrees; nan wherever depth times air mass is between 703.6 and 709.", "quantifier": "all aware datetimes, all altitudes in [-90, 0), every rounding and maths library within the stated error bounds", "why_tests_cant": "The band is a thousandth of a degree wide; sampled altitudes miss it.", "anchors": ["pysolar/radiation.py:get_radiation_direct"]}
{"id": "C107", "title": "Sunrise, sunset and transit survive double precision", "statement": "In double-precision arithmetic, including CPython's rounding inside timedelta(hours=...), get_sunrise_sunset_transit gives a transit within 1 microsecond of the exact value of its formulas, and sunrise and sunset within 40 milliseconds, within 1 microsecond unless the cosine of half the day arc is beyond 0.99. Double precision and exact arithmetic disagree about raising ValueError only where that cosine is within 3.5e-12 of 1 or -1.", "quantifier": "all aware valid datetimes of years 2 to 9998, |latitude| <= 89, |longitude| <= 180, every rounding and maths library within the stated error bounds", "why_tests_cant": "acos loses half the digits near the polar day and night; the worst cases are sets of measure zero.", "anchors": ["pysolar/util.py:get_sunrise_sunset_transit"]}
{"id": "C108", "title": "Sun coordinates agree with the Astronomical Almanac", "statement": "The apparent longitude of the sun, the obliquity, the sun's distance and the apparent sidereal time computed for a datetime are within 0.038 degrees, 0.004 degrees, 0.00023 astronomical units and 0.0186 degrees of the Astronomical Almanac's low-precision formulas (a different, much shorter theory).", "quantifier": "all aware datetimes with UTC year 1950 to 2050", "why_tests_cant": "A wrong coefficient among several hundred shows only at some dates; the theorem covers every microsecond of a century.", "anchors": ["pysolar/solar.py:get_apparent_sun_longitude", "pysolar/solar.py:get_sun_earth_distance", "pysolar/solar.py:get_true_ecliptic_obliquity", "pysolar/solar.py:get_apparent_sidereal_time"]}
{"id": "C109", "title": "Sun direction agrees with the Astronomical Almanac", "statement": "The direction given by get_azimuth and the elevation angle before refraction is within 0.075 degrees of the direction given by the Astronomical Almanac's algorithm for approximate solar position (Michalsky 1988).", "quantifier": "all aware datetimes with UTC year 1950 to 2050, all latitudes strictly between -90 and 90, all longitudes, |elevation| <= 50 km", "why_tests_cant": "Comparison with reference ephemerides covers samples; the theorem covers every place and instant.", "anchors": ["pysolar/solar.py:get_azimuth", "pysolar/solar.py:get_topocentric_position", "pysolar/solar.py:get_topocentric_elevation_angle"]}
{"id": "C110", "title": "Double-precision direction agrees with the Astronomical Almanac", "statement": "Computed in double precision, get_azimuth raises nothing, and the azimuth and elevation angle before refraction give a direction within 0.0751 degrees of the Astronomical Almanac's algorithm; the elevation angle raises ValueError only when the Almanac puts the sun within 0.0751 degrees of the zenith or the nadir.", "quantifier": "all aware datetimes with UTC year 1950 to 2050, |latitude| <= 90 - 1e-9, |longitude| <= 360, |elevation| <= 50 km, every rounding and library satisfying the stated error bounds", "why_tests_cant": "Rounding errors and series errors combine at unpredictable instants; tests sample a few places and times.", "anchors": ["pysolar/solar.py:get_azimuth", "pysolar/solar.py:get_topocentric_position", "pysolar/solar.py:get_topocentric_elevation_angle"]}
{"id": "C111", "title": "Position arrays in double precision", "statement": "With numpy, azimuth, altitude and position of arrays of places are arrays and nothing raises, whatever the entries. Each entry within the stated ranges is as accurate as the scalar call (direction within 1e-5 degrees of exact arithmetic, altitude within 2e-5), whatever the other entries are; the elevation angle of an entry is nan only within 1e-5 degrees of the zenith or the nadir.", "quantifier": "all array shapes and contents, all aware datetimes of the years 1 to 9999; accuracy for entries with |latitude| <= 90 - 1e-9 (<= 90 if radians(90) rounds to less than a right angle, as in IEEE binary64), |longitude| <= 360, |elevation| <= 50 km, temperature 180 to 340 K, pressure 1 to 120000 Pa; every rounding and library satisfying the stated error bounds", "why_tests_cant": "One bad entry could spoil or abort a whole array; tests use small arrays of ordinary values.", "anchors": ["pysolar/solar.py:get_position", "pysolar/solar.py:get_azimuth", "pysolar/solar.py:get_altitude", "pysolar/numeric.py"]}
{"id": "C112", "title": "Fast altitude and azimuth of datetime64 arrays in double precision", "statement": "With numpy, get_altitude_fast and get_azimuth_fast of arrays of places and datetime64 instants are arrays and nothing raises. Each entry in range is as accurate as the scalar call in double precision (altitude within 1.4e-5 degrees); the altitude is nan only within 1.4e-5 degrees of the zenith or the nadir; the azimuth is nan only that near (3e-5 degrees over the cosine of the altitude) to due east or west.", "quantifier": "all array shapes and contents; accuracy for entries with instants of the years 1 to 9999, |latitude| <= 90 (azimuth: 89.9), |longitude| <= 360", "why_tests_cant": "The datetime64 path computes calendar fields differently from the datetime path; tests compare a few instants.", "anchors": ["pysolar/solar.py:get_altitude_fast", "pysolar/solar.py:get_azimuth_fast", "pysolar/numeric.py:tm_yday_numpy"]}
{"id": "C113", "title": "Direct radiation arrays at night", "statement": "With numpy, direct radiation of an array of altitudes is an array, and every entry with the sun below the horizon is zero.", "quantifier": "all array shapes, all instants, altitudes from -90 to 90 degrees, double precision", "why_tests_cant": "The failure is confined to a band of a hundredth of a degree below the horizon.", "anchors": ["pysolar/radiation.py:get_radiation_direct", "pysolar/radiation.py:get_air_mass_ratio"]}
{"id": "C114", "title": "The sun's place is the published Solar Position Algorithm", "statement": "The five coefficient tables equal those of the NREL report (63 nutation rows, 129 longitude, 7 latitude and 59 distance terms), and heliocentric longitude, latitude, distance, nutation, true obliquity, apparent longitude, right ascension and declination are exactly the values of the published algorithm: right ascension in [0, 360), declination in [-90, 90].", "quantifier": "all Julian ephemeris centuries; from the datetime: all aware datetimes of the years 1 to 9999", "why_tests_cant": "One wrong digit in one of some thousand coefficients moves the sun by arc seconds, below any test tolerance.", "anchors": ["pysolar/constants.py", "pysolar/solar.py:get_nutation", "pysolar/solar.py:get_geocentric_sun_right_ascension", "pysolar/solar.py:get_geocentric_sun_declination", "pysolar/solar.py:get_true_ecliptic_obliquity", "pysolar/solar.py:get_apparent_sun_longitude"]}
{"id": "C115", "title": "Direction of the sun from pole to pole in IEEE double precision", "statement": "Computed in IEEE binary64, get_azimuth raises no exception and returns a value from 0 to 360 at every place on earth, the poles included, and unless the elevation angle raises ValueError, which needs the sun within 0.0321 degrees of the zenith or the nadir, azimuth and elevation angle give a direction within 0.0321 degrees of the direction to the sun.", "quantifier": "all aware datetimes of the years 1..9999, all latitudes from -90 to 90 inclusive, |longitude| <= 360, |elevation| <= 50000 m; IEEE binary64 round-to-nearest-even, library functions within the stated bounds", "why_tests_cant": "At a pole the code takes the tangent of radians(90), whose value hangs on the last bit of one constant; a test at the pole shows one library's digits only.", "anchors": ["pysolar/solar.py:get_azimuth", "pysolar/solar.py:get_flattened_latitude", "pysolar/solar.py:get_topocentric_position"]}
{"id": "C116", "title": "What a call means when arguments are left out", "statement": "With arguments left out, the position functions take sea level, 288.15 K and 101325 Pa; the irradiance functions a solar constant of 1367 W/m2, a year of 365 days, air mass 2 and turbidity 1; the REST functions 1013.25 millibars, 0.35 cm ozone, 0.0002 cm NO2, 5 cm water, alpha 1.3 and beta 0.6; get_pressure_with_elevation(h) is the standard atmosphere 101325*((288.15 - 0.0065 h)/288.15)^5.2559 and get_temperature_with_elevation(h) is 288.15 - 0.0065 h.", "quantifier": "all arguments that are given; every numeric backend for the defaults; exact reals and heights below 44330 m for the standard atmosphere", "why_tests_cant": "A test passes the arguments it thinks of; a changed default or constant shifts every result by little and passes any tolerance chosen by looking at the output.", "anchors": ["pysolar/constants.py", "pysolar/solar.py:get_altitude", "pysolar/util.py", "pysolar/elevation.py:get_pressure_with_elevation", "pysolar/rest.py"]}
{"id": "C117", "title": "Irradiance functions in double precision", "statement": "In double-precision arithmetic: mean_earth_sun_distance returns 1 within 2e-16 and declination_degree its formula within 8e-14; extraterrestrial_irrad is never negative, is within 7e-11 W/m2 of the exact value and exactly 0 with the sun 1e-11 degrees or more below the horizon, where clear_index raises ZeroDivisionError; clear_index is otherwise accurate to 8e-11 relative to the data when the irradiance is at least 1 W/m2. With an altitude computed to 2e-5 degrees the elevation functions are within 4.4e-5 and 2.1e-5, the diffuse irradiance within 0.0091, the overcast irradiance within 0.0115 W/m2, the direct one within 0.028 E and the global one within 0.029 E + 0.0005 of the exact formulas, E = exp(-0.8662 AM TL dec); direct_underclear and global_irradiance_clear raise OverflowError when the exponent reaches 711.", "quantifier": "every time, |latitude| <= 90, |longitude| <= 360, solar constant 0..2000, year of 360 to 366 days, turbidity 0..10 for the diffuse part, |AM| <= 40, |TL| <= 20 and |AM TL| <= 20 for the direct part; every arithmetic that rounds correctly and whose elementary functions are accurate to about one unit in the last place", "why_tests_cant": "The bound is over every input and every rounding pattern; comparing against a reference at sample points says nothing about the points between, and the reference is itself computed in floating point.", "anchors": ["pysolar/util.py:mean_earth_sun_distance", "pysolar/util.py:extraterrestrial_irrad", "pysolar/util.py:declination_degree", "pysolar/util.py:solarelevation_function_clear", "pysolar/util.py:diffuse_underclear", "pysolar/util.py:direct_underclear", "pysolar/util.py:global_irradiance_clear", "pysolar/util.py:clear_index"]}
{"id": "C118", "title": "The standard atmosphere in double precision", "statement": "In double-precision arithmetic get_temperature_with_elevation is within 8.1e-14 K and get_pressure_with_elevation within 1e-9 Pa of the exact formulas, and get_altitude called with the temperature and pressure of the place's own height, everything computed in double precision, is within 2e-5 degrees of the exact value away from the jumps of the refraction formula.", "quantifier": "every height from -500 m to 11000 m, every time, |latitude| <= 90, |longitude| <= 360; every arithmetic that rounds correctly and whose elementary functions (including pow) are accurate to about one unit in the last place", "why_tests_cant": "The bound is over every height and every rounding pattern and composes two modules; a test compares sample points against a reference itself computed in floating point.", "anchors": ["pysolar/elevation.py:get_temperature_with_elevation", "pysolar/elevation.py:get_pressure_with_elevation", "pysolar/solar.py:get_altitude"]}
{"id": "C119", "title": "Effective aerosol wavelength once numeric.log exists", "statement": "In a program that has bound pysolar.numeric.log = math.log, get_effective_aerosol_wavelength evaluates the published REST2 formulas, and for the aerosol optical mass that the package computes at any altitude from horizon to zenith the returned wavelength is positive.", "quantifier": "every altitude in [0, 90], alpha in [0, 2.5], beta in [0, 1.1], both bands", "why_tests_cant": "The source says only that the function 'returns negative values sometimes'; sampling does not say where, nor that elsewhere the values are positive.", "anchors": ["pysolar/rest.py:get_effective_aerosol_wavelength", "pysolar/rest.py:get_optical_mass_aerosol"]}
{"id": "C120", "title": "REST direct irradiance once numeric.log exists", "statement": "In a program that has bound pysolar.numeric.log = math.log, the direct normal irradiance of each band is the extraterrestrial irradiance (635.4 and 709.7 W/m2) times the transmittances, the broadband functions add the bands and the beam functions multiply by the cosine of the zenith angle; no band is negative, and with the sun overhead and default arguments the broadband value is at least 100 W/m2.", "quantifier": "every altitude in [0, 90], pressure, ozone, water and turbidity in the stated ranges", "why_tests_cant": "As shipped the functions stop with AttributeError (C62), so no test can reach this code; the sign and size statements range over continuous arguments.", "anchors": ["pysolar/rest.py:get_direct_normal_irradiance_by_band", "pysolar/rest.py:get_broadband_direct_normal_irradiance", "pysolar/rest.py:get_beam_broadband_irradiance", "pysolar/rest.py:get_beam_irradiance_by_band"]}
{"id": "C121", "title": "After use_math arrays are rejected, never silently mixed", "statement": "With the math backend, wherever a call with numbers returns, the same call with arrays (of a size other than 1) for any of latitude, longitude or elevation raises TypeError: get_altitude, get_azimuth, get_position, the fast versions, radiation, sunrise and irradiance functions; get_pressure_with_elevation raises ValueError. Calls with numbers only return the same as before.", "quantifier": "every instant, all numbers, arrays of any contents and size other than 1, in every combination of the arguments", "why_tests_cant": "The test suite has one such call (test_fail_with_math); which of the many functions let an array through to a wrong result is a question over all argument combinations.", "anchors": ["pysolar/numeric.py:use_math", "pysolar/solar.py:get_topocentric_position", "pysolar/solar.py:get_altitude_fast", "pysolar/util.py:get_sunrise_sunset_transit", "test/test_numpy.py:test_fail_with_math"]}
{"id": "C122", "title": "The delta-T script turns data files into source that Python reads back exactly", "statement": "util/get_delta_t, run on the text of a data file whose rows (year, month, day 1, value with up to four decimals) are for consecutive months, with any spacing and blank lines, prints Python source. Executed as Python, that source assigns delta_t_base_year, delta_t_base_month and delta_t so that get_delta_t's lookup returns, for every row, exactly the double nearest to the decimal written in the file. A row for another day of the month fails with AssertionError, a line with three fields with ValueError.", "quantifier": "every text made of such lines, any number of rows, values up to 10^11, any rounding within 2^-53 of the exact decimal", "why_tests_cant": "The script downloads its input and is run by hand; no test covers it, and spacing, table position and rounding of all possible files cannot be enumerated.", "anchors": ["util/get_delta_t:parse_data", "util/get_delta_t:main loop", "pysolar/solartime.py:get_delta_t", "pysolar/solartime.py:delta_t"]}
{"id": "C123", "title": "solar_test runs through a whole day", "statement": "solar_test, called at any instant, goes through its 48 half-hours without an exception and prints one line for exactly those at which the sun is above the horizon, with the time, UTC, altitude, azimuth and direct radiation.", "quantifier": "every starting instant (the clock is a parameter), exact reals; the counterexample also in double precision", "why_tests_cant": "The function reads the clock, prints and is not tested; whether it fails depends on the second at which it is called.", "anchors": ["pysolar/solar.py:solar_test", "pysolar/radiation.py:get_radiation_direct"]}
{"id": "C124", "title": "simulate_span yields a row for every time of its range", "statement": "simulate_span over a level horizon yields one row for each time of datetime_range and ends without an exception.", "quantifier": "every place, start, end and step, horizons of at least 361 entries", "why_tests_cant": "The failing times are a few seconds around sunrise and sunset of each place and day.", "anchors": ["pysolar/simulate.py:simulate_span", "pysolar/simulate.py:datetime_range", "pysolar/radiation.py:get_radiation_direct"]}
{"id": "C125", "title": "Every line of solar_test is one half-hour with its own timestamp", "statement": "Whether or not the run ends with an exception, every line printed by solar_test reports get_altitude, get_azimuth and get_radiation_direct at one of the 48 half-hours after the start, with a positive altitude; a run without exception leaves out only half-hours whose altitude is not positive; the lines are in order of time, no two have the same timestamp, and the timestamp determines date and time to the second, reading weekday, month name, day, time and year in the layout of ctime.", "quantifier": "every number system (Backend) and every starting instant", "why_tests_cant": "solar_test is not tested; the statement concerns every number system and every start.", "anchors": ["pysolar/solar.py:solar_test"]}
{"id": "C126", "title": "Arrays of different shapes are combined by broadcasting", "statement": "With numpy, get_topocentric_position, get_altitude, get_azimuth, get_position, the fast functions, get_radiation_direct, get_temperature_with_elevation and the irradiance functions without a scalar branch combine all their array arguments: the result has the common shape of latitude, longitude, elevation, temperature, pressure and (fast functions) the array of times under numpy's rules, and the call fails with ValueError exactly if two arguments have different sizes other than 1 along an axis. The azimuth of get_position does not depend on the shapes of temperature and pressure, and global_irradiance_clear not on theirs either.", "quantifier": "every number of dimensions and every size of every argument", "why_tests_cant": "Tests call the functions with single numbers or arrays of one length.", "anchors": ["pysolar/solar.py:get_altitude", "pysolar/solar.py:get_azimuth", "pysolar/solar.py:get_position", "pysolar/solar.py:get_altitude_fast", "pysolar/solar.py:get_azimuth_fast", "pysolar/radiation.py:get_radiation_direct", "pysolar/util.py:global_irradiance_clear"]}
{"id": "C127", "title": "Functions that cannot be used with arrays say so", "statement": "get_pressure_with_elevation, extraterrestrial_irrad and clear_index raise ValueError for arguments with several entries, and the sunrise, sunset and transit functions raise TypeError (ValueError if the shapes do not fit) for any array, even of one entry: none of them silently uses one entry.", "quantifier": "every shape of the arguments", "why_tests_cant": "No test passes an array to these functions.", "anchors": ["pysolar/elevation.py:get_pressure_with_elevation", "pysolar/util.py:extraterrestrial_irrad", "pysolar/util.py:clear_index", "pysolar/util.py:get_sunrise_sunset_transit"]}
{"id": "C128", "title": "elevation_test prints the table it is meant to", "statement": "elevation_test prints a header and, for the heights 0 m to 10000 m in steps of 1000 m, one line with height, pressure and temperature, 12 lines in all, and raises nothing: the numbers are the standard-atmosphere values of get_pressure_with_elevation and get_temperature_with_elevation, cut off to integers, and this table is the same in exact arithmetic and in binary64 floating point.", "quantifier": "every rounding with the properties of binary64, and every accuracy of the power function allowed by the model of doubles", "why_tests_cant": "Nothing in the test suite calls elevation_test; its printed table is never compared.", "anchors": ["pysolar/elevation.py:elevation_test"]}
{"id": "C129", "title": "The answer of the Naval Observatory is read correctly whatever its spacing", "statement": "RequestEphemerisData takes zenith distance and azimuth from words 5 to 7 and 8 to 10 of line 22 of the answer as degrees, minutes and seconds, however many spaces separate the words and whatever the other lines are; the other fields are those of the question; an answer with fewer than 22 lines raises IndexError.", "quantifier": "every number of spaces, every text of the words, every content of the other lines", "why_tests_cant": "The service is not reachable from tests, and no answers are stored.", "anchors": ["test/query_usno.py:RequestEphemerisData"]}
{"id": "C130", "title": "The comparison file has one row for each entry of the log", "statement": "Run on a log that the tool wrote, the main program of query_usno.py writes a CSV file which, split into lines and at commas, consists of the header and, for every entry of the log in order, ten columns: time, latitude, longitude, elevation, pysolar's zenith distance, the server's, their distance, pysolar's azimuth by the tool's convention, the server's, and their distance.", "quantifier": "every list of entries with whole seconds, and every text of numbers without spaces, commas and newlines", "why_tests_cant": "Tests do not run the main program of the tool.", "anchors": ["test/query_usno.py:WriteComparisonsToCSV", "test/query_usno.py:ReadEphemeridesLog", "test/query_usno.py:ComparePysolarToUSNO"]}
{"id": "C131", "title": "Calls that the type stubs allow mean the same in the code", "statement": "Every call of a function that its type stub (.pyi) allows is accepted by the code, and every argument reaches the parameter of the same name.", "quantifier": "all 73 functions with stubs; every call: any number of positional and keyword arguments", "why_tests_cant": "Stubs are never executed; a wrong one shows only in the programs of those who rely on it.", "anchors": ["pysolar/util.pyi:direct_underclear", "pysolar/util.pyi:extraterrestrial_irrad", "pysolar/util.pyi:global_irradiance_clear", "pysolar/util.pyi:clear_index", "pysolar/solar.pyi:get_apparent_sidereal_time"]}
{"id": "C132", "title": "datetime_range and simulate_span accept a fractional step", "statement": "datetime_range and simulate_span accept any positive float as step_minutes, as their type stubs declare, and yield the times spaced by it.", "quantifier": "all pairs of datetimes; every step: any int, any float including fractional, infinite and nan", "why_tests_cant": "The tests and examples pass whole numbers of minutes.", "anchors": ["pysolar/simulate.py:27-35", "pysolar/simulate.pyi:6-7"]}
{"id": "C133", "title": "The unit tests test the formulas, not their rounding", "statement": "Every comparison made by test/test_solar.py and test/test_hour_angle.py (assertAlmostEqual) succeeds for the exact values of the formulas, so that the tests do not depend on the rounding of the machine. False: the expected values of testGetPosition, testGetAltitude and testGetAzimuth carry rounding errors; six of their eight comparisons fail in exact arithmetic, by up to 1.6e-7 degrees where 0.5e-7 is allowed. All others succeed.", "quantifier": "all 60 comparisons of the two files; exact real arithmetic, any value for the tangent of 90 degrees", "why_tests_cant": "A test run shows the result of one machine's floating point only.", "anchors": ["test/test_solar.py:33-201", "test/test_hour_angle.py:20-71"]}
{"id": "C134", "title": "Default configuration: position functions never raise", "statement": "Where numpy is installed the functions of numpy are in use from the start, whatever the arguments are. Then, for an aware datetime and any mixture of Python numbers and numpy scalars, get_altitude, get_azimuth, get_position, get_topocentric_position, get_solar_time, get_hour_angle, get_altitude_fast, get_azimuth_fast, get_radiation_direct, mean_earth_sun_distance, the solar elevation functions, diffuse_underclear, diffuse_underovercast and global_irradiance_overcast return a numpy scalar, never raise, and return the value that numpy scalars give; where the call also returns after use_math(), it returns that value.", "quantifier": "all aware datetimes denoting an instant (datetime64 as well for the fast functions), all arguments including infinities and nan, every mixture of kinds; exact arithmetic and any correctly rounding double arithmetic", "why_tests_cant": "Whether an operator raises depends on the kinds of both operands, which depend on everything computed before; tests use one mixture.", "anchors": ["pysolar/numeric.py:137-141", "pysolar/solar.py:57-181", "pysolar/solar.py:325-344", "pysolar/radiation.py:41-57"]}
{"id": "C135", "title": "Default configuration: which calls keep Python's exceptions", "statement": "With the functions of numpy in use and Python numbers as arguments, division by zero raises only where no numpy function took part: diffuse_ratio raises ZeroDivisionError exactly for ghi_data = 0; declination_degree, direct_underclear and global_irradiance_clear exactly for TY = 0; clear_index exactly at night (get_altitude_fast not positive), because extraterrestrial_irrad then returns the Python number 0.0; get_pressure_with_elevation in the cases in which it raises after use_math(). Given numpy scalars there, the same calls return. Sunrise, sunset and transit do not depend on the kinds of numbers. With temperature 0, get_altitude returns inf by day.", "quantifier": "all aware datetimes denoting an instant, all arguments, every mixture of kinds; exact arithmetic and any correctly rounding double arithmetic (the statements naming the altitude: exact arithmetic)", "why_tests_cant": "The kinds of numbers are invisible in results; whether a call raises at night depends on a literal in another function.", "anchors": ["pysolar/numeric.py:137-141", "pysolar/util.py:215-259", "pysolar/util.py:261-289", "pysolar/util.py:633-692", "pysolar/elevation.py:30-54"]}
{"id": "C136", "title": "The examples of the documentation", "statement": "The results that doc/index.rst prints for its three examples (get_altitude, get_azimuth and get_radiation_direct at 42.206 N, 71.382 W on 18 February 2007) are the values of the code's formulas, to a millionth of a degree or of a watt per square metre.", "quantifier": "the three examples of the documentation; exact real arithmetic, any value for the tangent of 90 degrees", "why_tests_cant": "No test runs the examples.", "anchors": ["doc/index.rst:60-111", "pysolar/solar.py:119-163", "pysolar/radiation.py:40-50"]}
{"id": "C137", "title": "NoTimeZoneInfoError exactly for datetimes without tzinfo", "statement": "Each function decorated with check_aware_dt('when') raises NoTimeZoneInfoError, naming the argument when, if and only if when is a datetime whose tzinfo is None. Arrays, aware datetimes and objects without a tzinfo attribute never lead to it. get_azimuth_fast, which has no decorator, raises it for no other argument; get_radiation_direct never raises it.", "quantifier": "every argument when, every value of the other arguments, every arithmetic whose operations do not raise NoTimeZoneInfoError themselves (math, numpy, arrays, exact or double precision)", "why_tests_cant": "test_datetime_tzinfo.py calls each function once with one naive and one aware datetime.", "anchors": ["pysolar/tzinfo_check.py:20-95", "test/test_datetime_tzinfo.py:32-143", "test/test_datetime_tzinfo.py:145-325"]}
{"id": "C138", "title": "Exceptions of calls with an aware datetime", "statement": "With an aware datetime whose UTC time is in the years 1 to 9999, exceptions come only from the arithmetic: no table look-up, dictionary access or attribute fails. With the math module the only exceptions are ValueError, ZeroDivisionError and OverflowError; with numpy the functions that act elementwise always return. The functions that need single numbers raise at most the same three exceptions.", "quantifier": "every such datetime; every number or array passed as another argument, infinities and NaN included; exact arithmetic and double precision", "why_tests_cant": "No test passes infinities, NaN or extreme numbers.", "anchors": ["pysolar/solar.py:51-178", "pysolar/solartime.py:98-136", "pysolar/solartime.py:724-779", "pysolar/util.py:47-692", "pysolar/radiation.py:28-50", "pysolar/constants.py:41-65"]}
{"id": "C139", "title": "The sun moves steadily", "statement": "For two aware datetimes in the same UTC month, in any time zones, the hour angle returned by get_topocentric_position advances by 14.99 to 15.01 degrees per hour between them, up to whole turns. The declination changes by at most 0.075 degrees per hour. The direction given by the azimuth and the elevation angle before refraction, and that elevation angle itself, change by at most 15.09 degrees per hour. There is no additive constant: the bounds hold for datetimes a microsecond apart. Two different datetimes of the month less than 23.98 hours apart never have the same hour angle.", "quantifier": "every pair of aware datetimes in one month of the years 1 to 9999; every longitude, every latitude strictly between the poles, every elevation up to 50 km above or below sea level", "why_tests_cant": "The tests evaluate single instants; no test compares two close instants.", "anchors": ["pysolar/solar.py:57-88", "pysolar/solar.py:145-148", "pysolar/solar.py:264-300", "pysolar/solar.py:302-311", "pysolar/solar.py:359-386"]}
{"id": "C140", "title": "Apparent altitude: slower motion, and a gap at the horizon", "statement": "For any positive pressure and temperature the refraction correction decreases as the elevation angle grows from -0.83337 to 90 degrees. At standard conditions the altitudes of two suns above the threshold therefore differ by less than their elevation angles, and while the sun stays on one side of the threshold get_altitude changes by at most 15.09 degrees per hour within a month. Crossing the threshold the altitude jumps: at standard conditions get_altitude never returns a value from -0.83337 to -0.2247 degrees.", "quantifier": "every elevation angle except the one where the tangent has its pole; every aware datetime of the years 1 to 9999, every place and elevation", "why_tests_cant": "The tests check the correction at one elevation angle and never near the threshold.", "anchors": ["pysolar/solar.py:120-132", "pysolar/solar.py:325-345"]}
{"id": "C141", "title": "The sun climbs all morning and sinks all afternoon", "statement": "For two aware datetimes of one UTC month in the years 1901 to 2099, at a place up to 66 degrees of latitude and at standard conditions: if both lie between half past midnight and half past eleven of the same day in local mean solar time (UTC plus longitude/15 hours), the later call of get_altitude returns the strictly larger altitude; if both lie between half past twelve and half past eleven at night, the strictly smaller one. For all years 1 to 9999 and all latitudes between the poles the same holds for the elevation angle in terms of the hour angle, with a margin around noon and midnight that depends on the latitude.", "quantifier": "every such pair of datetimes, down to a microsecond apart, in any time zones; every longitude, every elevation up to 50 km above or below sea level", "why_tests_cant": "No test compares altitudes of two instants of one day.", "anchors": ["pysolar/solar.py:57-88", "pysolar/solar.py:120-132", "pysolar/solar.py:325-345", "pysolar/solar.py:368-372"]}
{"id": "C142", "title": "The climb of the sun survives double precision", "statement": "Computed in double precision with the default pressure and temperature, for two aware datetimes of one UTC month in the years 1901 to 2099 that are at least 15 seconds apart, at a place up to 66 degrees of latitude: between half past midnight and half past eleven of one day in local mean solar time get_altitude returns for both, and the later result is strictly larger; between half past twelve and half past eleven at night it is strictly smaller. The exact elevation angles must not lie at the threshold of the refraction formula (-0.83341 to -0.83333 degrees) or near its poles (-5.31 to -4.89 degrees).", "quantifier": "every rounding and C library meeting the stated error bounds, every such pair of datetimes in any time zones, |longitude| <= 360, |elevation| <= 50000 m", "why_tests_cant": "No test compares altitudes of two instants; rounding errors could reverse the order of close ones.", "anchors": ["pysolar/solar.py:57-88", "pysolar/solar.py:120-132", "pysolar/solar.py:325-345"]}
{"id": "C143", "title": "A switch of the backend in mid-computation does no harm where math succeeds", "statement": "use_math() and use_numpy() rebind the names of numeric.py one by one, and another thread may call them while a function of pysolar runs. Whichever module answers each single call of sin, cos, tan, asin, acos, exp, each division and each power: where the call returns with the math module, it returns the same value (position functions, fast functions, solar time and hour angle, radiation, sunrise and sunset, irradiances, pressure). get_azimuth always returns for finite arguments. In double precision, with two libraries of different rounding errors, get_altitude stays within the error bound of a single library.", "quantifier": "all schedules (the module answering may depend on the function and on the whole history of its arguments), all aware datetimes and numbers", "why_tests_cant": "Needs every interleaving of the rebinding with the calls; a test can provoke only a few.", "anchors": ["pysolar/numeric.py:91-134", "pysolar/solar.py:57-132", "pysolar/util.py:48-178"]}
{"id": "C144", "title": "The validation notebook runs", "statement": "The cells of pysolar/rest2-validation.ipynb that use pysolar run without an exception: the plot of the aerosol mass over the altitude and the plots of the effective aerosol wavelength over the mass.", "quantifier": "every backend; with numeric.log bound by the user, all plotted values", "why_tests_cant": "The notebook is not part of any test run; its stored output stems from an older version.", "anchors": ["pysolar/rest2-validation.ipynb:1-148", "pysolar/rest.py:126-183", "pysolar/rest.py:232-235"]}
{"id": "C145", "title": "A run of query_usno.py without argument asks for, stores and compares what it drew", "statement": "For every outcome of the random draws in the ranges of GatherRandomEphemeris: the request names just the drawn place (whole degrees), moment and height 0; whatever the spacing of the server's answer, one line is appended to the log, and reading the log gives the previous entries and one entry for each draw, in order, with the server's angles for this place and this moment. The CSV file written at the end is the one that the program called with this log would write. A log that cannot be read stops the program in its first round.", "quantifier": "all draws, any number of rounds, all servers answering from a function of place and time, all previous logs that can be read", "why_tests_cant": "Needs the network and random numbers; a test would see a few draws of one server.", "anchors": ["test/query_usno.py:62-87", "test/query_usno.py:102-172", "test/query_usno.py:182-217"]}
{"id": "C146", "title": "The statistics of query_usno.py are those of the errors and fit together", "statement": "For a nonempty list of entries the mean, standard deviation, minimum and maximum printed for azimuth and altitude are those of the lists of absolute differences. 0 <= minimum <= mean <= maximum, the squared deviation is at most (maximum - mean)(mean - minimum), so the deviation at most half the range. The mean is zero exactly if every error is; the deviation exactly if all errors are equal. Without entries there is an exception.", "quantifier": "all nonempty lists of entries with finite errors, exact arithmetic", "why_tests_cant": "Statements about lists of every length and content.", "anchors": ["test/query_usno.py:194-217"]}
{"id": "C147", "title": "Direct radiation rises all morning", "statement": "For two aware datetimes of one UTC month in the years 1901 to 2099, up to 66 degrees of latitude and at standard conditions: if both lie between half past midnight and half past eleven of one day in local mean solar time and the sun is up at the first, get_radiation_direct(when, get_altitude(lat, lon, when)) is larger for the later one; in the afternoon smaller. False: the day of the year is that of UTC, and where midnight UTC falls into the morning the radiation jumps, e.g. down by 1.6 W/m2 at ten o'clock at 150 degrees east on 10 March 2020. What holds: it rises and falls within one UTC date; across midnight the step is below 3.3 W/m2.", "quantifier": "every such pair of datetimes, down to a microsecond apart, in any time zones; every longitude, every elevation up to 50 km above or below sea level", "why_tests_cant": "Over a pair of arbitrary instants; tests at a place in Europe or America do not see midnight UTC by day.", "anchors": ["pysolar/radiation.py:23-51", "pysolar/solar.py:120-132", "pysolar/numeric.py:55-64"]}
{"id": "C148", "title": "The course of the direct radiation survives double precision", "statement": "Computed in double precision with the default pressure and temperature, for two aware datetimes of one UTC date in the years 1901 to 2099 at least 15 seconds apart, up to 66 degrees of latitude and with elevation angles of at least 2 degrees: get_radiation_direct with the altitude computed for the same instant returns for both, and between half past midnight and half past eleven in local mean solar time the later result is strictly larger, between half past twelve and half past eleven at night strictly smaller.", "quantifier": "every rounding and C library meeting the stated error bounds, every such pair of datetimes in any time zones, |longitude| <= 360, |elevation| <= 50000 m", "why_tests_cant": "Over all roundings and pairs of instants.", "anchors": ["pysolar/radiation.py:23-51", "pysolar/solar.py:120-132"]}
{"id": "C149", "title": "Outside the tropics the azimuth turns one way all day", "statement": "For two aware datetimes of one UTC month in the years 1901 to 2099: north of 25.5 degrees of latitude, if both lie between half past midnight and half past eleven at night of one day in local mean solar time, the later call of get_azimuth returns the strictly larger azimuth; south of -25.5 degrees it returns the strictly smaller one, if both lie between half past midnight and half past eleven in the morning, or both between half past twelve and half past eleven at night. For all years 1 to 9999 the same holds in terms of the hour angle, between the lower transits of one day, without a margin around noon. Between the equator and the declination of the sun it fails: there the azimuth turns back before noon.", "quantifier": "every such pair of datetimes, down to a microsecond apart, in any time zones; every latitude strictly between the poles and outside the band, every longitude, every elevation up to 50 km above or below sea level", "why_tests_cant": "No test compares azimuths of two instants of one day; a wrong quadrant or a sign error in one season shows only for some pairs.", "anchors": ["pysolar/solar.py:154-163", "pysolar/solar.py:359-366"]}
{"id": "C150", "title": "The fast altitude rises all morning", "statement": "For two aware datetimes of one UTC month, up to 66 degrees of latitude, both between half past midnight and half past eleven of one day in local mean solar time, the later call of get_altitude_fast does not return a smaller altitude. False: declination and equation of time are taken for the UTC date and jump at midnight UTC; at 60 degrees south, 120 degrees east, on 21 March 2020 at eight in the morning the altitude falls by 0.2 degrees within a minute. What holds: within one UTC date the altitude rises strictly from minute to minute before 12 o'clock solar time and falls after it, and outside the tropics get_azimuth_fast turns one way; across midnight UTC the altitude falls by at most 0.53 degrees.", "quantifier": "every such pair of datetimes in any time zones, every longitude", "why_tests_cant": "Over a pair of arbitrary instants; tests at a place in Europe or America do not see midnight UTC in the morning.", "anchors": ["pysolar/solar.py:134-178", "pysolar/solar.py:46-49", "pysolar/solar.py:197-203", "pysolar/numeric.py:55-59"]}
{"id": "C151", "title": "The turn of the azimuth survives double precision", "statement": "For two aware datetimes of one UTC month in the years 1901 to 2099, at least a minute apart, at latitudes of at least 25.5 degrees: computed in double precision, get_azimuth returns a number for both, and north of the equator the later one is strictly larger, if both lie between half past midnight and half past eleven at night of one day in local mean solar time; south of it the later one is strictly smaller, if both lie between half past midnight and half past eleven in the morning, or both between half past twelve and half past eleven at night. In particular the rounding never carries the azimuth across 0 or 360 there.", "quantifier": "every such pair of datetimes in any time zones; every latitude from 25.5 degrees to within 1e-9 degrees of a pole, every longitude up to 360 degrees, every elevation up to 50 km above or below sea level; every rounding and library function within the error bounds of the floating-point model", "why_tests_cant": "A statement about all pairs of instants of a day and all roundings; a test sees a few sums on one machine.", "anchors": ["pysolar/solar.py:154-163", "pysolar/solar.py:359-366"]}
{"id": "C152", "title": "Small errors of the place are small errors of the direction", "statement": "At one instant and two places, with latitudes and longitudes that differ by a and b degrees (b up to whole turns) and elevations that differ by m metres, the directions of the sun in the frame of the horizon, and the elevation angles before refraction, differ by at most 1.0003 (a + b) + 2.5e-9 m degrees. The same bound holds for get_altitude at standard pressure and temperature, with the sun above the threshold of the refraction formula at both places or below it at both; computed in double precision, with another 4e-5 degrees.", "quantifier": "every instant of the years 1 to 9999 in any time zone, every two places strictly between the poles (in double precision not within 1e-9 degrees of them), up to 50 km above or below sea level, however close together or far apart", "why_tests_cant": "Quantifies over pairs of places arbitrarily close together; a branch, a wrong quadrant or an ill-conditioned formula between the places of the tests would be seen by no test.", "anchors": ["pysolar/solar.py:57-88", "pysolar/solar.py:120-132", "pysolar/solar.py:154-163", "pysolar/solar.py:302-320", "pysolar/solar.py:359-385"]}
{"id": "C153", "title": "Sunrise and sunset shift slowly from day to day and from place to place", "statement": "At latitudes up to 60 degrees get_sunrise_sunset_transit returns for every aware datetime, and for two datetimes on consecutive calendar dates with the same UTC offset the sunrise (and the sunset) of the second day is 24 hours after that of the first to within 185 seconds, the transit to within 36 seconds. This includes the ends of months, of leap years and of common years, where the day number falls back to 1. On one day, sunrise and sunset at two places differ by at most 12 minutes per degree of latitude plus 4 minutes per degree of longitude, the transit by at most 4 minutes per degree of longitude (plus 3 microseconds). The same holds in double precision.", "quantifier": "every aware valid datetime of the years 2 to 9998 in any time zone, every latitude up to 60 degrees and longitude up to 180 degrees", "why_tests_cant": "Quantifies over all dates and all places; a wrong coefficient, a wrong period or a jump at the end of the year shows only between pairs of dates that no test compares.", "anchors": ["pysolar/util.py:48-163"]}
{"id": "C154", "title": "The formulas of rest.py survive double precision", "statement": "In double precision every transmittance of rest.py (Rayleigh, mixed gases, ozone, nitrogen dioxide, water vapour, aerosol, aerosol scattering), the forward-scattering factors, the scattering correction, the optical depth, the sky albedo and the backscattered irradiance returns a number, as in exact arithmetic, and the two results differ by at most 1e-13 (gas, Rayleigh, nitrogen, aerosol, albedo, forward factors, optical depth), 1e-12 (ozone), 1e-11 (water), 1e-10 (backscattered irradiance in W/m^2) or 1e-9 (scattering correction); the four optical masses, of the size of several thousands, differ by at most 1e-8.", "quantifier": "both bands, every real argument in the ranges: air mass 0 to 90 (ozone and aerosol 0 or 1 to 40), ozone 0 to 0.6 atm-cm, water 0 to 10 cm, optical depth 0 to 5, alpha 0 to 2.5, beta 0 to 2, wavelength 0.3 to 2 um, irradiances 0 to 2000, altitude 0 to 89 degrees (forward scatterance -90 to 90), pressure 300 to 1100 mbar; every floating-point arithmetic with the stated error bounds", "why_tests_cant": "Quotients of polynomials can cancel, overflow or divide by zero at arguments no test tries; the bound quantifies over all arguments and over all rounding behaviours of the mathematical library.", "anchors": ["pysolar/rest.py:37-82", "pysolar/rest.py:177-303"]}
{"id": "C155", "title": "No position or irradiance is made up for an undefined place", "statement": "For a latitude or longitude that is nan or infinite, or an elevation that is nan, get_altitude, get_azimuth, get_position, the two solarelevation functions, diffuse_underclear, diffuse_underovercast, direct_underclear, global_irradiance_clear and global_irradiance_overcast either raise or return nan, and so do get_altitude_fast, get_azimuth_fast for the coordinates and get_radiation_direct for an altitude that is not finite; the five sunrise functions never return for such coordinates, and simulate_span yields no row. With math an infinite latitude raises ValueError; a nan latitude gives nan.", "quantifier": "all values of the remaining arguments, finite or not, and every time, in exact and in double precision, with math and with numpy", "why_tests_cant": "Non-finite values can turn finite again in atan2, modulo, comparisons and where; only a proof along every path, for every combination of the other arguments, excludes it.", "anchors": ["pysolar/solar.py:56-178", "pysolar/util.py:47-187", "pysolar/util.py:286-630", "pysolar/radiation.py:23-51", "pysolar/simulate.py:37-59"]}
{"id": "C156", "title": "The extraterrestrial irradiance of an undefined place is undefined", "statement": "For a latitude or longitude that is nan, extraterrestrial_irrad returns nan or raises.", "quantifier": "every time, latitude, longitude and solar constant", "why_tests_cant": "The comparison ZA > 0 is False for nan, so the function takes the branch for night and returns 0.0; a test with ordinary coordinates never enters this path.", "anchors": ["pysolar/util.py:214-257", "pysolar/util.py:659-692"]}
{"id": "C157", "title": "simulate_span accepts the times shown in its documentation", "statement": "simulate_span yields rows for start and end times created as its docstring and the example at the end of the file show: datetime.datetime(2008, 12, 23, 23, 14, 0), and datetime.datetime(2008,1,1) to datetime.datetime(2008,1,5).", "quantifier": "every place, horizon, elevation, temperature, pressure and arithmetic", "why_tests_cant": "The documented times have no time zone; no test calls simulate_span.", "anchors": ["pysolar/simulate.py:37-59", "pysolar/simulate.py:61-65", "pysolar/tzinfo_check.py"]}
{"id": "C158", "title": "Nearby places and times have nearby fast positions", "statement": "For any two places and times, the results of get_altitude_fast differ by at most the differences of the latitudes, of the hour angles (up to whole turns) and of the declinations together; on one UTC date by at most the difference of the latitudes plus that of the longitudes plus a quarter of a degree per minute, which also bounds the angle between the directions given by get_altitude_fast and get_azimuth_fast; extraterrestrial_irrad then differs by at most 1.0364 times the solar constant times this angle in radians. In double precision the altitudes obey the same bound with 0.000028 degrees added.", "quantifier": "all pairs of places and of times of the years 1 to 9999", "why_tests_cant": "A jump in a formula can sit at any place and time; tests sample isolated calls.", "anchors": ["pysolar/solar.py:133-142", "pysolar/solar.py:165-178", "pysolar/solar.py:197-203", "pysolar/solar.py:249-252", "pysolar/util.py:214-257"]}
{"id": "C159", "title": "The atmosphere lifts the sun in proportion to pressure over temperature", "statement": "Where get_altitude returns under the standard atmosphere it returns under every atmosphere of temperature not 0, and its lift above the true (topocentric) elevation angle is the standard one times the ratio of the pressures divided by the ratio of the temperatures; at pressure 0 the altitude is the true elevation angle; and denser or colder air never lowers the sun at true elevation angles up to 89.891 degrees; in double precision they lower it by at most 0.00004 degrees, outside small ranges of the true elevation angle around -5.1 and -0.833 degrees.", "quantifier": "all places, elevations, times of the years 1 to 9999, temperatures and pressures", "why_tests_cant": "The tests use the standard atmosphere almost exclusively; a swapped or ignored argument shows only for other ones.", "anchors": ["pysolar/solar.py:119-130", "pysolar/solar.py:325-344"]}
{"id": "C160", "title": "No position is computed for an infinite elevation", "statement": "get_position, get_altitude and get_azimuth given an infinite elevation raise or return nan.", "quantifier": "all times of the years 1 to 9999, latitudes and longitudes", "why_tests_cant": "An overflowed elevation is never tried by a test, and atan2 of two infinities is a finite angle.", "anchors": ["pysolar/solar.py:56-86", "pysolar/solar.py:119-130", "pysolar/solar.py:302-320", "pysolar/solar.py:377-385"]}
{"id": "C161", "title": "Small errors of the altitude are small errors of the direct radiation", "statement": "Two results of get_radiation_direct for one day of the year, at altitudes from -90 to 90 degrees, differ by at most 84 W/m^2 per degree of difference of the altitudes, across the horizon too; for neighbouring days of the year by at most 3.3 W/m^2 more; with the altitudes of get_altitude at two places by at most 84.03 W/m^2 per degree of latitude and longitude and 2.1e-7 W/m^2 per metre of elevation, and at two times of one UTC date by at most 21.2 W/m^2 per minute, provided that the sun is on the same side of the threshold of the refraction formula. In double precision, with the sun at least a millionth of a degree up, the first bound holds with 2e-11 W/m^2 added.", "quantifier": "all pairs of altitudes, times of the years 1 to 9999, and places between the poles", "why_tests_cant": "The exponential of the air mass is singular at the horizon; that the result is nevertheless continuous there, and how steep it is, no sample shows.", "anchors": ["pysolar/radiation.py:23-51", "pysolar/solar.py:119-130"]}
{"id": "C162", "title": "The incidence angle survives double precision", "statement": "In double precision get_incidence_angle returns, for every zenith angle, slope, orientation and azimuth, an angle close to the exact one. False: with the sun at right angles to a panel of slope 8 degrees (get_incidence_angle(8, 8, 0, 180)) the cosine rounds to 1.0000000000000002 and ValueError is raised (with numpy the result is nan). What holds: the result is within 0.000016 degrees of the exact angle, within 2.5e-10 degrees if that lies between 1 and 179 degrees; ValueError is raised only within 0.000016 degrees of the normal of the panel or of the opposite direction, and never for a horizontal panel.", "quantifier": "all zenith angles and slopes up to 360 degrees, orientations and azimuths up to 720 degrees, every arithmetic with the rounding error of double precision; the witness is IEEE binary64 with correctly rounded library functions", "why_tests_cant": "The failing arguments are isolated among the doubles; tests of round angles hit 3 of 90.", "anchors": ["pysolar/solar.py:254-259"]}
{"id": "C163", "title": "The fast altitude is computed for every place and time", "statement": "In double precision get_altitude_fast and get_azimuth_fast return for every place and aware datetime. False: at 17.5164952 degrees north, 0.9204892 degrees west, on 10 May 2007 at 12:00 UTC the sine of the altitude rounds to 1.0000000000000002 and ValueError is raised; get_topocentric_elevation_angle has the same flaw (latitude and declination 8 degrees, hour angle 0). What holds: the altitude is returned whenever the exact altitude is at least 0.000014 degrees away from zenith and nadir.", "quantifier": "all aware datetimes whose UTC time is in the years 1 to 9999, all latitudes, longitudes up to 360 degrees; the witness is IEEE binary64 with correctly rounded library functions", "why_tests_cant": "Only places under the sun at that very minute are affected, and of these only about one in thirty.", "anchors": ["pysolar/solar.py:134-142", "pysolar/solar.py:165-178", "pysolar/solar.py:368-372"]}
{"id": "C164", "title": "The fast azimuth is computed for every place and time away from the zenith", "statement": "In double precision get_azimuth_fast returns for every place and aware datetime with the sun away from zenith and nadir. False: at latitude 0 and longitude 0 on 22 March 2007 at 12:05 UTC, with the sun more than half a degree away from the zenith, the sine of the azimuth is computed as more than 1 and ValueError is raised (on that day the sun stands due east or west all day on the equator, and a good quarter of the minutes fail). What holds: an azimuth close to the exact one is returned whenever the exact azimuth is at least 0.00003 degrees / cos(altitude) away from due east and due west.", "quantifier": "all aware datetimes whose UTC time is in the years 1 to 9999, latitudes up to 89.9 degrees, longitudes up to 360 degrees, altitudes whose cosine is at least 0.001, every arithmetic with the rounding error of double precision; the witness is IEEE binary64 with correctly rounded library functions", "why_tests_cant": "Away from the equator and the equinox only single minutes of a few places are affected.", "anchors": ["pysolar/solar.py:165-178"]}
{"id": "C165", "title": "In double precision bearings lie from 0 up to but not including 360", "statement": "What get_azimuth and get_azimuth_fast return in IEEE double precision is a number in [0, 360), if it is a number. True of get_azimuth, whatever its arguments, and at every place on earth it does return a number. False of get_azimuth_fast: at 80 degrees south, 1.88250000000002 degrees east, on 22 March 2007 at 12:00 UTC it returns 360.0, because 360 is added to a tiny negative angle; what holds is [0, 360].", "quantifier": "all arguments, finite or not, every form of time; IEEE binary64 with correctly rounded library functions", "why_tests_cant": "The boundary is reached only by sums that round up to 360; no test value comes near.", "anchors": ["pysolar/solar.py:165-178", "pysolar/solar.py:359-366"]}
{"id": "C166", "title": "Angles stay in their ranges in double precision", "statement": "In double precision angles reduced with % 360 (local hour angle, mean sidereal time, heliocentric and geocentric longitude, right ascension) lie in [0, 360), altitudes and declinations in [-90, 90] and incidence angles in [0, 180], for whatever arguments, if a number is returned. False of the reduced angles: get_local_hour_angle(0, -1e-15, 0) is 360.0; what holds of them is [0, 360], in every floating-point arithmetic. True of the altitudes, declinations and incidence angles in IEEE double precision.", "quantifier": "all arguments, finite or not; every arithmetic with monotone rounding that leaves small integers alone for the reduced angles, IEEE binary64 with correctly rounded library functions for the others; scalar math and numpy", "why_tests_cant": "The remainder of a tiny negative number, and angles at the very ends of the ranges.", "anchors": ["pysolar/solar.py:134-142", "pysolar/solar.py:216-247", "pysolar/solar.py:254-268", "pysolar/solar.py:368-372"]}
{"id": "C167", "title": "Direct radiation is never negative in double precision", "statement": "In IEEE double precision get_radiation_direct never returns a negative number, whatever time and altitude are passed; and for an altitude of at most 180 degrees what it returns is nan or a number from 0 to 1235, never an infinity. So the radiation at the altitude computed by get_altitude_fast is nan or a number from 0 to 1235, for any place and time.", "quantifier": "all times (datetime or array of days) and all altitudes, finite or not, for the sign; all altitudes up to 180 degrees, including those below the horizon, for the bound; IEEE binary64 with correctly rounded library functions; scalar math and numpy", "why_tests_cant": "Rounding in the flux, the optical depth and the exponential at every day of the year and every altitude, including altitudes so small that their sine underflows.", "anchors": ["pysolar/radiation.py:23-51"]}
{"id": "C168", "title": "With the sun above the horizon the direct radiation is positive in double precision", "statement": "In IEEE double precision, as in real arithmetic, get_radiation_direct is positive whenever the sun is above the horizon. False: on every day it is exactly 0.0 for all altitudes above 0 up to 0.01 degrees, the exponential underflows; what holds is that it is positive from 0.017 to 90 degrees.", "quantifier": "all instants; altitudes above the horizon; IEEE binary64 with correctly rounded library functions; scalar math, and numpy with datetimes or arrays of days", "why_tests_cant": "The exponent -optical_depth / sin(altitude) on every day of the year, near the bound of the underflow.", "anchors": ["pysolar/radiation.py:23-51"]}
{"id": "C169", "title": "The yearly formulas stay in range in double precision", "statement": "In IEEE double precision, whatever day is passed (also a fraction, an infinity or nan), if a value is returned it is nan or a number in the range of the formula: get_declination at most the double 23.45 in absolute value, equation_of_time at most 20 minutes either way, get_apparent_extraterrestrial_flux from 1085 to 1235, get_optical_depth from 0.138 to 0.21.", "quantifier": "all doubles as day, finite or not; IEEE binary64 with correctly rounded library functions; scalar math and numpy", "why_tests_cant": "Rounding of every product and sum for every possible day.", "anchors": ["pysolar/solar.py:get_declination", "pysolar/solar.py:equation_of_time", "pysolar/radiation.py:33-41"]}
{"id": "C170", "title": "REST transmittances are fractions in double precision", "statement": "In IEEE double precision get_rayleigh_transmittance, get_gas_transmittance, get_aerosol_transmittance and get_aerosol_scattering_transmittance return a number from 0 to 1, never slightly more than 1, and never raise, nan or overflow.", "quantifier": "optical masses that are doubles from 0 to 94 (Rayleigh, gas), all masses and optical depths that are not negative (aerosol), masses up to a million (aerosol scattering); IEEE binary64 with correctly rounded library functions; scalar math and numpy", "why_tests_cant": "Numerator and denominator nearly agree for small masses; whether rounding lifts the quotient above 1 cannot be sampled.", "anchors": ["pysolar/rest.py:66-73", "pysolar/rest.py:177-181", "pysolar/rest.py:257-261"]}
{"id": "C171", "title": "Pressure and temperature never rise with the elevation in double precision", "statement": "In IEEE double precision the higher of two places never gets the higher result from get_pressure_with_elevation or get_temperature_with_elevation (default arguments); neither raises nor overflows.", "quantifier": "all pairs of elevations from -1000 m to 40 km; IEEE binary64 with correctly rounded library functions; scalar math and numpy", "why_tests_cant": "Neighbouring doubles are the critical pairs; six rounded operations could reverse their order, and there are 2**60 such pairs.", "anchors": ["pysolar/elevation.py:30-54", "pysolar/elevation.py:56-66"]}
{"id": "C172", "title": "The direct radiation never falls as the sun climbs, in double precision", "statement": "In IEEE double precision, at the same instant the higher of two altitudes above the horizon never gets the smaller get_radiation_direct nor the greater get_air_mass_ratio.", "quantifier": "all datetimes, all pairs of altitudes with 0 < a <= a' <= 90 degrees; IEEE binary64 with correctly rounded library functions; scalar math and numpy", "why_tests_cant": "Neighbouring doubles are the critical pairs; rounding in six operations and three library functions could reverse their order.", "anchors": ["pysolar/radiation.py:23-31", "pysolar/radiation.py:43-51"]}
{"id": "C173", "title": "Ephemeris time advances strictly in double precision", "statement": "In IEEE double precision the later of two different instants has the greater get_julian_ephemeris_day. False: at 2000-01-01 12:00:00 UTC and a microsecond later the result is the same double. What holds: the ephemeris day never runs backward, and it has advanced after a millisecond; it never raises nor overflows.", "quantifier": "every pair of aware datetimes, years 1 to 9999; IEEE binary64; scalar math and numpy", "why_tests_cant": "Six roundings for each of 3e17 instants, leap second steps included.", "anchors": ["pysolar/solartime.py:763-779"]}
{"id": "C174", "title": "The UT Julian day never runs backward", "statement": "Of two different instants the later has the greater get_julian_solar_day. False: get_delta_t gives one value per month without interpolation, so at the first instant of a month in which it rises the Julian day falls, at the end of January 1993 by 0.078 seconds, in real arithmetic and in IEEE double precision. What holds: within a UTC month it advances with the clock (in double precision: it never decreases), and after a second it has always advanced.", "quantifier": "every pair of aware datetimes, years 1 to 9999; real arithmetic; IEEE binary64, scalar math and numpy", "why_tests_cant": "All pairs of instants around each month's end, and six or seven roundings for each.", "anchors": ["pysolar/solartime.py:724-761"]}
{"id": "C175", "title": "Extraterrestrial irradiance is from 0 to 1417 W/m\u00b2 in double precision", "statement": "In IEEE double precision, extraterrestrial_irrad with the default solar constant returns a number from 0 to 1417 or nan, whatever latitude, longitude and time it is given, infinities and nan included; at an aware datetime never nan.", "quantifier": "all latitudes, longitudes and time arguments for which it returns; IEEE binary64 with correctly rounded library functions; scalar math and numpy", "why_tests_cant": "The sign depends on a rounded sum of products near the terminator and the bound on the rounded squares of sines and cosines at the subsolar point; the arguments are unbounded.", "anchors": ["pysolar/util.py:214-257"]}
{"id": "C176", "title": "The yearly and elevation formulas of util.py stay in range in double precision", "statement": "In IEEE double precision, whatever the arguments, a number returned by mean_earth_sun_distance is from 0.9999 to 1.0001, by declination_degree from -23.45 to 23.45 for any length of the year, by solarelevation_function_clear from -2.1075 to 0.9842 and by solarelevation_function_overcast from -0.5688 to 1.0034.", "quantifier": "all times, places, temperatures, pressures, elevations and lengths of the year for which the functions return, infinities and nan included; IEEE binary64 with correctly rounded library functions; scalar math and numpy", "why_tests_cant": "The arguments are unbounded and pass through the whole position algorithm.", "anchors": ["pysolar/util.py:189-212", "pysolar/util.py:260-283", "pysolar/util.py:286-321", "pysolar/util.py:323-365"]}
{"id": "C177", "title": "A positive measurement has a positive clear index in double precision", "statement": "In IEEE double precision, for a positive measured irradiance, clear_index at an aware datetime returns a number not below the measurement divided by 1417, or positive infinity: never nan, nothing negative. With math the other outcomes are ZeroDivisionError and the exceptions of extraterrestrial_irrad; with numpy only the latter.", "quantifier": "all aware datetimes, all positive measurements, all latitudes and longitudes including infinities and nan; IEEE binary64 with correctly rounded library functions; scalar math and numpy", "why_tests_cant": "The quotient may overflow for tiny irradiances near the terminator, and the night value 0 is divided by.", "anchors": ["pysolar/util.py:659-692", "pysolar/util.py:214-257"]}
{"id": "C178", "title": "Clear-sky direct irradiance does not exceed the solar constant", "statement": "With the sun above the horizon, direct_underclear returns at most 1367 W/m2 for every non-negative air mass and turbidity. False: the exponent contains the declination of the sun where the thickness of the air belongs, so that from day 264 to day 80 of the next year the light is amplified, on 21 December with the default arguments to more than 10^20 W/m2. What holds: from day 81 to day 263 the result is at most 1367 in absolute value at every place and in every atmosphere.", "quantifier": "all aware datetimes, places, elevations, temperatures and pressures; all air masses and turbidities whose product is from 0 to 4", "why_tests_cant": "A test in summer passes everywhere; the fault depends on the day of the year alone.", "anchors": ["pysolar/util.py:473-525"]}
{"id": "C179", "title": "Diffuse clear-sky irradiance is largest with the sun at the zenith", "statement": "diffuse_underclear returns at most diffuse_transmittance of the same turbidity, which is documented as the diffuse irradiance with the sun at the zenith. False: it returns that value times the altitude in degrees, so that for every turbidity from 1 on the claim holds exactly with the sun at most one degree high. diffuse_transmittance itself is 1367 times the published transmittance and increases with the turbidity.", "quantifier": "all aware datetimes, places, elevations, temperatures and pressures with the sun above the horizon; all turbidities from 1 to 10", "why_tests_cant": "The claim relates two functions over all altitudes; a test of one value of each cannot show it.", "anchors": ["pysolar/util.py:368-388", "pysolar/util.py:391-429"]}
{"id": "C180", "title": "A hazier sky lets less direct light through", "statement": "With the sun up, direct_underclear does not rise with the Linke turbidity. False: the declination stands for the thickness of the air in the exponent, so that the irradiance falls with the turbidity exactly if the sine of the declination formula and the sine of the altitude number have the same sign, and rises if they have opposite signs, as on a winter morning at the place of the documentation.", "quantifier": "all aware datetimes, places, elevations, temperatures and pressures; all positive air masses and all pairs of turbidities with a product up to 4", "why_tests_cant": "The claim compares two turbidities at all places and times; a test of single values sees no order.", "anchors": ["pysolar/util.py:473-525"]}
{"id": "C181", "title": "An overcast sky is no brighter than a clear one", "statement": "With the sun up and default arguments, global_irradiance_overcast is at most global_irradiance_clear. False: the overcast value is 572 times the altitude in degrees. From day 81 to day 263 it is the larger one at every place with the sun more than 2.48 degrees high; on the other days the claim holds up to 1.57 degrees.", "quantifier": "all aware datetimes, places and elevations", "why_tests_cant": "The claim relates two functions at all places and times.", "anchors": ["pysolar/util.py:527-586", "pysolar/util.py:588-630"]}
{"id": "C182", "title": "The diffuse ratio is a fraction in double precision", "statement": "For two doubles, a diffuse irradiance from 0 to the global one and a positive global one, diffuse_ratio returns the same double with math and with numpy: from 0 to 1, equal to 1 exactly if the two irradiances are equal, the exact ratio up to one rounding, never falling with the diffuse and never rising with the global irradiance.", "quantifier": "all pairs of IEEE doubles with 0 <= diffuse <= global and 0 < global", "why_tests_cant": "The claim that two different doubles never have the ratio 1 is about all pairs of neighbouring doubles.", "anchors": ["pysolar/util.py:633-656"]}
{"id": "C183", "title": "The diffuse transmittance never falls with the turbidity in double precision", "statement": "In IEEE double precision diffuse_transmittance returns the same double with math and with numpy, within 1e-6 of the real value of the formula, at least 3 from turbidity 0.6 on, and for a higher turbidity never a lower double.", "quantifier": "all turbidities from 0 to 100, both configurations", "why_tests_cant": "Monotonicity under rounding is about all pairs of turbidities, neighbouring doubles included.", "anchors": ["pysolar/util.py:368-388"]}
{"id": "C184", "title": "Diffuse and overcast irradiance never fall as the sun climbs, in double precision", "statement": "In IEEE double precision, if get_altitude returns a higher altitude for one call than for another, global_irradiance_overcast returns no smaller value. For calls with the same datetime, the sun up and turbidities from 0.6 on, diffuse_underclear is not negative and never smaller for a higher altitude and turbidity.", "quantifier": "all latitudes, longitudes, elevations, temperatures and pressures for which the results are finite, both configurations; all turbidities from 0.6 to 100", "why_tests_cant": "Monotonicity under rounding is about all pairs of calls, neighbouring doubles included.", "anchors": ["pysolar/util.py:391-429", "pysolar/util.py:588-630"]}
