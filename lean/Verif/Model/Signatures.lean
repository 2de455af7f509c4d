import Verif.Py.Call

/-!
# Signatures of the functions and of their type stubs

Written by tools/gen_signatures.py. Each entry: module, function, parameters in the stub (`.pyi`), parameters in the code
(`.py`); `true` marks a parameter with a default. Types are not recorded. Functions without a stub: those of numeric.py,
rest.py and tzinfo_check.py, and `get_topocentric_position` (solar.py).
-/

namespace Pysolar.Stubs

open Verif

/-- A function with a stub. -/
structure Function where
  file : String
  name : String
  stub : Sig
  code : Sig

/-- pysolar/solar.pyi and pysolar/solar.py. -/
def solarFunctions : List Function := [
  -- solar.pyi:6, solar.py:31
  ⟨"solar", "solar_test",
    [],
    []⟩,
  -- solar.pyi:7, solar.py:46
  ⟨"solar", "equation_of_time",
    [("day", false)],
    [("day", false)]⟩,
  -- solar.pyi:8, solar.py:52
  ⟨"solar", "get_aberration_correction",
    [("sun_earth_distance", false)],
    [("sun_earth_distance", false)]⟩,
  -- solar.pyi:9, solar.py:120
  ⟨"solar", "get_altitude",
    [("latitude_deg", false), ("longitude_deg", false), ("when", false), ("elevation", true), ("temperature", true), ("pressure", true)],
    [("latitude_deg", false), ("longitude_deg", false), ("when", false), ("elevation", true), ("temperature", true), ("pressure", true)]⟩,
  -- solar.pyi:10, solar.py:134
  ⟨"solar", "get_altitude_fast",
    [("latitude_deg", false), ("longitude_deg", false), ("when", false)],
    [("latitude_deg", false), ("longitude_deg", false), ("when", false)]⟩,
  -- solar.pyi:11, solar.py:145
  ⟨"solar", "get_apparent_sidereal_time",
    [("jd", false), ("jme", false), ("nutation_float", false)],
    [("jd", false), ("jme", false), ("nutation", false)]⟩,
  -- solar.pyi:12, solar.py:149
  ⟨"solar", "get_apparent_sun_longitude",
    [("geocentric_longitude", false), ("nutation", false), ("ab_correction", false)],
    [("geocentric_longitude", false), ("nutation", false), ("ab_correction", false)]⟩,
  -- solar.pyi:13, solar.py:154
  ⟨"solar", "get_azimuth",
    [("latitude_deg", false), ("longitude_deg", false), ("when", false), ("elevation", true)],
    [("latitude_deg", false), ("longitude_deg", false), ("when", false), ("elevation", true)]⟩,
  -- solar.pyi:14, solar.py:165
  ⟨"solar", "get_azimuth_fast",
    [("latitude_deg", false), ("longitude_deg", false), ("when", false)],
    [("latitude_deg", false), ("longitude_deg", false), ("when", false)]⟩,
  -- solar.pyi:15, solar.py:180
  ⟨"solar", "get_coeff",
    [("jme", false), ("coeffs", false)],
    [("jme", false), ("coeffs", false)]⟩,
  -- solar.pyi:16, solar.py:197
  ⟨"solar", "get_declination",
    [("day", false)],
    [("day", false)]⟩,
  -- solar.pyi:17, solar.py:205
  ⟨"solar", "get_equatorial_horizontal_parallax",
    [("sun_earth_distance", false)],
    [("sun_earth_distance", false)]⟩,
  -- solar.pyi:18, solar.py:208
  ⟨"solar", "get_flattened_latitude",
    [("latitude", false)],
    [("latitude", false)]⟩,
  -- solar.pyi:19, solar.py:214
  ⟨"solar", "get_geocentric_latitude",
    [("jme", false)],
    [("jme", false)]⟩,
  -- solar.pyi:20, solar.py:217
  ⟨"solar", "get_geocentric_longitude",
    [("jme", false)],
    [("jme", false)]⟩,
  -- solar.pyi:21, solar.py:220
  ⟨"solar", "get_geocentric_sun_declination",
    [("apparent_sun_longitude", false), ("true_ecliptic_obliquity", false), ("geocentric_latitude", false)],
    [("apparent_sun_longitude", false), ("true_ecliptic_obliquity", false), ("geocentric_latitude", false)]⟩,
  -- solar.pyi:22, solar.py:230
  ⟨"solar", "get_geocentric_sun_right_ascension",
    [("apparent_sun_longitude", false), ("true_ecliptic_obliquity", false), ("geocentric_latitude", false)],
    [("apparent_sun_longitude", false), ("true_ecliptic_obliquity", false), ("geocentric_latitude", false)]⟩,
  -- solar.pyi:23, solar.py:243
  ⟨"solar", "get_heliocentric_latitude",
    [("jme", false)],
    [("jme", false)]⟩,
  -- solar.pyi:24, solar.py:246
  ⟨"solar", "get_heliocentric_longitude",
    [("jme", false)],
    [("jme", false)]⟩,
  -- solar.pyi:25, solar.py:250
  ⟨"solar", "get_hour_angle",
    [("when", false), ("longitude_deg", false)],
    [("when", false), ("longitude_deg", false)]⟩,
  -- solar.pyi:26, solar.py:254
  ⟨"solar", "get_incidence_angle",
    [("topocentric_zenith_angle", false), ("slope", false), ("slope_orientation", false), ("topocentric_azimuth_angle", false)],
    [("topocentric_zenith_angle", false), ("slope", false), ("slope_orientation", false), ("topocentric_azimuth_angle", false)]⟩,
  -- solar.pyi:27, solar.py:261
  ⟨"solar", "get_local_hour_angle",
    [("apparent_sidereal_time", false), ("longitude", false), ("geocentric_sun_right_ascension", false)],
    [("apparent_sidereal_time", false), ("longitude", false), ("geocentric_sun_right_ascension", false)]⟩,
  -- solar.pyi:28, solar.py:264
  ⟨"solar", "get_mean_sidereal_time",
    [("jd", false)],
    [("jd", false)]⟩,
  -- solar.pyi:29, solar.py:270
  ⟨"solar", "get_nutation",
    [("jce", false)],
    [("jce", false)]⟩,
  -- solar.pyi:30, solar.py:302
  ⟨"solar", "get_parallax_sun_right_ascension",
    [("projected_radial_distance", false), ("equatorial_horizontal_parallax", false), ("local_hour_angle", false), ("geocentric_sun_declination", false)],
    [("projected_radial_distance", false), ("equatorial_horizontal_parallax", false), ("local_hour_angle", false), ("geocentric_sun_declination", false)]⟩,
  -- solar.pyi:31, solar.py:90
  ⟨"solar", "get_position",
    [("latitude_deg", false), ("longitude_deg", false), ("when", false), ("elevation", true), ("temperature", true), ("pressure", true)],
    [("latitude_deg", false), ("longitude_deg", false), ("when", false), ("elevation", true), ("temperature", true), ("pressure", true)]⟩,
  -- solar.pyi:32, solar.py:312
  ⟨"solar", "get_projected_radial_distance",
    [("elevation", false), ("latitude", false)],
    [("elevation", false), ("latitude", false)]⟩,
  -- solar.pyi:33, solar.py:317
  ⟨"solar", "get_projected_axial_distance",
    [("elevation", false), ("latitude", false)],
    [("elevation", false), ("latitude", false)]⟩,
  -- solar.pyi:34, solar.py:322
  ⟨"solar", "get_sun_earth_distance",
    [("jme", false)],
    [("jme", false)]⟩,
  -- solar.pyi:35, solar.py:325
  ⟨"solar", "get_refraction_correction",
    [("pressure", false), ("temperature", false), ("topocentric_elevation_angle", false)],
    [("pressure", false), ("temperature", false), ("topocentric_elevation_angle", false)]⟩,
  -- solar.pyi:36, solar.py:347
  ⟨"solar", "get_solar_time",
    [("longitude_deg", false), ("when", false)],
    [("longitude_deg", false), ("when", false)]⟩,
  -- solar.pyi:37, solar.py:359
  ⟨"solar", "get_topocentric_azimuth_angle",
    [("topocentric_local_hour_angle", false), ("latitude", false), ("topocentric_sun_declination", false)],
    [("topocentric_local_hour_angle", false), ("latitude", false), ("topocentric_sun_declination", false)]⟩,
  -- solar.pyi:38, solar.py:368
  ⟨"solar", "get_topocentric_elevation_angle",
    [("latitude", false), ("topocentric_sun_declination", false), ("topocentric_local_hour_angle", false)],
    [("latitude", false), ("topocentric_sun_declination", false), ("topocentric_local_hour_angle", false)]⟩,
  -- solar.pyi:39, solar.py:374
  ⟨"solar", "get_topocentric_local_hour_angle",
    [("local_hour_angle", false), ("parallax_sun_right_ascension", false)],
    [("local_hour_angle", false), ("parallax_sun_right_ascension", false)]⟩,
  -- solar.pyi:40, solar.py:377
  ⟨"solar", "get_topocentric_sun_declination",
    [("geocentric_sun_declination", false), ("projected_axial_distance", false), ("equatorial_horizontal_parallax", false), ("parallax_sun_right_ascension", false), ("local_hour_angle", false)],
    [("geocentric_sun_declination", false), ("projected_axial_distance", false), ("equatorial_horizontal_parallax", false), ("parallax_sun_right_ascension", false), ("local_hour_angle", false)]⟩,
  -- solar.pyi:41, solar.py:387
  ⟨"solar", "get_topocentric_sun_right_ascension",
    [("projected_radial_distance", false), ("equatorial_horizontal_parallax", false), ("local_hour_angle", false), ("apparent_sun_longitude", false), ("true_ecliptic_obliquity", false), ("geocentric_latitude", false)],
    [("projected_radial_distance", false), ("equatorial_horizontal_parallax", false), ("local_hour_angle", false), ("apparent_sun_longitude", false), ("true_ecliptic_obliquity", false), ("geocentric_latitude", false)]⟩,
  -- solar.pyi:42, solar.py:394
  ⟨"solar", "get_topocentric_zenith_angle",
    [("latitude", false), ("topocentric_sun_declination", false), ("topocentric_local_hour_angle", false), ("pressure", false), ("temperature", false)],
    [("latitude", false), ("topocentric_sun_declination", false), ("topocentric_local_hour_angle", false), ("pressure", false), ("temperature", false)]⟩,
  -- solar.pyi:43, solar.py:398
  ⟨"solar", "get_true_ecliptic_obliquity",
    [("jme", false), ("nutation", false)],
    [("jme", false), ("nutation", false)]⟩]

/-- pysolar/util.pyi and pysolar/util.py. -/
def utilFunctions : List Function := [
  -- util.pyi:13, util.py:48
  ⟨"util", "get_sunrise_sunset_transit",
    [("latitude_deg", false), ("longitude_deg", false), ("when", false)],
    [("latitude_deg", false), ("longitude_deg", false), ("when", false)]⟩,
  -- util.pyi:14, util.py:166
  ⟨"util", "get_sunrise_sunset",
    [("latitude_deg", false), ("longitude_deg", false), ("when", false)],
    [("latitude_deg", false), ("longitude_deg", false), ("when", false)]⟩,
  -- util.pyi:15, util.py:172
  ⟨"util", "get_sunrise_time",
    [("latitude_deg", false), ("longitude_deg", false), ("when", false)],
    [("latitude_deg", false), ("longitude_deg", false), ("when", false)]⟩,
  -- util.pyi:16, util.py:178
  ⟨"util", "get_sunset_time",
    [("latitude_deg", false), ("longitude_deg", false), ("when", false)],
    [("latitude_deg", false), ("longitude_deg", false), ("when", false)]⟩,
  -- util.pyi:17, util.py:184
  ⟨"util", "get_transit_time",
    [("latitude_deg", false), ("longitude_deg", false), ("when", false)],
    [("latitude_deg", false), ("longitude_deg", false), ("when", false)]⟩,
  -- util.pyi:18, util.py:190
  ⟨"util", "mean_earth_sun_distance",
    [("when", false)],
    [("when", false)]⟩,
  -- util.pyi:19, util.py:215
  ⟨"util", "extraterrestrial_irrad",
    [("when", false), ("latitude_deg", false), ("longitude_deg", false), ("SC", true)],
    [("latitude_deg", false), ("longitude_deg", false), ("when", false), ("SC", true)]⟩,
  -- util.pyi:20, util.py:261
  ⟨"util", "declination_degree",
    [("when", false), ("TY", true)],
    [("when", false), ("TY", true)]⟩,
  -- util.pyi:21, util.py:287
  ⟨"util", "solarelevation_function_clear",
    [("latitude_deg", false), ("longitude_deg", false), ("when", false), ("temperature", true), ("pressure", true), ("elevation", true)],
    [("latitude_deg", false), ("longitude_deg", false), ("when", false), ("temperature", true), ("pressure", true), ("elevation", true)]⟩,
  -- util.pyi:22, util.py:324
  ⟨"util", "solarelevation_function_overcast",
    [("latitude_deg", false), ("longitude_deg", false), ("when", false), ("elevation", true), ("temperature", true), ("pressure", true)],
    [("latitude_deg", false), ("longitude_deg", false), ("when", false), ("elevation", true), ("temperature", true), ("pressure", true)]⟩,
  -- util.pyi:23, util.py:368
  ⟨"util", "diffuse_transmittance",
    [("TL", true)],
    [("TL", true)]⟩,
  -- util.pyi:24, util.py:392
  ⟨"util", "diffuse_underclear",
    [("latitude_deg", false), ("longitude_deg", false), ("when", false), ("elevation", true), ("temperature", true), ("pressure", true), ("TL", true)],
    [("latitude_deg", false), ("longitude_deg", false), ("when", false), ("elevation", true), ("temperature", true), ("pressure", true), ("TL", true)]⟩,
  -- util.pyi:25, util.py:432
  ⟨"util", "diffuse_underovercast",
    [("latitude_deg", false), ("longitude_deg", false), ("when", false), ("elevation", true), ("temperature", true), ("pressure", true), ("TL", true)],
    [("latitude_deg", false), ("longitude_deg", false), ("when", false), ("elevation", true), ("temperature", true), ("pressure", true), ("TL", true)]⟩,
  -- util.pyi:26, util.py:474
  ⟨"util", "direct_underclear",
    [("latitude_deg", false), ("longitude_deg", false), ("when", false), ("temperature", true), ("pressure", true), ("TY", true), ("AM", true), ("TL", true), ("elevation", true)],
    [("latitude_deg", false), ("longitude_deg", false), ("when", false), ("TY", true), ("AM", true), ("TL", true), ("elevation", true), ("temperature", true), ("pressure", true)]⟩,
  -- util.pyi:27, util.py:528
  ⟨"util", "global_irradiance_clear",
    [("DIRC", false), ("DIFFC", false), ("latitude_deg", false), ("longitude_deg", false), ("when", false), ("temperature", true), ("pressure", true), ("TY", true), ("AM", true), ("TL", true), ("elevation", true)],
    [("latitude_deg", false), ("longitude_deg", false), ("when", false), ("TY", true), ("AM", true), ("TL", true), ("elevation", true), ("temperature", true), ("pressure", true)]⟩,
  -- util.pyi:28, util.py:589
  ⟨"util", "global_irradiance_overcast",
    [("latitude_deg", false), ("longitude_deg", false), ("when", false), ("elevation", true), ("temperature", true), ("pressure", true)],
    [("latitude_deg", false), ("longitude_deg", false), ("when", false), ("elevation", true), ("temperature", true), ("pressure", true)]⟩,
  -- util.pyi:29, util.py:633
  ⟨"util", "diffuse_ratio",
    [("DIFF_data", false), ("ghi_data", false)],
    [("DIFF_data", false), ("ghi_data", false)]⟩,
  -- util.pyi:30, util.py:660
  ⟨"util", "clear_index",
    [("ghi_data", false), ("when", false), ("latitude_deg", false), ("longitude_deg", false)],
    [("ghi_data", false), ("latitude_deg", false), ("longitude_deg", false), ("when", false)]⟩]

/-- pysolar/simulate.pyi and pysolar/simulate.py. -/
def simulateFunctions : List Function := [
  -- simulate.pyi:6, simulate.py:27
  ⟨"simulate", "datetime_range",
    [("start_datetime", false), ("end_datetime", false), ("step_minutes", false)],
    [("start_datetime", false), ("end_datetime", false), ("step_minutes", false)]⟩,
  -- simulate.pyi:7, simulate.py:37
  ⟨"simulate", "simulate_span",
    [("latitude_deg", false), ("longitude_deg", false), ("horizon", false), ("start_datetime", false), ("end_datetime", false), ("step_minutes", false), ("elevation", true), ("temperature", true), ("pressure", true)],
    [("latitude_deg", false), ("longitude_deg", false), ("horizon", false), ("start_datetime", false), ("end_datetime", false), ("step_minutes", false), ("elevation", true), ("temperature", true), ("pressure", true)]⟩]

/-- pysolar/radiation.pyi and pysolar/radiation.py. -/
def radiationFunctions : List Function := [
  -- radiation.pyi:5, radiation.py:23
  ⟨"radiation", "get_air_mass_ratio",
    [("altitude_deg", false)],
    [("altitude_deg", false)]⟩,
  -- radiation.pyi:6, radiation.py:33
  ⟨"radiation", "get_apparent_extraterrestrial_flux",
    [("day", false)],
    [("day", false)]⟩,
  -- radiation.pyi:7, radiation.py:38
  ⟨"radiation", "get_optical_depth",
    [("day", false)],
    [("day", false)]⟩,
  -- radiation.pyi:8, radiation.py:43
  ⟨"radiation", "get_radiation_direct",
    [("when", false), ("altitude_deg", false)],
    [("when", false), ("altitude_deg", false)]⟩]

/-- pysolar/elevation.pyi and pysolar/elevation.py. -/
def elevationFunctions : List Function := [
  -- elevation.pyi:3, elevation.py:30
  ⟨"elevation", "get_pressure_with_elevation",
    [("h", false), ("Ps", true), ("Ts", true), ("Tl", true), ("Hb", true), ("R", true), ("g", true), ("M", true)],
    [("h", false), ("Ps", true), ("Ts", true), ("Tl", true), ("Hb", true), ("R", true), ("g", true), ("M", true)]⟩,
  -- elevation.pyi:4, elevation.py:56
  ⟨"elevation", "get_temperature_with_elevation",
    [("h", false), ("Ts", true), ("Tl", true)],
    [("h", false), ("Ts", true), ("Tl", true)]⟩,
  -- elevation.pyi:5, elevation.py:68
  ⟨"elevation", "elevation_test",
    [],
    []⟩]

/-- pysolar/solartime.pyi and pysolar/solartime.py. -/
def solartimeFunctions : List Function := [
  -- solartime.pyi:12, solartime.py:99
  ⟨"solartime", "get_leap_seconds",
    [("when", false)],
    [("when", false)]⟩,
  -- solartime.pyi:18, solartime.py:725
  ⟨"solartime", "get_delta_t",
    [("when", false)],
    [("when", false)]⟩,
  -- solartime.pyi:19, solartime.py:746
  ⟨"solartime", "get_julian_solar_day",
    [("when", false)],
    [("when", false)]⟩,
  -- solartime.pyi:20, solartime.py:764
  ⟨"solartime", "get_julian_ephemeris_day",
    [("when", false)],
    [("when", false)]⟩,
  -- solartime.pyi:21, solartime.py:781
  ⟨"solartime", "get_julian_century",
    [("julian_day", false)],
    [("julian_day", false)]⟩,
  -- solartime.pyi:22, solartime.py:784
  ⟨"solartime", "get_julian_ephemeris_century",
    [("julian_ephemeris_day", false)],
    [("julian_ephemeris_day", false)]⟩,
  -- solartime.pyi:23, solartime.py:787
  ⟨"solartime", "get_julian_ephemeris_millennium",
    [("julian_ephemeris_century", false)],
    [("julian_ephemeris_century", false)]⟩]

/-- pysolar/constants.pyi and pysolar/constants.py. -/
def constantsFunctions : List Function := [
  -- constants.pyi:7, constants.py:43
  ⟨"constants", "get_aberration_coeffs",
    [],
    []⟩]

/-- All functions with a stub. -/
def functions : List Function :=
  solarFunctions ++
    utilFunctions ++
    simulateFunctions ++
    radiationFunctions ++
    elevationFunctions ++
    solartimeFunctions ++
    constantsFunctions

end Pysolar.Stubs
