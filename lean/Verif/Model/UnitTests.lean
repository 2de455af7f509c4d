import Verif.Model.Solar
import Verif.Model.Elevation

/-!
# Model of the unit tests of test/test_solar.py and test/test_hour_angle.py

Each call of `assertAlmostEqual(first, second, places)` or `assertAlmostEqual(first, second, delta)` is recorded as a
`Check`. The tests share no state, so that one run of `setUp` stands for all.
-/

open Verif

namespace Pysolar.UnitTests

open Pysolar.Solar Pysolar.Solartime Pysolar.Elevation Pysolar.Constants

/-- One call of `assertAlmostEqual`: the test it is in, the two numbers compared, and the largest difference accepted. -/
structure Check (B : Backend) where
  test : String
  first : B.α
  second : B.α
  tol : ℚ

/-- `round(abs(first - second), n) == 0` means a difference of at most half a unit of the last decimal (a tie goes to the
even neighbour, 0). -/
def places (n : ℕ) : ℚ := 1 / (2 * 10 ^ n)

/-- test/test_solar.py:34. -/
def setUpDay : DateTime := ⟨⟨2003, 10, 17, 19, 30, 30, 0⟩, false, some utcTz⟩

/-- test/test_solar.py:35: `self.d += datetime.timedelta(seconds = ...)`; the seconds are a multiple of a microsecond up
to the rounding of floating point, the nearest microsecond is taken. -/
def setUpD (B : Backend) : Py DateTime := do
  let w : When B := .dt setUpDay
  let s := (← get_delta_t w) - tt_offset - (← get_leap_seconds w)
  setUpDay.add (s * 1000000 + 1 / 2).floor

/-- test/test_solar.py:33-72 `TestSolar.setUp`, followed by the assertions of lines 76-148. -/
def testSolar (B : Backend) : Py (List (Check B)) := do
  let d ← setUpD B
  let w : When B := .dt d
  let longitude : B.α := B.lit (-105.1786)
  let latitude : B.α := B.lit 39.742476
  let pressure : B.α := B.lit 82000.0
  let elevation : B.α := B.lit 1830.14
  let temperature : B.α := B.lit 11.0 + B.lit celsius_offset
  let slope : B.α := B.lit 30.0
  let slope_orientation : B.α := B.lit (-10.0)
  let jd ← get_julian_solar_day B w
  let jc := get_julian_century B jd
  let jde ← get_julian_ephemeris_day B w
  let jce := get_julian_ephemeris_century B jde
  let jme := get_julian_ephemeris_millennium B jce
  let geocentric_longitude ← get_geocentric_longitude B jme
  let geocentric_latitude ← get_geocentric_latitude B jme
  let nutation ← get_nutation B jce
  let sun_earth_distance ← get_sun_earth_distance B jme
  let true_ecliptic_obliquity := get_true_ecliptic_obliquity B jme nutation
  let aberration_correction ← get_aberration_correction B sun_earth_distance
  let apparent_sun_longitude := get_apparent_sun_longitude B geocentric_longitude nutation aberration_correction
  let apparent_sidereal_time ← get_apparent_sidereal_time B jd jme nutation
  let geocentric_sun_right_ascension ← get_geocentric_sun_right_ascension B apparent_sun_longitude
    true_ecliptic_obliquity geocentric_latitude
  let geocentric_sun_declination ← get_geocentric_sun_declination B apparent_sun_longitude true_ecliptic_obliquity
    geocentric_latitude
  let local_hour_angle := get_local_hour_angle B (B.lit 318.5119) longitude geocentric_sun_right_ascension
  let equatorial_horizontal_parallax ← get_equatorial_horizontal_parallax B sun_earth_distance
  let projected_radial_distance ← get_projected_radial_distance B elevation latitude
  let projected_axial_distance ← get_projected_axial_distance B elevation latitude
  let topocentric_sun_right_ascension ← get_topocentric_sun_right_ascension B projected_radial_distance
    equatorial_horizontal_parallax local_hour_angle apparent_sun_longitude true_ecliptic_obliquity geocentric_latitude
  let parallax_sun_right_ascension ← get_parallax_sun_right_ascension B projected_radial_distance
    equatorial_horizontal_parallax local_hour_angle geocentric_sun_declination
  let topocentric_sun_declination ← get_topocentric_sun_declination B geocentric_sun_declination
    projected_axial_distance equatorial_horizontal_parallax parallax_sun_right_ascension local_hour_angle
  let topocentric_local_hour_angle := get_topocentric_local_hour_angle B local_hour_angle parallax_sun_right_ascension
  let topocentric_zenith_angle ← get_topocentric_zenith_angle B latitude topocentric_sun_declination
    topocentric_local_hour_angle pressure temperature
  let topocentric_azimuth_angle ← get_topocentric_azimuth_angle B topocentric_local_hour_angle latitude
    topocentric_sun_declination
  let incidence_angle ← get_incidence_angle B topocentric_zenith_angle slope slope_orientation
    topocentric_azimuth_angle
  return [
    ⟨"test_get_julian_solar_day", B.lit 2452930.312847, jd, places 6⟩,
    ⟨"test_get_julian_ephemeris_day", B.lit 2452930.3136, jde, places 4⟩,
    ⟨"test_get_julian_century", B.lit 0.03792779869191517, jc, places 12⟩,
    ⟨"test_get_julian_ephemeris_millennium", B.lit 0.0037927819143886397, jme, places 12⟩,
    ⟨"test_get_geocentric_longitude", B.lit 204.0182635175, geocentric_longitude, places 4⟩,
    ⟨"test_get_geocentric_latitude", B.lit 0.0001011219, geocentric_latitude, places 8⟩,
    ⟨"test_get_nutation", B.lit 0.00166657, nutation.obliquity, places 8⟩,
    ⟨"test_get_nutation", B.lit (-0.00399840), nutation.longitude, places 8⟩,
    ⟨"test_get_sun_earth_distance", B.lit 0.9965421031, sun_earth_distance, places 6⟩,
    ⟨"test_get_true_ecliptic_obliquity", B.lit 23.440465, true_ecliptic_obliquity, places 6⟩,
    ⟨"test_get_aberration_correction", B.lit (-0.005711359), aberration_correction, places 9⟩,
    ⟨"test_get_apparent_sun_longitude", B.lit 204.0085537528, apparent_sun_longitude, places 4⟩,
    ⟨"test_get_apparent_sidereal_time", B.lit 318.5119, apparent_sidereal_time, places 2⟩,
    ⟨"test_get_geocentric_sun_right_ascension", B.lit 202.22741, geocentric_sun_right_ascension, places 4⟩,
    ⟨"test_get_geocentric_sun_declination", B.lit (-9.31434), geocentric_sun_declination, places 4⟩,
    ⟨"test_get_local_hour_angle", B.lit 11.105900, local_hour_angle, places 4⟩,
    ⟨"test_get_projected_radial_distance", B.lit 0.7702006, projected_radial_distance, places 6⟩,
    ⟨"test_get_topocentric_sun_right_ascension", B.lit 202.22741, topocentric_sun_right_ascension, places 3⟩,
    ⟨"test_get_parallax_sun_right_ascension", B.lit (-0.0003659912761437859), parallax_sun_right_ascension, places 12⟩,
    ⟨"test_get_topocentric_sun_declination", B.lit (-9.316179), topocentric_sun_declination, places 3⟩,
    ⟨"test_get_topocentric_local_hour_angle", B.lit 11.10629, topocentric_local_hour_angle, places 4⟩,
    ⟨"test_get_topocentric_zenith_angle", B.lit 50.11162, topocentric_zenith_angle, places 3⟩,
    ⟨"test_get_topocentric_azimuth_angle", B.lit 194.34024, topocentric_azimuth_angle, places 4⟩,
    ⟨"test_get_incidence_angle", B.lit 25.18700, incidence_angle, places 3⟩]

/-- test/test_solar.py:73, 150-151 `testPressureWithElevation`. -/
def testPressure (B : Backend) : Py (Check B) := do
  let pressure_with_elevation ← get_pressure_with_elevation B (B.lit 1567.7)
  return ⟨"testPressureWithElevation", B.lit 83855.90228, pressure_with_elevation, places 4⟩

/-- test/test_solar.py:74, 153-154 `testTemperatureWithElevation`. -/
def testTemperature (B : Backend) : Check B :=
  ⟨"testTemperatureWithElevation", B.lit 277.9600, get_temperature_with_elevation B (B.lit 1567.7), places 4⟩

/-- test/test_solar.py:158 `TestApi.test_when`. -/
def test_when : DateTime := ⟨⟨2016, 12, 19, 23, 0, 0, 0⟩, false, some utcTz⟩

/-- test/test_solar.py:160-180: `testGetPosition`, `testGetAltitude` and `testGetAzimuth` (7 decimals by default). -/
def testApi (B : Backend) : Py (List (Check B)) := do
  let w : When B := .dt test_when
  let p1 ← get_position B (B.lit 59.6365662) (B.lit 12.5350953) w
  let p2 ← get_position B (B.lit (-43)) (B.lit 172) w
  let p3 ← get_position B (B.lit 51.4826) (B.lit 0) w
  let al ← get_altitude B (B.lit (-43)) (B.lit 172) w
  let az ← get_azimuth B (B.lit (-43)) (B.lit 172) w
  return [
    ⟨"testGetPosition", p1.1, B.lit 357.1431414, places 7⟩,
    ⟨"testGetPosition", p1.2, B.lit (-53.7672217), places 7⟩,
    ⟨"testGetPosition", p2.1, B.lit 50.50035708, places 7⟩,
    ⟨"testGetPosition", p2.2, B.lit 63.0922036, places 7⟩,
    ⟨"testGetPosition", p3.1, B.lit 333.04037976, places 7⟩,
    ⟨"testGetPosition", p3.2, B.lit (-59.83724345), places 7⟩,
    ⟨"testGetAltitude", al, B.lit 63.0922036, places 7⟩,
    ⟨"testGetAzimuth", az, B.lit 50.50035708, places 7⟩]

/-- test/test_solar.py:184-186 and 195-197: midnight in New Zealand. -/
def nzDay : DateTime := ⟨⟨2016, 12, 19, 0, 0, 0, 0⟩, false, some (fixedTz 1 43200000000)⟩

/-- test/test_solar.py:187-191: `testGetAltitudeFast`, one pass of the loop. -/
def testAltitudeFast (B : Backend) (hour : ℤ) : Py (Check B) := do
  let d ← nzDay.add (3600000000 * hour)
  let al ← get_altitude_fast B (B.lit (-43)) (B.lit 172) (.dt d)
  let al_expected ← get_altitude B (B.lit (-43)) (B.lit 172) (.dt d)
  return ⟨"testGetAltitudeFast", al, al_expected, 1⟩

/-- test/test_solar.py:197-201: `testGetAzimuthFast`, one pass of the loop. -/
def testAzimuthFast (B : Backend) (hour : ℤ) : Py (Check B) := do
  let d ← nzDay.add (3600000000 * hour)
  let az ← get_azimuth_fast B (B.lit (-43)) (B.lit 172) (.dt d)
  let az_expected ← get_azimuth B (B.lit (-43)) (B.lit 172) (.dt d)
  return ⟨"testGetAzimuthFast", az, az_expected, 1.5⟩

/-- test/test_hour_angle.py:28-29. -/
def hourAngleWhen : DateTime := ⟨⟨2008, 2, 13, 10, 42, 0, 0⟩, false, some (fixedTz 1 (-21600000000))⟩

/-- test/test_hour_angle.py:20-71 `testHourAngle`. -/
def testHourAngle (B : Backend) : Py (List (Check B)) := do
  let w : When B := .dt hourAngleWhen
  let longitude_deg : B.α := B.lit (-89.384448)
  let ha ← get_hour_angle B w longitude_deg
  let jd ← get_julian_solar_day B w
  let jde ← get_julian_ephemeris_day B w
  let jce := get_julian_ephemeris_century B jde
  let jme := get_julian_ephemeris_millennium B jce
  let geocentric_latitude ← get_geocentric_latitude B jme
  let geocentric_longitude ← get_geocentric_longitude B jme
  let sun_earth_distance ← get_sun_earth_distance B jme
  let aberration_correction ← get_aberration_correction B sun_earth_distance
  let nutation ← get_nutation B jce
  let apparent_sidereal_time ← get_apparent_sidereal_time B jd jme nutation
  let true_ecliptic_obliquity := get_true_ecliptic_obliquity B jme nutation
  let apparent_sun_longitude := get_apparent_sun_longitude B geocentric_longitude nutation aberration_correction
  let geocentric_sun_right_ascension ← get_geocentric_sun_right_ascension B apparent_sun_longitude
    true_ecliptic_obliquity geocentric_latitude
  let local_hour_angle := get_local_hour_angle B apparent_sidereal_time longitude_deg geocentric_sun_right_ascension
  let reference_ha := B.modq (B.lit (-22.5)) 360
  return [
    ⟨"testHourAngle", B.modq local_hour_angle 360, B.modq ha 360, places 0⟩,
    ⟨"testHourAngle", B.modq reference_ha 360, B.modq ha 360, places 0⟩]

end Pysolar.UnitTests
