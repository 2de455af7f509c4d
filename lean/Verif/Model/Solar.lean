import Verif.Model.Solartime
import Verif.Model.Constants

/-!
# Model of pysolar/solar.py (`solar_test`, lines 31-43, is in `SolarTest.lean`)

Python default arguments are default arguments here. Evaluation order is the order of the `←`.
-/

open Verif

namespace Pysolar.Solar

open Pysolar.TzCheck Pysolar.Numeric Pysolar.Solartime Pysolar.Constants

/-- solar.py:46-49 `equation_of_time`. -/
def equation_of_time (B : Backend) (day : B.α) : Py B.α := do
  let b := (2 * B.pi) /. 364.0 * (day - 81)
  return 9.87 * (← B.sin (2 * b)) - 7.53 * (← B.cos b) - 1.5 * (← B.sin b)

/-- solar.py:52-53 `get_aberration_correction`. -/
def get_aberration_correction (B : Backend) (sun_earth_distance : B.α) : Py B.α :=
  B.div (-20.4898) (3600.0 * sun_earth_distance)

/-- solar.py:187-189: the inner loop of `get_coeff` from the running value `c`. -/
def coeffLine (B : Backend) (jme : B.α) : B.α → List (ℚ × ℚ × ℚ) → Py B.α
  | c, [] => .ok c
  | c, l :: line => do
    coeffLine B jme (c + B.lit l.1 * (← B.cos (B.lit l.2.1 + B.lit l.2.2 * jme))) line

/-- solar.py:185-192: the outer loop of `get_coeff` from the running values `result`, `x`. -/
def coeffLoop (B : Backend) (jme : B.α) : B.α → B.α → List (List (ℚ × ℚ × ℚ)) → Py B.α
  | result, _, [] => .ok result
  | result, x, line :: coeffs => do
    let c ← coeffLine B jme 0.0 line
    coeffLoop B jme (result + c * x) (x * jme) coeffs

/-- solar.py:180-195 `get_coeff`. -/
def get_coeff (B : Backend) (jme : B.α) (coeffs : List (List (ℚ × ℚ × ℚ))) : Py B.α :=
  coeffLoop B jme 0.0 1.0 coeffs

/-- solar.py:197-203 `get_declination`. -/
def get_declination (B : Backend) (day : B.α) : Py B.α := do
  return B.lit earth_axis_inclination * (← B.sin (((2 * B.pi) /. 365.0) * (day - 81)))

/-- solar.py:205-206 `get_equatorial_horizontal_parallax`. -/
def get_equatorial_horizontal_parallax (B : Backend) (sun_earth_distance : B.α) : Py B.α := do
  B.div 8.794 (← B.div 3600 sun_earth_distance)

/-- solar.py:208-210 `get_flattened_latitude`. -/
def get_flattened_latitude (B : Backend) (latitude : B.α) : Py B.α := do
  let latitude_rad := B.radians latitude
  return B.degrees (← B.atan (0.99664719 * (← B.tan latitude_rad)))

/-- solar.py:243-244 `get_heliocentric_latitude`. -/
def get_heliocentric_latitude (B : Backend) (jme : B.α) : Py B.α := do
  return B.degrees ((← get_coeff B jme heliocentric_latitude_coeffs) /. 1e8)

/-- solar.py:246-247 `get_heliocentric_longitude`. -/
def get_heliocentric_longitude (B : Backend) (jme : B.α) : Py B.α := do
  return B.degrees ((← get_coeff B jme heliocentric_longitude_coeffs) /. 1e8) %. 360

/-- solar.py:214-215 `get_geocentric_latitude`. -/
def get_geocentric_latitude (B : Backend) (jme : B.α) : Py B.α := do
  return -1 * (← get_heliocentric_latitude B jme)

/-- solar.py:217-218 `get_geocentric_longitude`. -/
def get_geocentric_longitude (B : Backend) (jme : B.α) : Py B.α := do
  return ((← get_heliocentric_longitude B jme) + 180) %. 360

/-- solar.py:220-228 `get_geocentric_sun_declination`. -/
def get_geocentric_sun_declination (B : Backend)
    (apparent_sun_longitude true_ecliptic_obliquity geocentric_latitude : B.α) : Py B.α := do
  let apparent_sun_longitude_rad := B.radians apparent_sun_longitude
  let true_ecliptic_obliquity_rad := B.radians true_ecliptic_obliquity
  let geocentric_latitude_rad := B.radians geocentric_latitude
  let a := (← B.sin geocentric_latitude_rad) * (← B.cos true_ecliptic_obliquity_rad)
  let b := (← B.cos geocentric_latitude_rad) * (← B.sin true_ecliptic_obliquity_rad)
    * (← B.sin apparent_sun_longitude_rad)
  let delta ← B.asin (a + b)
  return B.degrees delta

/-- solar.py:230-239 `get_geocentric_sun_right_ascension`. -/
def get_geocentric_sun_right_ascension (B : Backend)
    (apparent_sun_longitude true_ecliptic_obliquity geocentric_latitude : B.α) : Py B.α := do
  let apparent_sun_longitude_rad := B.radians apparent_sun_longitude
  let true_ecliptic_obliquity_rad := B.radians true_ecliptic_obliquity
  let geocentric_latitude_rad := B.radians geocentric_latitude
  let a := (← B.sin apparent_sun_longitude_rad) * (← B.cos true_ecliptic_obliquity_rad)
  let b := (← B.tan geocentric_latitude_rad) * (← B.sin true_ecliptic_obliquity_rad)
  let c ← B.cos apparent_sun_longitude_rad
  let alpha ← B.atan2 (a - b) c
  return B.degrees alpha %. 360

/-- solar.py:261-262 `get_local_hour_angle`. -/
def get_local_hour_angle (B : Backend)
    (apparent_sidereal_time longitude geocentric_sun_right_ascension : B.α) : B.α :=
  (apparent_sidereal_time + longitude - geocentric_sun_right_ascension) %. 360

/-- solar.py:264-268 `get_mean_sidereal_time`. -/
def get_mean_sidereal_time (B : Backend) (jd : B.α) : B.α :=
  let jc := get_julian_century B jd
  let sidereal_time := 280.46061837 + (360.98564736629 * (jd - 2451545.0))
    + 0.000387933 * jc * jc * (1 - jc /. 38710000)
  sidereal_time %. 360

/-- The dictionary returned by `get_nutation` (solar.py:297). -/
structure Nutation (B : Backend) where
  longitude : B.α
  obliquity : B.α

/-- solar.py:278-285: the order in which the polynomials are evaluated. -/
def nutationArgs : List String :=
  ["MeanElongationOfMoon", "MeanAnomalyOfSun", "MeanAnomalyOfMoon", "ArgumentOfLatitudeOfMoon",
   "LongitudeOfAscendingNode"]

/-- solar.py:289-292: `sigmaxy`, the loop over `j in range(len(x))` from the running value. -/
def sigmaxyLoop (B : Backend) (x : List B.α) (yi : List ℚ) : B.α → List ℕ → Py B.α
  | s, [] => .ok s
  | s, j :: js => do
    let xj ← pyIndex x j
    let yij ← pyIndex yi j
    sigmaxyLoop B x yi (s + xj * B.lit yij) js

/-- solar.py:288-294: the loop over `i in range(len(abcd))`, returning the two lists of terms. -/
def nutationLoop (B : Backend) (jce : B.α) (abcd : List (ℚ × ℚ × ℚ × ℚ)) (x : List B.α)
    (y : List (List ℚ)) : List ℕ → Py (List B.α × List B.α)
  | [] => .ok ([], [])
  | i :: is => do
    let yi ← pyIndex y i
    let sigmaxy ← sigmaxyLoop B x yi 0.0 (List.range x.length)
    let abcdi ← pyIndex abcd i
    let long := (B.lit abcdi.1 + (B.lit abcdi.2.1 * jce)) * (← B.sin (B.radians sigmaxy))
    let oblique := (B.lit abcdi.2.2.1 + (B.lit abcdi.2.2.2 * jce)) * (← B.cos (B.radians sigmaxy))
    let rest ← nutationLoop B jce abcd x y is
    return (long :: rest.1, oblique :: rest.2)

/-- Python's `sum`: `0 + x₀ + x₁ + ...`. -/
def pySum (B : Backend) (xs : List B.α) : B.α := xs.foldl (fun s x => s + x) 0

/-- solar.py:275-286: the five fundamental arguments. -/
def nutationX (B : Backend) (p : AberrationDict B) (jce : B.α) : List String → Py (List B.α)
  | [] => .ok []
  | k :: ks => do
    let f ← pyLookup p k
    let rest ← nutationX B p jce ks
    return f jce :: rest

/-- solar.py:270-300 `get_nutation`. The polynomial dictionary is the one returned by
`get_aberration_coeffs()` on an empty cache; property C60 shows that the cache is transparent. -/
def get_nutation (B : Backend) (jce : B.α) : Py (Nutation B) := do
  let abcd := nutation_coefficients
  let p := (get_aberration_coeffs B (aberration_coeffs0 B)).1
  let x ← nutationX B p jce nutationArgs
  let y := aberration_sin_terms
  let terms ← nutationLoop B jce abcd x y (List.range abcd.length)
  return ⟨pySum B terms.1 /. 36000000.0, pySum B terms.2 /. 36000000.0⟩

/-- solar.py:302-310 `get_parallax_sun_right_ascension`. -/
def get_parallax_sun_right_ascension (B : Backend)
    (projected_radial_distance equatorial_horizontal_parallax local_hour_angle
      geocentric_sun_declination : B.α) : Py B.α := do
  let prd := projected_radial_distance
  let ehp_rad := B.radians equatorial_horizontal_parallax
  let lha_rad := B.radians local_hour_angle
  let gsd_rad := B.radians geocentric_sun_declination
  let a := -1 * prd * (← B.sin ehp_rad) * (← B.sin lha_rad)
  let b := (← B.cos gsd_rad) - prd * (← B.sin ehp_rad) * (← B.cos lha_rad)
  let parallax ← B.atan2 a b
  return B.degrees parallax

/-- solar.py:312-315 `get_projected_radial_distance`. -/
def get_projected_radial_distance (B : Backend) (elevation latitude : B.α) : Py B.α := do
  let flattened_latitude_rad := B.radians (← get_flattened_latitude B latitude)
  let latitude_rad := B.radians latitude
  return (← B.cos flattened_latitude_rad) + (elevation * (← B.cos latitude_rad) /. earth_radius)

/-- solar.py:317-320 `get_projected_axial_distance`. -/
def get_projected_axial_distance (B : Backend) (elevation latitude : B.α) : Py B.α := do
  let flattened_latitude_rad := B.radians (← get_flattened_latitude B latitude)
  let latitude_rad := B.radians latitude
  return 0.99664719 * (← B.sin flattened_latitude_rad)
    + (elevation * (← B.sin latitude_rad) /. earth_radius)

/-- solar.py:322-323 `get_sun_earth_distance`. -/
def get_sun_earth_distance (B : Backend) (jme : B.α) : Py B.α := do
  return (← get_coeff B jme sun_earth_distance_coeffs) /. 1e8

/-- solar.py:325-344 `get_refraction_correction`. Both arguments of `where` are evaluated first. -/
def get_refraction_correction (B : Backend)
    (pressure temperature topocentric_elevation_angle : B.α) : Py B.α := do
  let sun_radius : B.α := 0.26667
  let atmos_refract : B.α := 0.5667
  let tea := topocentric_elevation_angle
  let a := pressure * 2.830 * 1.02
  let b := 1010.0 * temperature * 60.0 * (← B.tan (B.radians (tea + (← B.div 10.3 (tea + 5.11)))))
  return B.where_ (B.le (-1.0 * (sun_radius + atmos_refract)) tea) (← B.div a b) 0.0

/-- solar.py:398-403 `get_true_ecliptic_obliquity`. -/
def get_true_ecliptic_obliquity (B : Backend) (jme : B.α) (nutation : Nutation B) : B.α :=
  let u := jme /. 10.0
  let mean_obliquity := 84381.448 - (4680.93 * u) - (1.55 * u ^ 2) + (1999.25 * u ^ 3)
    - (51.38 * u ^ 4) - (249.67 * u ^ 5) - (39.05 * u ^ 6) + (7.12 * u ^ 7)
    + (27.87 * u ^ 8) + (5.79 * u ^ 9) + (2.45 * u ^ 10)
  (mean_obliquity /. 3600.0) + nutation.obliquity

/-- solar.py:145-146 `get_apparent_sidereal_time`. (The obliquity, in degrees, is passed to `cos`
without conversion to radians: this is what the code does.) -/
def get_apparent_sidereal_time (B : Backend) (jd jme : B.α) (nutation : Nutation B) : Py B.α := do
  return get_mean_sidereal_time B jd
    + nutation.longitude * (← B.cos (get_true_ecliptic_obliquity B jme nutation))

/-- solar.py:149-150 `get_apparent_sun_longitude`. -/
def get_apparent_sun_longitude (B : Backend) (geocentric_longitude : B.α) (nutation : Nutation B)
    (ab_correction : B.α) : B.α :=
  geocentric_longitude + nutation.longitude + ab_correction

/-- solar.py:359-366 `get_topocentric_azimuth_angle`. -/
def get_topocentric_azimuth_angle (B : Backend)
    (topocentric_local_hour_angle latitude topocentric_sun_declination : B.α) : Py B.α := do
  let tlha_rad := B.radians topocentric_local_hour_angle
  let latitude_rad := B.radians latitude
  let tsd_rad := B.radians topocentric_sun_declination
  let a ← B.sin tlha_rad
  let b := (← B.cos tlha_rad) * (← B.sin latitude_rad) - (← B.tan tsd_rad) * (← B.cos latitude_rad)
  return (180.0 + B.degrees (← B.atan2 a b)) %. 360

/-- solar.py:368-372 `get_topocentric_elevation_angle`. -/
def get_topocentric_elevation_angle (B : Backend)
    (latitude topocentric_sun_declination topocentric_local_hour_angle : B.α) : Py B.α := do
  let latitude_rad := B.radians latitude
  let tsd_rad := B.radians topocentric_sun_declination
  let tlha_rad := B.radians topocentric_local_hour_angle
  return B.degrees (← B.asin (((← B.sin latitude_rad) * (← B.sin tsd_rad))
    + (← B.cos latitude_rad) * (← B.cos tsd_rad) * (← B.cos tlha_rad)))

/-- solar.py:374-375 `get_topocentric_local_hour_angle`. -/
def get_topocentric_local_hour_angle (B : Backend)
    (local_hour_angle parallax_sun_right_ascension : B.α) : B.α :=
  local_hour_angle - parallax_sun_right_ascension

/-- solar.py:377-385 `get_topocentric_sun_declination`. -/
def get_topocentric_sun_declination (B : Backend)
    (geocentric_sun_declination projected_axial_distance equatorial_horizontal_parallax
      parallax_sun_right_ascension local_hour_angle : B.α) : Py B.α := do
  let gsd_rad := B.radians geocentric_sun_declination
  let pad := projected_axial_distance
  let ehp_rad := B.radians equatorial_horizontal_parallax
  let psra_rad := B.radians parallax_sun_right_ascension
  let lha_rad := B.radians local_hour_angle
  let a := ((← B.sin gsd_rad) - pad * (← B.sin ehp_rad)) * (← B.cos psra_rad)
  let b := (← B.cos gsd_rad) - (pad * (← B.sin ehp_rad) * (← B.cos lha_rad))
  return B.degrees (← B.atan2 a b)

/-- solar.py:387-392 `get_topocentric_sun_right_ascension`. -/
def get_topocentric_sun_right_ascension (B : Backend)
    (projected_radial_distance equatorial_horizontal_parallax local_hour_angle
      apparent_sun_longitude true_ecliptic_obliquity geocentric_latitude : B.α) : Py B.α := do
  let gsd ← get_geocentric_sun_declination B apparent_sun_longitude true_ecliptic_obliquity
    geocentric_latitude
  let psra ← get_parallax_sun_right_ascension B projected_radial_distance
    equatorial_horizontal_parallax local_hour_angle gsd
  let gsra ← get_geocentric_sun_right_ascension B apparent_sun_longitude true_ecliptic_obliquity
    geocentric_latitude
  return psra + gsra

/-- solar.py:394-396 `get_topocentric_zenith_angle`. -/
def get_topocentric_zenith_angle (B : Backend)
    (latitude topocentric_sun_declination topocentric_local_hour_angle pressure temperature : B.α) :
    Py B.α := do
  let tea ← get_topocentric_elevation_angle B latitude topocentric_sun_declination
    topocentric_local_hour_angle
  return 90 - tea - (← get_refraction_correction B pressure temperature tea)

/-- solar.py:254-259 `get_incidence_angle`. -/
def get_incidence_angle (B : Backend)
    (topocentric_zenith_angle slope slope_orientation topocentric_azimuth_angle : B.α) : Py B.α := do
  let tza_rad := B.radians topocentric_zenith_angle
  let slope_rad := B.radians slope
  let so_rad := B.radians slope_orientation
  let taa_rad := B.radians topocentric_azimuth_angle
  return B.degrees (← B.acos ((← B.cos tza_rad) * (← B.cos slope_rad)
    + (← B.sin slope_rad) * (← B.sin tza_rad) * (← B.cos (taa_rad - B.pi - so_rad))))

/-- solar.py:346-355 `get_solar_time`. -/
def get_solar_time (B : Backend) (longitude_deg : B.α) (w : When B) : Py B.α := do
  guard w
  return ((← tm_hour B w) * 60 + (← tm_min B w) + 4 * longitude_deg
    + (← equation_of_time B (← tm_yday B w))) /. 60

/-- solar.py:249-252 `get_hour_angle`. -/
def get_hour_angle (B : Backend) (w : When B) (longitude_deg : B.α) : Py B.α := do
  guard w
  let solar_time ← get_solar_time B longitude_deg w
  return 15.0 * (solar_time - 12.0)

/-- solar.py:133-142 `get_altitude_fast`. -/
def get_altitude_fast (B : Backend) (latitude_deg longitude_deg : B.α) (w : When B) : Py B.α := do
  guard w
  let day ← tm_yday B w
  let declination_rad := B.radians (← get_declination B day)
  let latitude_rad := B.radians latitude_deg
  let hour_angle ← get_hour_angle B w longitude_deg
  let first_term := (← B.cos latitude_rad) * (← B.cos declination_rad)
    * (← B.cos (B.radians hour_angle))
  let second_term := (← B.sin latitude_rad) * (← B.sin declination_rad)
  return B.degrees (← B.asin (first_term + second_term))

/-- solar.py:165-178 `get_azimuth_fast` (no decorator). -/
def get_azimuth_fast (B : Backend) (latitude_deg longitude_deg : B.α) (w : When B) : Py B.α := do
  let day ← tm_yday B w
  let declination_rad := B.radians (← get_declination B day)
  let latitude_rad := B.radians latitude_deg
  let hour_angle_rad := B.radians (← get_hour_angle B w longitude_deg)
  let altitude_rad := B.radians (← get_altitude_fast B latitude_deg longitude_deg w)
  let azimuth_rad ← B.asin (← B.div (-(← B.cos declination_rad) * (← B.sin hour_angle_rad))
    (← B.cos altitude_rad))
  return B.where_
    (B.le (← B.tan declination_rad) ((← B.cos hour_angle_rad) * (← B.tan latitude_rad)))
    (180 - B.degrees azimuth_rad)
    (B.degrees azimuth_rad + 360 * B.ofC (B.lt azimuth_rad 0))

/-- solar.py:56-86 `get_topocentric_position`. -/
def get_topocentric_position (B : Backend) (latitude_deg longitude_deg : B.α) (w : When B)
    (elevation : B.α := 0) : Py (B.α × B.α) := do
  guard w
  let projected_radial_distance ← get_projected_radial_distance B elevation latitude_deg
  let projected_axial_distance ← get_projected_axial_distance B elevation latitude_deg
  let jd ← get_julian_solar_day B w
  let jde ← get_julian_ephemeris_day B w
  let jce := get_julian_ephemeris_century B jde
  let jme := get_julian_ephemeris_millennium B jce
  let geocentric_latitude ← get_geocentric_latitude B jme
  let geocentric_longitude ← get_geocentric_longitude B jme
  let sun_earth_distance ← get_sun_earth_distance B jme
  let aberration_correction ← get_aberration_correction B sun_earth_distance
  let equatorial_horizontal_parallax ← get_equatorial_horizontal_parallax B sun_earth_distance
  let nutation ← get_nutation B jce
  let apparent_sidereal_time ← get_apparent_sidereal_time B jd jme nutation
  let true_ecliptic_obliquity := get_true_ecliptic_obliquity B jme nutation
  let apparent_sun_longitude := get_apparent_sun_longitude B geocentric_longitude nutation
    aberration_correction
  let geocentric_sun_right_ascension ← get_geocentric_sun_right_ascension B apparent_sun_longitude
    true_ecliptic_obliquity geocentric_latitude
  let geocentric_sun_declination ← get_geocentric_sun_declination B apparent_sun_longitude
    true_ecliptic_obliquity geocentric_latitude
  let local_hour_angle := get_local_hour_angle B apparent_sidereal_time longitude_deg
    geocentric_sun_right_ascension
  let parallax_sun_right_ascension ← get_parallax_sun_right_ascension B projected_radial_distance
    equatorial_horizontal_parallax local_hour_angle geocentric_sun_declination
  let topocentric_local_hour_angle := get_topocentric_local_hour_angle B local_hour_angle
    parallax_sun_right_ascension
  let topocentric_sun_declination ← get_topocentric_sun_declination B geocentric_sun_declination
    projected_axial_distance equatorial_horizontal_parallax parallax_sun_right_ascension
    local_hour_angle
  return (topocentric_sun_declination, topocentric_local_hour_angle)

/-- solar.py:89-116 `get_position`. -/
def get_position (B : Backend) (latitude_deg longitude_deg : B.α) (w : When B)
    (elevation : B.α := 0) (temperature : B.α := B.lit standard_temperature)
    (pressure : B.α := B.lit standard_pressure) : Py (B.α × B.α) := do
  guard w
  let (topocentric_sun_declination, topocentric_local_hour_angle) ←
    get_topocentric_position B latitude_deg longitude_deg w elevation
  let topocentric_elevation_angle ← get_topocentric_elevation_angle B latitude_deg
    topocentric_sun_declination topocentric_local_hour_angle
  let refraction_correction ← get_refraction_correction B pressure temperature
    topocentric_elevation_angle
  let altitude_deg := topocentric_elevation_angle + refraction_correction
  let azimuth_deg ← get_topocentric_azimuth_angle B topocentric_local_hour_angle latitude_deg
    topocentric_sun_declination
  return (azimuth_deg, altitude_deg)

/-- solar.py:119-130 `get_altitude`. -/
def get_altitude (B : Backend) (latitude_deg longitude_deg : B.α) (w : When B)
    (elevation : B.α := 0) (temperature : B.α := B.lit standard_temperature)
    (pressure : B.α := B.lit standard_pressure) : Py B.α := do
  guard w
  let (topocentric_sun_declination, topocentric_local_hour_angle) ←
    get_topocentric_position B latitude_deg longitude_deg w elevation
  let topocentric_elevation_angle ← get_topocentric_elevation_angle B latitude_deg
    topocentric_sun_declination topocentric_local_hour_angle
  let refraction_correction ← get_refraction_correction B pressure temperature
    topocentric_elevation_angle
  return topocentric_elevation_angle + refraction_correction

/-- solar.py:153-162 `get_azimuth`. -/
def get_azimuth (B : Backend) (latitude_deg longitude_deg : B.α) (w : When B)
    (elevation : B.α := 0) : Py B.α := do
  guard w
  let (topocentric_sun_declination, topocentric_local_hour_angle) ←
    get_topocentric_position B latitude_deg longitude_deg w elevation
  get_topocentric_azimuth_angle B topocentric_local_hour_angle latitude_deg
    topocentric_sun_declination

end Pysolar.Solar
