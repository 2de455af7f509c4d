import Verif.Spec.Series
import Verif.Spec.SpaTables

/-!
# Specification of the topocentric direction of the sun (C71)

A computation by vectors, from the published periodic series (Reda & Andreas 2008): no parallax formulas and no
inverse trigonometric functions.
-/

namespace Verif.Spec

noncomputable section

/-- Difference and multiple of vectors. -/
def Vec3.sub (u v : Vec3) : Vec3 := ⟨u.x - v.x, u.y - v.y, u.z - v.z⟩
def Vec3.smul (k : ℝ) (v : Vec3) : Vec3 := ⟨k * v.x, k * v.y, k * v.z⟩

/-- Angle between two vectors, in degrees. -/
def angleBetween (u v : Vec3) : ℝ := deg (Real.arccos (u.dot v / (√(u.dot u) * √(v.dot v))))

/-- From the equatorial frame (x: equinox, z: north pole) to the frame of the local meridian
(x: meridian, y: west, z: north pole) at local sidereal time `t`. -/
def toMeridian (t : ℝ) (v : Vec3) : Vec3 :=
  ⟨Real.cos (rad t) * v.x + Real.sin (rad t) * v.y, Real.sin (rad t) * v.x - Real.cos (rad t) * v.y, v.z⟩

/-- Position of the observer in the frame of the local meridian, in equatorial earth radii of 6378140 m:
geodetic latitude `lat` on the ellipsoid with axis ratio 0.99664719, `elev` metres above it. -/
def observer (lat elev : ℝ) : Vec3 :=
  let N := √(Real.cos (rad lat) ^ 2 + 0.99664719 ^ 2 * Real.sin (rad lat) ^ 2)
  ⟨Real.cos (rad lat) / N + elev / 6378140 * Real.cos (rad lat), 0,
    0.99664719 ^ 2 * Real.sin (rad lat) / N + elev / 6378140 * Real.sin (rad lat)⟩

/-- Mean obliquity in arc seconds, `u` in units of 10000 years. -/
def meanObliquity (u : ℝ) : ℝ :=
  84381.448 - 4680.93 * u - 1.55 * u ^ 2 + 1999.25 * u ^ 3 - 51.38 * u ^ 4 - 249.67 * u ^ 5
    - 39.05 * u ^ 6 + 7.12 * u ^ 7 + 27.87 * u ^ 8 + 5.79 * u ^ 9 + 2.45 * u ^ 10

/-- Mean sidereal time at Greenwich in degrees. -/
def greenwichMeanSidereal (jd : ℝ) : ℝ :=
  let jc := (jd - 2451545) / 36525
  280.46061837 + 360.98564736629 * (jd - 2451545) + 0.000387933 * jc ^ 2 - jc ^ 3 / 38710000

/-- Vector from the observer to the sun, in units of the sun's distance: east, north and up. `jd` and `jde`
are the Julian day (UT) and the Julian ephemeris day. -/
def sunDirection (lat lon elev jd jde : ℝ) : Vec3 :=
  let T := (jde - 2451545) / 36525
  let t := T / 10
  let earthLon := deg (vsop t Spa.longitude / 10 ^ 8)
  let earthLat := deg (vsop t Spa.latitude / 10 ^ 8)
  let R := vsop t Spa.radius / 10 ^ 8
  let dpsi := nutationLongitude T Spa.nutation Spa.multiples
  let deps := nutationObliquity T Spa.nutation Spa.multiples
  let eps := meanObliquity (t / 10) / 3600 + deps
  let sun := rotX eps (sph (earthLon + 180 + dpsi - 20.4898 / 3600 / R) (-earthLat))
  let sidereal := greenwichMeanSidereal jd + dpsi * Real.cos (rad eps)
  toHorizon lat ((toMeridian (sidereal + lon) sun).sub
    ((observer lat elev).smul (Real.sin (rad (8.794 / 3600)) / R)))

end

end Verif.Spec
