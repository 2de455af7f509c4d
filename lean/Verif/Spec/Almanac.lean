import Verif.Spec.SunDirection
import Verif.Py.DateTime

/-!
# The Astronomical Almanac's algorithm for the approximate position of the sun (C108, C109)

Low-precision formulas of the Astronomical Almanac, page C24, good to 0.01 degrees in the years 1950 to 2050; with
sidereal time as in J. Michalsky, "The Astronomical Almanac's algorithm for approximate solar position (1950-2050)",
Solar Energy 40 (1988). Independent of the periodic series used by pysolar. Degrees; distance in astronomical units.
-/

namespace Verif.Spec

open Verif

noncomputable section

/-- Days from 2000 January 1, 12 h UTC. -/
def daysJ2000 (c : Civil) : ℝ := ((c.micros - (⟨2000, 1, 1, 12, 0, 0, 0⟩ : Civil).micros : ℤ) : ℝ) / 86400000000

/-- Time of the day in hours. -/
def hoursUT (c : Civil) : ℝ := c.hour + c.minute / 60 + c.second / 3600 + c.micro / 3600000000

/-- Mean anomaly. -/
def almAnomaly (n : ℝ) : ℝ := 357.528 + 0.9856003 * n

/-- Ecliptic longitude of the sun; its ecliptic latitude is taken as 0. -/
def almLongitude (n : ℝ) : ℝ :=
  280.460 + 0.9856474 * n + 1.915 * Real.sin (rad (almAnomaly n)) + 0.020 * Real.sin (rad (2 * almAnomaly n))

/-- Obliquity of the ecliptic. -/
def almObliquity (n : ℝ) : ℝ := 23.439 - 0.0000004 * n

/-- Distance of the sun. -/
def almDistance (n : ℝ) : ℝ :=
  1.00014 - 0.01671 * Real.cos (rad (almAnomaly n)) - 0.00014 * Real.cos (rad (2 * almAnomaly n))

/-- Mean sidereal time at Greenwich. -/
def almSidereal (c : Civil) : ℝ := 15 * (6.697375 + 0.0657098242 * daysJ2000 c + hoursUT c)

/-- East, north, up components of the direction of the sun at latitude `lat` and longitude `lon` (east). -/
def almanacSun (lat lon : ℝ) (c : Civil) : Vec3 :=
  toHorizon lat (toMeridian (almSidereal c + lon)
    (rotX (almObliquity (daysJ2000 c)) (sph (almLongitude (daysJ2000 c)) 0)))

end

end Verif.Spec
