import Verif.Spec.Geometry
import Verif.Py.DateTime

/-!
# Specification of sunrise, transit and sunset
-/

namespace Verif.Spec

open Real

noncomputable section

/-- Sum of a Fourier series with cosine coefficients `a` and sine coefficients `b` (harmonics 1, 2, ...). -/
def fourier (c : ℝ) (a b : List ℝ) (x : ℝ) : ℝ :=
  c + ((a.zipIdx 1).map fun p => p.1 * cos (p.2 * x)).sum + ((b.zipIdx 1).map fun p => p.1 * sin (p.2 * x)).sum

/-- Declination in degrees on day `n` of the year (Bourges' series). -/
def sunriseDeclination (n : ℝ) : ℝ :=
  fourier 0.322003 [-22.971, -0.357898, -0.14398] [3.94638, 0.019334, 0.05928] (2 * π * n / 366)

/-- Equation of time in hours on day `n` of the year. -/
def equationOfTime (n : ℝ) : ℝ :=
  fourier 5.0323 [-430.847, 12.5024, 18.25] [-100.976, 595.275, 3.6858, -12.47] (rad (279.134 + 0.985647 * n))
    / 3600

/-- Clock hour of solar noon: longitude `lon` in degrees, clock `off` seconds ahead of UTC, day `n`. -/
def noonHour (off lon n : ℝ) : ℝ := 12 + off / 3600 - lon / 15 - equationOfTime n

/-- The hour angles (degrees) at which a sun of declination `dec` stands 0.833 degrees below the horizon. -/
def OnHorizon (lat dec H : ℝ) : Prop := (sunENU lat H dec).z = sin (rad (-0.833))

/-- Microseconds of a time given in hours. -/
def hourMicros (x : ℝ) : ℝ := x * 3600000000

end

end Verif.Spec
