import Verif.Py.Backend
import Verif.Model.Tables

/-!
# Model of the scalar constants and the polynomial cache of pysolar/constants.py

The long tables are in `Verif/Model/Tables.lean`.
-/

open Verif

namespace Pysolar.Constants

/-- constants.py:67. -/
def earth_radius : ℚ := 6378140.0
/-- constants.py:68. -/
def earth_axis_inclination : ℚ := 23.45
/-- constants.py:69. -/
def seconds_per_day : ℤ := 86400
/-- constants.py:71. -/
def standard_pressure : ℚ := 101325.00
/-- constants.py:72. -/
def standard_temperature : ℚ := 288.15
/-- constants.py:73. -/
def celsius_offset : ℚ := 273.15
/-- constants.py:74. -/
def earth_temperature_lapse_rate : ℚ := -0.0065
/-- constants.py:75. -/
def air_gas_constant : ℚ := 8.31432
/-- constants.py:76. -/
def earth_gravity : ℚ := 9.80665
/-- constants.py:77. -/
def earth_atmosphere_molar_mass : ℚ := 0.0289644

/-- constants.py:52: `lambda a, b, c, d: lambda x: a + b * x + c * x ** 2 + (x ** 3) / d`. -/
def aberrationPoly (B : Backend) (a b c d : ℚ) (x : B.α) : B.α :=
  B.lit a + B.lit b * x + B.lit c * x ^ 2 + (x ^ 3) /. d

/-- constants.py:54-60: the names and coefficients. -/
def aberrationRows : List (String × (ℚ × ℚ × ℚ × ℚ)) :=
  [("ArgumentOfLatitudeOfMoon", (93.27191, 483202.017538, -0.0036825, 327270.0)),
   ("LongitudeOfAscendingNode", (125.04452, -1934.136261, 0.0020708, 450000.0)),
   ("MeanElongationOfMoon", (297.85036, 445267.111480, -0.0019142, 189474.0)),
   ("MeanAnomalyOfMoon", (134.96298, 477198.867398, 0.0086972, 56250.0)),
   ("MeanAnomalyOfSun", (357.52772, 35999.050340, -0.0001603, -300000.0))]

/-- The dictionary built by constants.py:50-61. -/
abbrev AberrationDict (B : Backend) := List (String × (B.α → B.α))

/-- constants.py:50-61. -/
def buildAberrationDict (B : Backend) : AberrationDict B :=
  aberrationRows.map fun (name, (a, b, c, d)) => (name, aberrationPoly B a b c d)

/-- constants.py:41,43-65 `get_aberration_coeffs`: the argument is the value of the global
`aberration_coeffs` before the call; returns the result and its value after the call. -/
def get_aberration_coeffs (B : Backend) (cache : Option (AberrationDict B)) :
    AberrationDict B × Option (AberrationDict B) :=
  match cache with
  | none => (buildAberrationDict B, some (buildAberrationDict B))
  | some d => (d, some d)

/-- constants.py:41: the initial value of the global. -/
def aberration_coeffs0 (B : Backend) : Option (AberrationDict B) := none

end Pysolar.Constants
