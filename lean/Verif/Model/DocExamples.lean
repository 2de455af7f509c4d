import Verif.Model.Radiation
import Verif.Model.UnitTests

/-!
# The examples of the documentation

The three calls of doc/index.rst with the result printed there, as comparisons like those of the unit tests.
-/

open Verif

namespace Pysolar.DocExamples

open Pysolar.Solar Pysolar.UnitTests

/-- doc/index.rst:68, 88 and 104: the date of the examples. -/
def date : DateTime := ⟨⟨2007, 2, 18, 15, 13, 1, 130320⟩, false, some utcTz⟩

/-- doc/index.rst:60-111: `get_altitude`, `get_azimuth` and `get_radiation_direct` of that altitude. -/
def examples (B : Backend) (tol : ℚ) : Py (List (Check B)) := do
  let w : When B := .dt date
  let al ← get_altitude B (B.lit 42.206) (B.lit (-71.382)) w
  let az ← get_azimuth B (B.lit 42.206) (B.lit (-71.382)) w
  let rd ← Radiation.get_radiation_direct B w al
  return [
    ⟨"altitude", al, B.lit 30.91446827139096, tol⟩,
    ⟨"azimuth", az, B.lit 149.24819184280483, tol⟩,
    ⟨"radiation", rd, B.lit 909.582292149944, tol⟩]

end Pysolar.DocExamples
