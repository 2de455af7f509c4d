import Verif.Model.Elevation

/-!
# Model of `elevation_test` (pysolar/elevation.py:68-77)
-/

open Verif

namespace Pysolar.Elevation

/-- The lines printed by a run, and the exception that ends it, if any. -/
structure TestRun where
  printed : List String
  err : Option PyErr

/-- elevation.py:75: `"%i %i %i" % (h, P, T)`, with the integers to which `P` and `T` are converted. -/
def elevationLine (h P T : ℤ) : String := toString h ++ " " ++ toString P ++ " " ++ toString T

/-- elevation.py:73-75: one pass of the loop. `toInt` is the conversion of a float by `%i`. -/
def elevationTestStep (B : Backend) (toInt : B.α → Py ℤ) (h : ℤ) : Py String := do
  let P ← get_pressure_with_elevation B (B.lit h)
  let T := get_temperature_with_elevation B (B.lit h)
  return elevationLine h (← toInt P) (← toInt T)

/-- What a pass printed, followed by the rest of the run. -/
def TestRun.andThen (step : Py String) (rest : TestRun) : TestRun :=
  match step with
  | .error e => ⟨[], some e⟩
  | .ok line => ⟨line :: rest.printed, rest.err⟩

/-- elevation.py:72-76: the loop, with `n` passes left. -/
def elevationTestLoop (B : Backend) (toInt : B.α → Py ℤ) : ℕ → ℤ → TestRun
  | 0, _ => ⟨[], none⟩
  | n + 1, h => TestRun.andThen (elevationTestStep B toInt h) (elevationTestLoop B toInt n (h + 1000))

/-- elevation.py:68-77 `elevation_test`. -/
def elevation_test (B : Backend) (toInt : B.α → Py ℤ) : TestRun :=
  TestRun.andThen (.ok "Elevation(m) Pressure(Pa) Temperature(K)") (elevationTestLoop B toInt 11 0)

end Pysolar.Elevation
