import Verif.Model.Util
import Verif.Model.Radiation
import Verif.Model.Elevation
import Verif.Model.Rest
import Verif.Model.Simulate
import Verif.Model.DeltaTGen

/-!
# Fidelity check of the model against the project's own expected values (a test, not a proof)

The model is written over an arbitrary backend, so it can be run on machine floats. The guards below
compare the run with values asserted in /repo/test and quoted in /repo/doc.
-/

open Verif

namespace Pysolar.Check

def ratToFloat (q : ℚ) : Float := Float.ofInt q.num / Float.ofNat q.den

def pyMod (x y : Float) : Float := x - y * (x / y).floor

def fpi : Float := 3.141592653589793

def roundHalfEven (x : Float) : ℤ :=
  let f := x.floor
  let r := x - f
  let n : ℤ := if f < 0 then -((-f).toUInt64.toNat : ℤ) else (f.toUInt64.toNat : ℤ)
  if r < 0.5 then n else if r > 0.5 then n + 1 else if n % 2 = 0 then n else n + 1

/-- Machine floats with the `math` module. -/
def floatB : Backend where
  α := Float
  C := Bool
  T := Empty
  lit := ratToFloat
  pi := fpi
  e := Float.exp 1
  inf := 1.0 / 0.0
  add := (· + ·)
  sub := (· - ·)
  mul := (· * ·)
  neg := (- ·)
  divq x q := x / ratToFloat q
  modq x q := pyMod x (ratToFloat q)
  powN x n := x.pow (Float.ofNat n)
  div x y := if y == 0 then .error .zeroDivision else .ok (x / y)
  rpow x y := .ok (x.pow y)
  sin x := .ok x.sin
  cos x := .ok x.cos
  tan x := .ok x.tan
  asin x := if x > 1 || x < -1 then .error .valueError else .ok x.asin
  acos x := if x > 1 || x < -1 then .error .valueError else .ok x.acos
  atan x := .ok x.atan
  atan2 y x := .ok (Float.atan2 y x)
  exp x := .ok x.exp
  radians x := x * (fpi / 180)
  degrees x := x * (180 / fpi)
  lt x y := x < y
  le x y := x ≤ y
  where_ c x y := if c then x else y
  ofC c := if c then 1 else 0
  truth c := .ok c
  tdHours x := .ok (roundHalfEven (x * 3600000000))
  round x := .ok (roundHalfEven x)
  npTime := false
  arrYday := Empty.elim
  arrHour := Empty.elim
  arrMin := Empty.elim

def near (r : Py Float) (x tol : Float) : Bool :=
  match r with
  | .ok y => (y - x).abs ≤ tol
  | .error _ => false

def utc (y m d h mi s us : ℤ) : DateTime := ⟨⟨y, m, d, h, mi, s, us⟩, false, some utcTz⟩

/-- doc/index.rst example: Boston, 2007-02-18 15:13:01.130320 UTC. -/
def boston : When floatB := .dt (utc 2007 2 18 15 13 1 130320)

end Pysolar.Check

open Pysolar Pysolar.Check

-- doc/index.rst: altitude, azimuth, direct radiation
#guard near (Solar.get_altitude floatB (42.206 : Float) (-71.382 : Float) boston) 30.91446827139096 1e-6
#guard near (Solar.get_azimuth floatB (42.206 : Float) (-71.382 : Float) boston) 149.24819184280483 1e-6
#guard near (do
  let alt ← Solar.get_altitude floatB (42.206 : Float) (-71.382 : Float) boston
  Radiation.get_radiation_direct floatB boston alt) 909.582292149944 1e-5

/-- test/test_solar.py:158. -/
def testWhen : When floatB := .dt (utc 2016 12 19 23 0 0 0)

def nearPair (r : Py (Float × Float)) (x y tol : Float) : Bool :=
  match r with
  | .ok (a, b) => (a - x).abs ≤ tol && (b - y).abs ≤ tol
  | .error _ => false

-- test/test_solar.py:160-172
#guard nearPair (Solar.get_position floatB (59.6365662 : Float) (12.5350953 : Float) testWhen)
  357.1431414 (-53.7672217) 1e-6
#guard nearPair (Solar.get_position floatB (-43 : Float) (172 : Float) testWhen)
  50.50035708 63.0922036 1e-6
#guard nearPair (Solar.get_position floatB (51.4826 : Float) (0 : Float) testWhen)
  333.04037976 (-59.83724345) 1e-6
-- test/test_solar.py:150-154
#guard near (Elevation.get_pressure_with_elevation floatB (1567.7 : Float)) 83855.90228 1e-4
#guard near (.ok (Elevation.get_temperature_with_elevation floatB (1567.7 : Float))) 277.96 1e-4
