#!/usr/bin/env python3
"""Run the model on the machine's own floating point and compare with recorded output of the program.

Not part of any proof. /repo/test/pysolar_v_usno.csv holds the altitudes (as 90 - altitude) and azimuths that the program
returned for 6259 times and places. This script evaluates the Lean model of get_altitude and get_azimuth for the same
arguments, with a backend of Lean's `Float` (compiled, IEEE double), and prints the largest differences.

Usage, after `lake build` in /verif/lean:  python3 tools/validate_model.py
"""
import csv
import datetime
import math
import os
import subprocess
import tempfile

HERE = os.path.dirname(os.path.abspath(__file__))
LEAN = os.path.join(HERE, "..", "lean")
DATA = "/repo/test/pysolar_v_usno.csv"

PROGRAM = r'''
import Verif.Model.Solar

open Verif Pysolar Solar

def ratF (q : ℚ) : Float := Float.ofInt q.num / Float.ofNat q.den

/-- Lean's `Float`. -/
def flB : Backend where
  α := Float
  C := Bool
  T := Empty
  lit := ratF
  pi := 3.141592653589793
  e := 2.718281828459045
  inf := 1.0 / 0.0
  add := (· + ·)
  sub := (· - ·)
  mul := (· * ·)
  neg x := -x
  divq x q := x / ratF q
  modq x q := x - ratF q * (x / ratF q).floor
  powN x n := Float.pow x (Float.ofNat n)
  div x y := if y == 0 then .error .zeroDivision else .ok (x / y)
  rpow x y := .ok (Float.pow x y)
  sin x := .ok x.sin
  cos x := .ok x.cos
  tan x := .ok x.tan
  asin x := .ok x.asin
  acos x := .ok x.acos
  atan x := .ok x.atan
  atan2 y x := .ok (Float.atan2 y x)
  exp x := .ok x.exp
  radians x := x * (3.141592653589793 / 180.0)
  degrees x := x * (180.0 / 3.141592653589793)
  lt x y := decide (x < y)
  le x y := decide (x ≤ y)
  where_ c x y := if c then x else y
  ofC c := if c then 1 else 0
  truth c := .ok c
  tdHours _ := .error .unmodelled
  round _ := .error .unmodelled
  npTime := false
  arrYday := Empty.elim
  arrHour := Empty.elim
  arrMin := Empty.elim

def micro (m : Py Float) : String :=
  match m with
  | .ok x => toString (1e6 * x)
  | .error _ => "error"

def main : IO Unit := do
  let text ← IO.FS.readFile "INPUT"
  for line in text.splitOn "\n" do
    match (line.splitOn " ").map String.toInt! with
    | [y, mo, d, h, mi, s, lat, lon, tenths] =>
      let w : When flB := .dt ⟨⟨y, mo, d, h, mi, s, 0⟩, false, some utcTz⟩
      let z : Float := Float.ofInt tenths / 10
      IO.println ("ROW " ++ micro (get_altitude flB (ratF lat) (ratF lon) w z) ++ " "
        ++ micro (get_azimuth flB (ratF lat) (ratF lon) w z))
    | _ => pure ()

#eval main
'''


def unit(alt, az):
    a, z = math.radians(alt), math.radians(az)
    return math.cos(a) * math.cos(z), math.cos(a) * math.sin(z), math.sin(a)


def main():
    rows = list(csv.DictReader(open(DATA)))
    with tempfile.TemporaryDirectory() as tmp:
        inp = os.path.join(tmp, "in.txt")
        with open(inp, "w") as f:
            for r in rows:
                t = datetime.datetime.fromisoformat(r["timestamp"])
                v = [t.year, t.month, t.day, t.hour, t.minute, t.second, int(r["latitude"]), int(r["longitude"]),
                     round(10 * float(r["elevation"]))]
                f.write(" ".join(map(str, v)) + "\n")
        src = os.path.join(tmp, "run.lean")
        with open(src, "w") as f:
            f.write(PROGRAM.replace("INPUT", inp))
        out = subprocess.run(["lake", "env", "lean", src], cwd=LEAN, capture_output=True, text=True).stdout
    got = [l.strip('"').split()[1:] for l in out.splitlines() if l.startswith("ROW")]
    assert len(got) == len(rows), (len(got), len(rows))
    worst_alt = worst_sep = 0.0
    for r, (alt, az) in zip(rows, got):
        alt, az = float(alt) / 1e6, float(az) / 1e6
        alt0, az0 = 90 - float(r["alt1"]), float(r["az1"])
        worst_alt = max(worst_alt, abs(alt - alt0))
        p, q = unit(alt, az), unit(alt0, az0)
        worst_sep = max(worst_sep, math.degrees(2 * math.asin(math.dist(p, q) / 2)))
    print(f"{len(rows)} rows: altitude within {worst_alt:.2e} degrees, direction within {worst_sep:.2e} degrees")


if __name__ == "__main__":
    main()
