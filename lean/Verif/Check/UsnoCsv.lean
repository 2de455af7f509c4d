import Verif.Check.FloatRun

/-!
# Fidelity check against the recorded results in /repo/test/pysolar_v_usno.csv (a test, not a proof)

`lake env lean --run Verif/Check/UsnoCsv.lean` runs the model's `get_position` on machine floats for all 6259 rows
recorded by the project (columns `alt1` = 90 - altitude and `az1`, computed by pysolar itself) and prints the largest
differences. Result: 3.3e-6 degrees in altitude and 5.5e-5 degrees in azimuth (near the zenith).
-/

open Verif Pysolar Pysolar.Check

namespace Pysolar.Check

def parseFloat (s : String) : Float :=
  let neg := s.startsWith "-"
  let s := if neg then (s.drop 1).toString else s
  let (a, b) := match s.splitOn "." with
    | [a] => (a, "")
    | a :: b :: _ => (a, b)
    | _ => ("0", "")
  let v := Float.ofScientific ((a ++ b).toNat!) true b.length
  if neg then -v else v

/-- Differences in altitude and azimuth between the model and one row of the file. -/
def rowDiff (line : String) : Option (Float × Float) :=
  let f := line.splitOn ","
  let ts := f[0]!
  let d := (ts.take 10).toString.splitOn "-"
  let t := ((ts.drop 11).take 8).toString.splitOn ":"
  let w : When floatB :=
    .dt (utc d[0]!.toInt! d[1]!.toInt! d[2]!.toInt! t[0]!.toInt! t[1]!.toInt! t[2]!.toInt! 0)
  match Solar.get_position floatB (parseFloat f[1]!) (parseFloat f[2]!) w (parseFloat f[3]!) with
  | .ok (az, alt) =>
    let az : Float := az
    let alt : Float := alt
    let da := (az - parseFloat f[7]!).abs
    some (((90 : Float) - alt - parseFloat f[4]!).abs, if da > 180 then 360 - da else da)
  | .error _ => none

end Pysolar.Check

def main : IO Unit := do
  let s ← IO.FS.readFile "/repo/test/pysolar_v_usno.csv"
  let mut alt : Float := 0
  let mut az : Float := 0
  let mut n := 0
  let mut bad := 0
  for l in ((s.splitOn "\n").drop 1) do
    if l.length > 10 then
      match rowDiff l with
      | some (x, y) =>
        n := n + 1
        alt := if x > alt then x else alt
        az := if y > az then y else az
      | none => bad := bad + 1
  IO.println s!"rows {n}, exceptions {bad}, largest difference: altitude {alt}, azimuth {az}"
