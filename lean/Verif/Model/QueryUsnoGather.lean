import Verif.Model.QueryUsnoMain

/-!
# Model of test/query_usno.py, concluded: random entries, statistics, the whole main program

The server is any function from requests to answers; the random numbers are given. What is printed is not modelled except
for the statistics, of which the numbers are kept.
-/

namespace Pysolar.QueryUsno

open Verif Pysolar.Solar

/-- `str(n)` for an int. -/
def strInt (n : ℤ) : Txt := if n < 0 then '-' :: Nat.toDigits 10 n.natAbs else Nat.toDigits 10 n.natAbs

/-- The random numbers of `GatherRandomEphemeris`, in the order of the draws. -/
structure Draw where
  latitude : ℤ
  longitude : ℤ
  year : ℤ
  month : ℤ
  day : ℤ
  hour : ℤ
  minute : ℤ
  second : ℤ

/-- The arguments of `random.randrange` (test/query_usno.py:143-146). -/
structure Draw.InRange (q : Draw) : Prop where
  latitude : -90 ≤ q.latitude ∧ q.latitude < 90
  longitude : 0 ≤ q.longitude ∧ q.longitude < 360
  year : 2013 ≤ q.year ∧ q.year < 2014
  month : 1 ≤ q.month ∧ q.month < 13
  day : 1 ≤ q.day ∧ q.day < 28
  hour : 0 ≤ q.hour ∧ q.hour < 24
  minute : 0 ≤ q.minute ∧ q.minute < 60
  second : 0 ≤ q.second ∧ q.second < 60

/-- test/query_usno.py:146: the datetime, without time zone. -/
def Draw.time (q : Draw) : DateTime := ⟨⟨q.year, q.month, q.day, q.hour, q.minute, q.second, 0⟩, false, none⟩

/-- test/query_usno.py:142-151 `GatherRandomEphemeris` with 62-87 `RequestEphemerisData`: the log afterwards. -/
noncomputable def GatherRandomEphemeris (B : Backend) (F : FloatText B.α) (server : Request → List Txt) (q : Draw) (log : List Txt) :
    Py (List Txt) := do
  let query : Ephemeris B := ⟨q.time, strInt q.latitude, strInt q.longitude, 0.0, 0, 0⟩
  let d ← decodeResponse B F query (server (EncodeRequest q.latitude q.longitude q.time 0))
  return WriteEphemerisDatumToFile B F d log

/-- test/query_usno.py:190-192: the loop; the log and `ephemerides` afterwards. -/
noncomputable def gatherLoop (B : Backend) (F : FloatText B.α) (server : Request → List Txt) :
    List Draw → List Txt → List (Ephemeris B) → Py (List Txt × List (Ephemeris B))
  | [], log, ephemerides => .ok (log, ephemerides)
  | q :: qs, log, _ => do
    let log ← GatherRandomEphemeris B F server q log
    let ephemerides ← ReadEphemeridesLog B F log
    gatherLoop B F server qs log ephemerides

/-- `np.mean` (sum from left to right, `x / n`). -/
def npMean (B : Backend) (xs : List B.α) : B.α := xs.foldl (fun a b => a + b) 0 /. (xs.length : ℚ)

/-- `np.std`: the square root (as power 1/2) of the mean of the squared deviations. -/
def npStd (B : Backend) (xs : List B.α) : Py B.α :=
  let m := npMean B xs
  B.rpow (npMean B (xs.map fun x => (x - m) ^ 2)) (0.5 : B.α)

/-- `stats.tmin(xs, None)`; ValueError without entries. -/
def tmin (B : Backend) : List B.α → Py B.α
  | [] => .error .valueError
  | x :: xs => .ok (xs.foldl (fun m y => B.where_ (B.lt y m) y m) x)

/-- `stats.tmax(xs, None)`; ValueError without entries. -/
def tmax (B : Backend) : List B.α → Py B.α
  | [] => .error .valueError
  | x :: xs => .ok (xs.foldl (fun m y => B.where_ (B.lt m y) y m) x)

/-- The four numbers printed for one of the angles. -/
structure Stats (B : Backend) where
  mean : B.α
  std : B.α
  min : B.α
  max : B.α

/-- test/query_usno.py:204-207 and 212-215. -/
def errorStats (B : Backend) (errors : List B.α) : Py (Stats B) := do
  let mean := npMean B errors
  let std ← npStd B errors
  let min ← tmin B errors
  let max ← tmax B errors
  return ⟨mean, std, min, max⟩

/-- What a run of the main program leaves: the statistics of azimuth and altitude, and the CSV file. -/
structure Report (B : Backend) where
  azimuth : Stats B
  altitude : Stats B
  csv : Txt

/-- test/query_usno.py:194-217: the main program once `ephemerides` is there. -/
def report (B : Backend) (F : FloatText B.α) (ephemerides : List (Ephemeris B)) : Py (Report B) := do
  let comps ← ephemerides.mapM (ComparePysolarToUSNO B F)
  let az ← errorStats B (comps.map EphemerisComparison.az_error)
  let alt ← errorStats B (comps.map EphemerisComparison.alt_error)
  return ⟨az, alt, WriteComparisonsToCSV B F comps⟩

/-- test/query_usno.py:190-217: the main program without argument; `qs` are the draws (100 times), `log` the previous contents
of usno_data.txt. The log afterwards and the report. -/
noncomputable def mainGather (B : Backend) (F : FloatText B.α) (server : Request → List Txt) (qs : List Draw) (log : List Txt) :
    Py (List Txt × Report B) := do
  let (log, ephemerides) ← gatherLoop B F server qs log []
  return (log, ← report B F ephemerides)

end Pysolar.QueryUsno
