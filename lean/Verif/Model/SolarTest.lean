import Verif.Model.Solar
import Verif.Model.Radiation

/-!
# Model of `solar_test` (pysolar/solar.py:31-43)

The loop that prints the sun's position at Cambridge, Massachusetts, every half hour of the coming day.  The clock
(`datetime.datetime.now`) is a parameter, and the text written by `print` for a float is not modelled: a printed line is
the tuple of the values handed to `print`.
-/

open Verif

namespace Pysolar.Solar

/-- The abbreviated names used by `datetime.ctime()` (Lib/_pydatetime.py, `_DAYNAMES` and `_MONTHNAMES`). -/
def dayNames : List (List Char) :=
  ["Mon".toList, "Tue".toList, "Wed".toList, "Thu".toList, "Fri".toList, "Sat".toList, "Sun".toList]

def monthNames : List (List Char) :=
  ["Jan".toList, "Feb".toList, "Mar".toList, "Apr".toList, "May".toList, "Jun".toList, "Jul".toList, "Aug".toList,
    "Sep".toList, "Oct".toList, "Nov".toList, "Dec".toList]

/-- A decimal digit. -/
def digit (n : ℤ) : Char := Char.ofNat (48 + (n % 10).toNat)

/-- `%02d` and `%2d` of a number from 0 to 99. -/
def pad0 (n : ℤ) : List Char := [digit (n / 10), digit n]
def padSpace (n : ℤ) : List Char := [if n < 10 then ' ' else digit (n / 10), digit n]

/-- `%04d` of a number from 0 to 9999. -/
def pad4 (n : ℤ) : List Char := [digit (n / 1000), digit (n / 100), digit (n / 10), digit n]

/-- `datetime.ctime()`: `"%s %s %2d %02d:%02d:%02d %04d"` of the weekday, the month, the day, the time and the year.
(Lib/_pydatetime.py; the weekday is `toordinal() % 7 or 7`, Monday 1.) -/
def ctime (c : Civil) : List Char :=
  dayNames.getD ((ymd2ord c.year c.month c.day + 6) % 7).toNat [] ++ ' ' ::
    monthNames.getD (c.month - 1).toNat [] ++ ' ' :: padSpace c.day ++ ' ' :: pad0 c.hour ++ ':' :: pad0 c.minute ++
    ':' :: pad0 c.second ++ ' ' :: pad4 c.year

/-- What one call of `print` in `solar_test` writes: `timestamp, "UTC", altitude_deg, azimuth_deg, power`. -/
structure Line (B : Backend) where
  timestamp : List Char
  zone : List Char
  altitude_deg : B.α
  azimuth_deg : B.α
  power : B.α

/-- The lines printed by a run, and the exception that ends it, if any. -/
structure Run (B : Backend) where
  printed : List (Line B)
  err : Option PyErr

/-- solar.py:37-42: one pass of the loop: the line it prints, if any. -/
def solarTestStep (B : Backend) (d : DateTime) : Py (Option (Line B)) := do
  let latitude_deg : B.α := 42.364908
  let longitude_deg : B.α := -71.112828
  let timestamp := ctime d.civil
  let altitude_deg ← get_altitude B latitude_deg longitude_deg (.dt d)
  let azimuth_deg ← get_azimuth B latitude_deg longitude_deg (.dt d)
  let power ← Radiation.get_radiation_direct B (.dt d) altitude_deg
  if ← B.truth (B.lt 0 altitude_deg) then
    return some ⟨timestamp, "UTC".toList, altitude_deg, azimuth_deg, power⟩
  else
    return none

/-- What follows a pass of the loop: the exception raised by the pass ends the run; after the line it prints, if any,
`d = d + thirty_minutes` may raise; then come the remaining passes. -/
def Run.andThen {B : Backend} (step : Py (Option (Line B))) (next : Py DateTime) (rest : DateTime → Run B) : Run B :=
  match step with
  | .error e => ⟨[], some e⟩
  | .ok line =>
    match next with
    | .error e => ⟨line.toList, some e⟩
    | .ok d => ⟨line.toList ++ (rest d).printed, (rest d).err⟩

/-- `datetime.timedelta(hours = 0.5)` in microseconds. -/
def thirty_minutes : ℤ := 1800000000

/-- solar.py:36-43: the loop, with `n` passes left; `d = d + thirty_minutes` also ends the last pass. -/
def solarTestLoop (B : Backend) : ℕ → DateTime → Run B
  | 0, _ => ⟨[], none⟩
  | n + 1, d => Run.andThen (solarTestStep B d) (d.add thirty_minutes) (solarTestLoop B n)

/-- solar.py:31-43 `solar_test`, with the clock reading `now` (an aware datetime in UTC). -/
def solar_test (B : Backend) (now : DateTime) : Run B := solarTestLoop B 48 now

end Pysolar.Solar
