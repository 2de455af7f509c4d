import Verif.Model.Solar
import Mathlib.Algebra.Order.Floor.Ring
import Mathlib.Algebra.Order.Archimedean.Real.Basic
import Mathlib.Algebra.Order.Floor.Semiring

/-!
# Model of test/query_usno.py

The tool that compares pysolar with the US Naval Observatory: building a request, comparing two ephemerides, and the
text log of ephemerides.

Simplifications: text is a list of characters; a file is the list of its lines, each ending in a newline; the
network request, `urlencode` and printing are not modelled. (The answer of the server, the CSV file and the main
program: QueryUsnoMain.lean; random entries and statistics: QueryUsnoGather.lean.)
-/

namespace Pysolar.QueryUsno

open Verif Pysolar.Solar

abbrev Txt := List Char

/-- `str(x)` and `float(s)` for numbers; `none` is a ValueError of `float`. -/
structure FloatText (α : Type) where
  str : α → Txt
  float : Txt → Option α

/-- What is known of them for a number that is not NaN: `float` inverts `str` and ignores a newline at the end; the text has
no space. -/
structure FloatText.Faithful {α : Type} (F : FloatText α) (x : α) : Prop where
  float_str : F.float (F.str x) = some x
  float_newline : F.float (F.str x ++ ['\n']) = some x
  no_space : ' ' ∉ F.str x

/-- `float(s)` as a Python computation. -/
def FloatText.parse {α : Type} (F : FloatText α) (s : Txt) : Py α :=
  match F.float s with
  | some x => .ok x
  | none => .error .valueError

/-- test/query_usno.py:38-45 `Ephemeris`. The coordinates are numbers or (when read from a log) strings in Python;
here the text printed for them, of which `float` takes the value. -/
structure Ephemeris (B : Backend) where
  timestamp : DateTime
  latitude : Txt
  longitude : Txt
  elevation : B.α
  azimuth : B.α
  altitude : B.α

/-- test/query_usno.py:47-60 `EphemerisComparison`, without the names. -/
structure EphemerisComparison (B : Backend) where
  timestamp : DateTime
  latitude : Txt
  longitude : Txt
  elevation : B.α
  alt1 : B.α
  az1 : B.α
  alt2 : B.α
  az2 : B.α
  alt_error : B.α
  az_error : B.α

/-- Python's `abs`. -/
def pyAbs (B : Backend) (x : B.α) : B.α := B.where_ (B.lt x 0) (-x) x

/-- test/query_usno.py:48-60 the constructor of `EphemerisComparison`. -/
def compareEphemerides (B : Backend) (eph1 eph2 : Ephemeris B) : EphemerisComparison B where
  timestamp := eph1.timestamp
  latitude := eph1.latitude
  longitude := eph1.longitude
  elevation := eph1.elevation
  alt1 := eph1.altitude
  az1 := eph1.azimuth
  alt2 := eph2.altitude
  az2 := eph2.azimuth
  alt_error := pyAbs B (eph1.altitude - eph2.altitude)
  az_error := pyAbs B (eph1.azimuth - eph2.azimuth)

/-- test/query_usno.py:89-100 `ComparePysolarToUSNO`. -/
def ComparePysolarToUSNO (B : Backend) (F : FloatText B.α) (datum : Ephemeris B) : Py (EphemerisComparison B) := do
  let alt ← get_altitude B (← F.parse datum.latitude) (← F.parse datum.longitude) (.dt datum.timestamp) datum.elevation
  let pysolar_alt := (90.0 : B.α) - alt
  let az ← get_azimuth B (← F.parse datum.latitude) (← F.parse datum.longitude) (.dt datum.timestamp) datum.elevation
  let pysolar_az := ((180.0 : B.α) - az) %. 360.0
  let py_solar : Ephemeris B :=
    ⟨datum.timestamp, datum.latitude, datum.longitude, datum.elevation, pysolar_az, pysolar_alt⟩
  return compareEphemerides B py_solar datum

/-! ## The request -/

/-- `divmod(x, m)` for `m > 0`, exact. -/
noncomputable def divmod (x m : ℝ) : ℤ × ℝ := (⌊x / m⌋, x - m * ⌊x / m⌋)

/-- The four values sent for one coordinate: sign, degrees, minutes, seconds. -/
structure Sexagesimal where
  sign : ℤ
  deg : ℤ
  min : ℤ
  sec : ℝ

/-- test/query_usno.py:123-128 and 130-135: one coordinate of `EncodeRequest` (exact arithmetic; the values rather
than their texts). -/
noncomputable def encodeCoordinate (x : ℝ) : Sexagesimal :=
  let (deg, rem) := divmod x 1
  let (min, sec) := divmod rem (1.0 / 60.0)
  ⟨if deg < 0 then -1 else 1, |deg|, min, sec⟩

/-- The values of a request that vary: test/query_usno.py:111-116,123-137. -/
structure Request where
  year : ℤ
  month : ℤ
  day : ℤ
  hour : ℤ
  minute : ℤ
  second : ℤ
  longitude : Sexagesimal
  latitude : Sexagesimal
  height : ℝ

/-- test/query_usno.py:102-140 `EncodeRequest`, without the constant entries and `urlencode`. -/
noncomputable def EncodeRequest (latitude longitude : ℝ) (timestamp : DateTime) (elevation : ℝ) : Request where
  year := timestamp.civil.year
  month := timestamp.civil.month
  day := timestamp.civil.day
  hour := timestamp.civil.hour
  minute := timestamp.civil.minute
  second := timestamp.civil.second
  longitude := encodeCoordinate longitude
  latitude := encodeCoordinate latitude
  height := elevation

/-! ## The log -/

/-- Decimal digits of `n < 10 ^ w`, padded with zeros (`%0wd`). -/
def pad (w n : ℕ) : Txt := (List.range w).reverse.map fun i => Nat.digitChar (n / 10 ^ i % 10)

/-- `str` of a UTC offset in microseconds: `+HH:MM[:SS[.ffffff]]` (`datetime.isoformat`). -/
def strOffset (o : ℤ) : Txt :=
  let n := o.natAbs
  (if o < 0 then '-' else '+') :: (pad 2 (n / 3600000000) ++ ':' :: pad 2 (n / 60000000 % 60)
    ++ (if n % 60000000 = 0 then [] else ':' :: pad 2 (n / 1000000 % 60)
      ++ (if n % 1000000 = 0 then [] else '.' :: pad 6 (n % 1000000))))

/-- The date in `str(timestamp)`: `YYYY-MM-DD`. -/
def strDate (c : Civil) : Txt := pad 4 c.year.toNat ++ '-' :: pad 2 c.month.toNat ++ '-' :: pad 2 c.day.toNat

/-- The time in `str(timestamp)`: `HH:MM:SS[.ffffff][+HH:MM...]`. -/
def strTime (d : DateTime) : Txt :=
  pad 2 d.civil.hour.toNat ++ ':' :: pad 2 d.civil.minute.toNat ++ ':' :: pad 2 d.civil.second.toNat
    ++ (if d.civil.micro = 0 then [] else '.' :: pad 6 d.civil.micro.toNat)
    ++ (match d.utcoffset with | none => [] | some o => strOffset o)

/-- `str(timestamp)`: `datetime.isoformat(' ')`. -/
def strDateTime (d : DateTime) : Txt := strDate d.civil ++ ' ' :: strTime d

/-- test/query_usno.py:169-172 `WriteEphemerisDatumToFile`: the line appended to the log. -/
def logLine (B : Backend) (F : FloatText B.α) (d : Ephemeris B) : Txt :=
  strDateTime d.timestamp ++ ' ' :: (d.latitude ++ ' ' :: (d.longitude ++ ' ' :: (F.str d.elevation ++ ' ' ::
    (F.str d.azimuth ++ ' ' :: (F.str d.altitude ++ ['\n'])))))

/-- test/query_usno.py:169-172 `WriteEphemerisDatumToFile`. -/
def WriteEphemerisDatumToFile (B : Backend) (F : FloatText B.α) (d : Ephemeris B) (log : List Txt) : List Txt :=
  log ++ [logLine B F d]

/-- `s.split(' ')`. -/
def splitSpace : Txt → List Txt
  | [] => [[]]
  | c :: s =>
    if c = ' ' then [] :: splitSpace s
    else match splitSpace s with
      | [] => [[c]]
      | w :: ws => (c :: w) :: ws

/-- The value of a decimal digit. -/
def digitVal (c : Char) : Option ℕ := if c.isDigit then some (c.toNat - '0'.toNat) else none

/-- The value of a string of digits. -/
def natVal (s : Txt) : Option ℕ := s.foldlM (fun n c => (digitVal c).map fun k => 10 * n + k) 0

/-- `time.strptime(s, '%Y-%m-%d %H:%M:%S')` and the `datetime` built from it (test/query_usno.py:163): fields of the
fixed widths 4, 2, 2, 2, 2, 2 in this layout and in their ranges, ValueError for anything else. (Python also accepts
one digit instead of two, and more than one blank between date and time, which a log never contains.) -/
def strptime (s : Txt) : Py Civil :=
  let field (i w : ℕ) : Option ℕ := natVal ((s.drop i).take w)
  if s.length = 19 ∧ s[4]? = some '-' ∧ s[7]? = some '-' ∧ s[10]? = some ' ' ∧ s[13]? = some ':' ∧ s[16]? = some ':' then
    match field 0 4, field 5 2, field 8 2, field 11 2, field 14 2, field 17 2 with
    | some Y, some m, some d, some H, some M, some S =>
      if 1 ≤ Y ∧ 1 ≤ m ∧ m ≤ 12 ∧ 1 ≤ d ∧ (d : ℤ) ≤ daysInMonth Y m ∧ H ≤ 23 ∧ M ≤ 59 ∧ S ≤ 59 then
        .ok ⟨Y, m, d, H, M, S, 0⟩
      else .error .valueError
    | _, _, _, _, _, _ => .error .valueError
  else .error .valueError

/-- test/query_usno.py:162-165: one line of `ReadEphemeridesLog`. -/
def readLine (B : Backend) (F : FloatText B.α) (line : Txt) : Py (Ephemeris B) := do
  let args := splitSpace line
  let unaware ← strptime ((← pyIndex args 0) ++ ' ' :: (← pyIndex args 1))
  let d : DateTime := ⟨unaware, false, some utcTz⟩
  let a2 ← pyIndex args 2
  let a3 ← pyIndex args 3
  let a4 ← pyIndex args 4
  let a5 ← pyIndex args 5
  let a6 ← pyIndex args 6
  return ⟨d, a2, a3, ← F.parse a4, ← F.parse a5, ← F.parse a6⟩

/-- test/query_usno.py:156-167 `ReadEphemeridesLog`. -/
def ReadEphemeridesLog (B : Backend) (F : FloatText B.α) (log : List Txt) : Py (List (Ephemeris B)) :=
  log.mapM (readLine B F)

end Pysolar.QueryUsno
