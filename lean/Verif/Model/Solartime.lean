import Verif.Model.Numeric
import Verif.Model.Tables

/-!
# Model of pysolar/solartime.py
-/

open Verif

namespace Pysolar.Solartime

open Pysolar.TzCheck Pysolar.Numeric

/-- constants.py:69. -/
def seconds_per_day : ℚ := 86400
/-- solartime.py:28. -/
def julian_day_offset : ℚ := 1721425 - 0.5
/-- solartime.py:29. -/
def gregorian_day_offset : ℚ := 719163
/-- solartime.py:30. -/
def tt_offset : ℚ := 32.184
/-- solartime.py:36. -/
abbrev leap_seconds_base_year : ℤ := 1972
/-- solartime.py:139. -/
abbrev delta_t_base_year : ℤ := 1973
/-- solartime.py:140. -/
abbrev delta_t_base_month : ℤ := 2

/-- `warnings.warn` of `get_leap_seconds`: the year put into the message (solartime.py:115-120). -/
structure LeapWarning where
  year : ℤ
  deriving DecidableEq, Repr

/-- solartime.py:104-133: the `while True` loop of `get_leap_seconds`, from the state (`adj`, `year`),
over a table of adjustments. Returns the final `adj` and the warnings issued. -/
def leapLoop (table : List (ℤ × ℤ)) (tm_year tm_mon adj year : ℤ) : Py (ℤ × List LeapWarning) :=
  if year > tm_year then .ok (adj, [])
  else if year - leap_seconds_base_year ≥ table.length then
    if tm_year - leap_seconds_base_year > table.length ∨
        (tm_year - leap_seconds_base_year = table.length ∧ tm_mon > 6) then
      .ok (adj, [⟨leap_seconds_base_year + table.length - 1⟩])
    else .ok (adj, [])
  else
    match pyIndexInt table (year - leap_seconds_base_year) with
    | .error e => .error e
    | .ok entry =>
      if year = tm_year then
        .ok (if tm_mon > 6 then adj + entry.1 else adj, [])
      else leapLoop table tm_year tm_mon (adj + (entry.1 + entry.2)) (year + 1)
termination_by (tm_year + 1 - year).toNat
decreasing_by omega

/-- solartime.py:98-136 `get_leap_seconds`, value and warnings. -/
def get_leap_seconds_warn {B : Backend} (w : When B) : Py (ℤ × List LeapWarning) := do
  guard w
  let t ← utctimetuple w
  leapLoop leap_seconds_adjustments t.year t.month 10 leap_seconds_base_year

/-- solartime.py:98-136 `get_leap_seconds`. -/
def get_leap_seconds {B : Backend} (w : When B) : Py ℤ := do
  let r ← get_leap_seconds_warn w
  return r.1

/-- solartime.py:728-741: the lookup of `get_delta_t` for a UTC year and month, in a table with a given
base year and month. -/
def deltaTLookup (table : List (List ℚ)) (base_year base_month : ℤ) (year month : ℤ) : Py ℚ := do
  let (year, month) :=
    if year < base_year then (base_year, 1)
    else if year = base_year then (year, max 0 (month - base_month) + 1)
    else if year ≥ base_year + table.length then (base_year + table.length - 1, month)
    else (year, month)
  let month ←
    if year = base_year + table.length - 1 then do
      let row ← pyIndexInt table (year - base_year)
      pure (min month row.length)
    else pure month
  let row ← pyIndexInt table (year - base_year)
  pyIndexInt row (month - 1)

/-- solartime.py:724-743 `get_delta_t`. -/
def get_delta_t {B : Backend} (w : When B) : Py ℚ := do
  guard w
  let t ← utctimetuple w
  deltaTLookup delta_t delta_t_base_year delta_t_base_month t.year t.month

/-- `when.timestamp()`; objects other than datetimes have no such attribute. -/
def timestamp {B : Backend} (w : When B) : Py ℚ :=
  match w with
  | .dt d => d.timestamp
  | _ => .error .attributeError

/-- solartime.py:745-761 `get_julian_solar_day`. -/
def get_julian_solar_day (B : Backend) (w : When B) : Py B.α := do
  guard w
  return (B.lit (← timestamp w) + B.lit (← get_leap_seconds w) + B.lit tt_offset
      - B.lit (← get_delta_t w)) /. seconds_per_day
    + B.lit gregorian_day_offset + B.lit julian_day_offset

/-- solartime.py:763-779 `get_julian_ephemeris_day`. -/
def get_julian_ephemeris_day (B : Backend) (w : When B) : Py B.α := do
  guard w
  return (B.lit (← timestamp w) + B.lit (← get_leap_seconds w) + B.lit tt_offset) /. seconds_per_day
    + B.lit gregorian_day_offset + B.lit julian_day_offset

/-- solartime.py:781-782 `get_julian_century`. -/
def get_julian_century (B : Backend) (julian_day : B.α) : B.α :=
  (julian_day - 2451545.0) /. 36525.0

/-- solartime.py:784-785 `get_julian_ephemeris_century`. -/
def get_julian_ephemeris_century (B : Backend) (julian_ephemeris_day : B.α) : B.α :=
  (julian_ephemeris_day - 2451545.0) /. 36525.0

/-- solartime.py:787-788 `get_julian_ephemeris_millennium`. -/
def get_julian_ephemeris_millennium (B : Backend) (julian_ephemeris_century : B.α) : B.α :=
  julian_ephemeris_century /. 10.0

end Pysolar.Solartime
