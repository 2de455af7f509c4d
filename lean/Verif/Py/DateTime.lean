import Verif.Py.Basic
import Verif.Py.Calendar

/-!
# `datetime.datetime`, `tzinfo` and `timedelta` of the standard library

Instants and durations are counted in microseconds (the resolution of `datetime`).
`timedelta` is represented by its number of microseconds.
-/

namespace Verif

/-- The naive fields of a `datetime`. -/
structure Civil where
  year : ℤ
  month : ℤ
  day : ℤ
  hour : ℤ
  minute : ℤ
  second : ℤ
  micro : ℤ
  deriving DecidableEq, Repr

/-- A `tzinfo` object: an identity (Python compares time zones by object identity when subtracting
datetimes) and its `utcoffset`, an arbitrary function of the wall time and `fold`
(`none` models a `tzinfo` whose `utcoffset` returns `None`). Microseconds. -/
structure TzInfo where
  id : ℕ
  utcoffset : Civil → Bool → Option ℤ

/-- A `datetime.datetime`. `tz = none` is a naive datetime. -/
structure DateTime where
  civil : Civil
  fold : Bool := false
  tz : Option TzInfo

/-- One second and one day in microseconds. -/
def usPerSecond : ℤ := 1000000
def usPerDay : ℤ := 86400 * 1000000

/-- Field ranges enforced by the `datetime` constructor, without the year range. -/
def Civil.FieldsValid (c : Civil) : Prop :=
  (⟨c.year, c.month, c.day⟩ : YMD).Valid ∧
  0 ≤ c.hour ∧ c.hour ≤ 23 ∧ 0 ≤ c.minute ∧ c.minute ≤ 59 ∧
  0 ≤ c.second ∧ c.second ≤ 59 ∧ 0 ≤ c.micro ∧ c.micro ≤ 999999

/-- Everything the `datetime` constructor enforces: `MINYEAR = 1`, `MAXYEAR = 9999`. -/
def Civil.Valid (c : Civil) : Prop := 1 ≤ c.year ∧ c.year ≤ 9999 ∧ c.FieldsValid

def Civil.date (c : Civil) : YMD := ⟨c.year, c.month, c.day⟩

/-- Wall time as microseconds since 0001-01-01T00:00:00 minus one day (ordinal 0). -/
def Civil.micros (c : Civil) : ℤ :=
  (ymd2ord c.year c.month c.day * 86400 + c.hour * 3600 + c.minute * 60 + c.second) * 1000000
    + c.micro

/-- Inverse of `Civil.micros`: the fields of a wall time given in microseconds. -/
def civilOfMicros (t : ℤ) : Civil :=
  let date := ord2ymd (t / usPerDay)
  let r := t % usPerDay
  ⟨date.year, date.month, date.day, r / 3600000000, r / 60000000 % 60, r / 1000000 % 60, r % 1000000⟩

/-- `datetime.utcoffset()`: `None` for naive datetimes. -/
def DateTime.utcoffset (d : DateTime) : Option ℤ :=
  match d.tz with
  | none => none
  | some z => z.utcoffset d.civil d.fold

/-- The wall time shifted to UTC (no shift if `utcoffset()` is `None`), in microseconds. -/
def DateTime.utcMicros (d : DateTime) : ℤ :=
  d.civil.micros - d.utcoffset.getD 0

/-- A datetime whose instant is determined: `tzinfo` present and `utcoffset()` not `None`
(the definition of "aware" in the `datetime` documentation). -/
def DateTime.Aware (d : DateTime) : Prop := d.utcoffset.isSome

/-- A naive datetime (no `tzinfo`). -/
def DateTime.Naive (d : DateTime) : Prop := d.tz = none

/-- A datetime that can exist in Python: valid fields, and UTC offset strictly within a day. -/
def DateTime.Valid (d : DateTime) : Prop :=
  d.civil.Valid ∧ ∀ o, d.utcoffset = some o → -usPerDay < o ∧ o < usPerDay

/-- Build the naive fields from microseconds, raising `OverflowError` outside years 1..9999. -/
def civilChecked (t : ℤ) : Py Civil :=
  let c := civilOfMicros t
  if 1 ≤ c.year ∧ c.year ≤ 9999 then .ok c else .error .overflow

/-- `datetime.utctimetuple()`. -/
def DateTime.utctimetuple (d : DateTime) : Py Civil := civilChecked d.utcMicros

/-- Ordinal day 719163 is 1970-01-01. -/
def epochMicros : ℤ := 719163 * usPerDay

/-- `datetime.timestamp()`: exact seconds since 1970-01-01T00:00:00Z. For naive datetimes (and
`utcoffset() is None`) Python uses the machine's local zone, which is not modelled. -/
def DateTime.timestamp (d : DateTime) : Py ℚ :=
  match d.utcoffset with
  | none => .error .unmodelled
  | some o => .ok (((d.civil.micros - o - epochMicros : ℤ) : ℚ) / 1000000)

/-- `datetime + timedelta`: wall-clock arithmetic, keeps `tzinfo`, resets `fold`. -/
def DateTime.add (d : DateTime) (us : ℤ) : Py DateTime := do
  let c ← civilChecked (d.civil.micros + us)
  return ⟨c, false, d.tz⟩

/-- `datetime - datetime`: wall-clock difference for equal `tzinfo` objects (or two naive
datetimes); difference of instants for different ones; `TypeError` for naive minus aware. -/
def DateTime.sub (a b : DateTime) : Py ℤ :=
  match a.tz, b.tz with
  | none, none => .ok (a.civil.micros - b.civil.micros)
  | some za, some zb =>
    if za.id = zb.id then .ok (a.civil.micros - b.civil.micros)
    else
      match a.utcoffset, b.utcoffset with
      | some oa, some ob => .ok (a.civil.micros - oa - (b.civil.micros - ob))
      | none, none => .ok (a.civil.micros - b.civil.micros)
      | _, _ => .error .typeError
  | none, some _ => if b.utcoffset.isNone then .ok (a.civil.micros - b.civil.micros) else .error .typeError
  | some _, none => if a.utcoffset.isNone then .ok (a.civil.micros - b.civil.micros) else .error .typeError

/-- `datetime.timezone.utc`. -/
def utcTz : TzInfo := ⟨0, fun _ _ => some 0⟩

/-- `datetime.timezone(timedelta)` with a fixed offset in microseconds. -/
def fixedTz (id : ℕ) (off : ℤ) : TzInfo := ⟨id, fun _ _ => some off⟩

end Verif
