import Mathlib.Data.Int.Notation

/-!
# The proleptic Gregorian calendar of the standard library

Mirrors the pure-Python `Lib/datetime.py` helpers (`_is_leap`, `_days_before_year`,
`_days_before_month`, `_ymd2ord`, `_ord2ymd`), which pysolar reaches through `datetime.toordinal`,
`utctimetuple`, `timestamp` and datetime arithmetic.  This is a model of the standard library (part of
the trusted reading), not of a file in /repo.
-/

namespace Verif

/-- `datetime._is_leap`. -/
def isLeap (y : ℤ) : Bool := y % 4 = 0 && (y % 100 ≠ 0 || y % 400 = 0)

/-- `datetime._days_before_year`: days before January 1st of year `y`. -/
def daysBeforeYear (y : ℤ) : ℤ :=
  (y - 1) * 365 + (y - 1) / 4 - (y - 1) / 100 + (y - 1) / 400

/-- `datetime._DAYS_IN_MONTH`. -/
def daysInMonthTable (m : ℤ) : ℤ :=
  if m = 2 then 28 else if m = 4 ∨ m = 6 ∨ m = 9 ∨ m = 11 then 30 else 31

/-- `datetime._days_in_month`. -/
def daysInMonth (y m : ℤ) : ℤ :=
  if m = 2 ∧ isLeap y then 29 else daysInMonthTable m

/-- `datetime._DAYS_BEFORE_MONTH` (index 0 unused). -/
def daysBeforeMonthTable (m : ℤ) : ℤ :=
  if m ≤ 1 then 0 else if m = 2 then 31 else if m = 3 then 59 else if m = 4 then 90
  else if m = 5 then 120 else if m = 6 then 151 else if m = 7 then 181 else if m = 8 then 212
  else if m = 9 then 243 else if m = 10 then 273 else if m = 11 then 304 else 334

/-- `datetime._days_before_month`. -/
def daysBeforeMonth (y m : ℤ) : ℤ :=
  daysBeforeMonthTable m + (if m > 2 ∧ isLeap y then 1 else 0)

/-- `datetime._ymd2ord` / `date.toordinal`: 1 for 0001-01-01. -/
def ymd2ord (y m d : ℤ) : ℤ := daysBeforeYear y + daysBeforeMonth y m + d

/-- A calendar date. -/
structure YMD where
  year : ℤ
  month : ℤ
  day : ℤ
  deriving DecidableEq, Repr

/-- A date of the calendar (year unrestricted). -/
def YMD.Valid (c : YMD) : Prop :=
  1 ≤ c.month ∧ c.month ≤ 12 ∧ 1 ≤ c.day ∧ c.day ≤ daysInMonth c.year c.month

/-- `datetime._ord2ymd`. -/
def ord2ymd (ord : ℤ) : YMD :=
  let n := ord - 1
  let n400 := n / 146097
  let n := n % 146097
  let n100 := n / 36524
  let n := n % 36524
  let n4 := n / 1461
  let n := n % 1461
  let n1 := n / 365
  let n := n % 365
  let year := n400 * 400 + 1 + n100 * 100 + n4 * 4 + n1
  if n1 = 4 ∨ n100 = 4 then ⟨year - 1, 12, 31⟩
  else
    let leapyear : Bool := n1 = 3 && (n4 ≠ 24 || n100 = 3)
    let month := (n + 50) / 32
    let preceding := daysBeforeMonthTable month + (if month > 2 ∧ leapyear then 1 else 0)
    if preceding > n then
      let month := month - 1
      let preceding := preceding -
        (daysInMonthTable month + (if month = 2 ∧ leapyear then 1 else 0))
      ⟨year, month, n - preceding + 1⟩
    else ⟨year, month, n - preceding + 1⟩

/-- Day of the year, 1..366 (`tm_yday`). -/
def yday (c : YMD) : ℤ := daysBeforeMonth c.year c.month + c.day

end Verif
