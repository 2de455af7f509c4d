import Verif.Py.DateTime
import Verif.Spec.DeltaTData

/-!
# Specification of instants, leap seconds, delta-T and Julian days (C04-C15)
-/

namespace Verif.Spec

/-- The aware datetime `d` denotes the UTC instant `t` (microseconds, the origin of `Civil.micros`). -/
def Denotes (d : DateTime) (t : ℤ) : Prop :=
  ∃ o, d.tz.isSome ∧ d.utcoffset = some o ∧ t = d.civil.micros - o

/-- The UTC wall time of the aware datetime `d` is `c`, a time of the years 1 to 9999. -/
def UtcFields (d : DateTime) (c : Civil) : Prop := c.Valid ∧ Denotes d c.micros

/-- Year and month in which each leap second of the IERS took effect (Bulletin C; the first of the
month). TAI - UTC was 10 s before the first of them. -/
def leapSecondMonths : List (ℤ × ℤ) :=
  [(1972, 7), (1973, 1), (1974, 1), (1975, 1), (1976, 1), (1977, 1), (1978, 1), (1979, 1), (1980, 1),
   (1981, 7), (1982, 7), (1983, 7), (1985, 7), (1988, 1), (1990, 1), (1991, 1), (1992, 7), (1993, 7),
   (1994, 7), (1996, 1), (1997, 7), (1999, 1), (2006, 1), (2009, 1), (2012, 7), (2015, 7), (2017, 1)]

/-- The first of month `p` is not after the date with year `y` and month `m`. -/
def InEffect (y m : ℤ) (p : ℤ × ℤ) : Bool := p.1 < y || (p.1 = y && p.2 ≤ m)

/-- TAI - UTC in seconds in month `m` of year `y`: 10 plus the leap seconds in effect. -/
def taiMinusUtc (y m : ℤ) : ℤ := 10 + (leapSecondMonths.countP (InEffect y m) : ℤ)

/-- Julian Day Number of a Gregorian date (Fliegel & Van Flandern 1968); divisions truncate. -/
def fliegelVanFlandern (y m d : ℤ) : ℤ :=
  Int.tdiv (1461 * (y + 4800 + Int.tdiv (m - 14) 12)) 4
    + Int.tdiv (367 * (m - 2 - 12 * Int.tdiv (m - 14) 12)) 12
    - Int.tdiv (3 * Int.tdiv (y + 4900 + Int.tdiv (m - 14) 12) 100) 4 + d - 32075

/-- Fraction of the day elapsed. -/
def dayFraction (c : Civil) : ℚ :=
  (c.hour * 3600 + c.minute * 60 + c.second + (c.micro : ℚ) / 1000000) / 86400

/-- A month counted from January of year 0. -/
def monthIndex (y m : ℤ) : ℤ := 12 * y + (m - 1)

end Verif.Spec
