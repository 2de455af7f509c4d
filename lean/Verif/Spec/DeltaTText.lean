import Verif.Spec.PySource
import Verif.Spec.DeltaTTable
import Mathlib.Data.List.Basic

/-!
# Specification of the text of the delta-T data file

A file is a text of lines separated by newlines. A line is blank, or has four fields: year, month and day in decimal
digits and the value as a decimal fraction, with space between them and possibly around them.
-/

namespace Verif.Spec

open Verif.Spec.PySource

/-- Spaces and tabs (at least `n` of them). -/
def Blank (n : ℕ) (w : List Char) : Prop := n ≤ w.length ∧ ∀ c ∈ w, c = ' ' ∨ c = '\t'

/-- At least one decimal digit. -/
def Digits (w : List Char) : Prop := w ≠ [] ∧ ∀ c ∈ w, c.isDigit = true

/-- A row of the file: the date and the value, exactly as written. -/
structure Row where
  year : ℕ
  month : ℕ
  day : ℕ
  value : ℚ

/-- The text of a row whose value is written with `d` decimals. -/
def RowText (d : ℕ) (r : Row) (line : List Char) : Prop :=
  ∃ w0 y w1 m w2 dd w3 ip fp w4, line = w0 ++ y ++ w1 ++ m ++ w2 ++ dd ++ w3 ++ ip ++ '.' :: fp ++ w4 ∧
    Blank 0 w0 ∧ Blank 1 w1 ∧ Blank 1 w2 ∧ Blank 1 w3 ∧ Blank 0 w4 ∧
    Digits y ∧ Digits m ∧ Digits dd ∧ Digits ip ∧ Digits fp ∧ fp.length = d ∧
    ofDigits y = r.year ∧ ofDigits m = r.month ∧ ofDigits dd = r.day ∧ r.value = (ofDigits (ip ++ fp) : ℚ) / 10 ^ d

/-- The lines of a file with the given rows, each value written with at most `D` decimals. -/
inductive FileLines (D : ℕ) : List (List Char) → List Row → Prop
  | nil : FileLines D [] []
  | blank {l ls rs} : Blank 0 l → FileLines D ls rs → FileLines D (l :: ls) rs
  | row {l ls r rs d} : d ≤ D → RowText d r l → FileLines D ls rs → FileLines D (l :: ls) (r :: rs)

/-- The text of these lines. -/
def fileText (lines : List (List Char)) : List Char := ['\n'].intercalate lines

/-- Consecutive months, each row for day 1. -/
def MonthlyRows (rows : List Row) : Prop :=
  ∃ first : ℕ, ∀ (n : ℕ) (r : Row), rows[n]? = some r →
    r.day = 1 ∧ 1 ≤ r.month ∧ r.month ≤ 12 ∧ r.year * 12 + r.month = first + n

/-- `dbl` is like the rounding of a decimal to the nearest double: symmetric, and accurate to `2⁻⁵³` for numbers of
ordinary size. -/
structure NearDouble (dbl : ℚ → ℚ) : Prop where
  odd : ∀ x, dbl (-x) = -dbl x
  err : ∀ x, x = 0 ∨ 1 / 10 ^ 5 ≤ |x| → |x| ≤ 10 ^ 12 → |dbl x - x| ≤ |x| / 2 ^ 53

/-- A line with a field too few. -/
def ThreeFields (line : List Char) : Prop :=
  ∃ w0 a w1 b w2 c w3, line = w0 ++ a ++ w1 ++ b ++ w2 ++ c ++ w3 ∧ Blank 0 w0 ∧ Blank 1 w1 ∧ Blank 1 w2 ∧ Blank 0 w3 ∧
    Digits a ∧ Digits b ∧ Digits c

end Verif.Spec
