import Verif.Py.Basic
import Mathlib.Data.Rat.Floor

/-!
# Model of the script util/get_delta_t

The script reads monthly rows and prints Python source. This module models the loop: it starts from the
parsed rows `(year, month, day, dt)` and represents the printed source by its tokens. The reading of the
text and the characters printed are in `Model/DeltaTText.lean`.
-/

open Verif

namespace Pysolar.DeltaTGen

/-- A row yielded by `parse_data` (util/get_delta_t:38-39). -/
structure Entry where
  year : ℤ
  month : ℤ
  day : ℤ
  dt : ℚ
  deriving DecidableEq, Repr

/-- The pieces of Python source written to stdout. -/
inductive Token where
  /-- `delta_t_base_year = %d` (line 64) -/
  | baseYear (y : ℤ)
  /-- `delta_t_base_month = %d` (line 65) -/
  | baseMonth (m : ℤ)
  /-- `delta_t = [` (line 66) -/
  | openTable
  /-- `[ # year` (line 70) -/
  | openRow (year : ℤ)
  /-- `%.4f, # month` (line 80) -/
  | value (v : ℚ) (month : ℤ)
  /-- `],` (line 54) -/
  | closeRow
  /-- `] # delta_t` (line 56) -/
  | closeTable
  deriving DecidableEq, Repr

/-- `'%.4f' % x`: correct rounding to four decimals, ties to even. -/
def fmt4 (x : ℚ) : ℚ :=
  let s := x * 10000
  let f : ℤ := Rat.floor s
  let r := s - f
  ((if r < 1 / 2 then f else if 1 / 2 < r then f + 1 else if f % 2 = 0 then f else f + 1 : ℤ) : ℚ)
    / 10000

/-- util/get_delta_t:46-82: the main loop from the state `last_year`, `last_month` (`none` is `None`);
the output tokens, or `AssertionError`. -/
def genLoop (last_year last_month : Option ℤ) : List Entry → Py (List Token)
  | [] =>
    match last_year with
    | none => .ok []
    | some _ => .ok [.closeRow, .closeTable]
  | en :: rest =>
    if en.day ≠ 1 then .error .assertionError
    else if last_year ≠ some en.year then
      match last_year with
      | none => do
        let out ← genLoop (some en.year) (some en.month) rest
        return [.baseYear en.year, .baseMonth en.month, .openTable, .openRow en.year,
          .value (fmt4 en.dt) en.month] ++ out
      | some ly =>
        if ly + 1 ≠ en.year then .error .assertionError
        else if last_month ≠ some 12 then .error .assertionError
        else if en.month ≠ 0 + 1 then .error .assertionError
        else do
          let out ← genLoop (some en.year) (some en.month) rest
          return [.closeRow, .openRow en.year, .value (fmt4 en.dt) en.month] ++ out
    else
      match last_month with
      | none => .error .unmodelled
      | some lm =>
        if en.month ≠ lm + 1 then .error .assertionError
        else do
          let out ← genLoop (some en.year) (some en.month) rest
          return [.value (fmt4 en.dt) en.month] ++ out

/-- util/get_delta_t: the whole script on parsed data. -/
def generate (data : List Entry) : Py (List Token) := genLoop none none data

end Pysolar.DeltaTGen
