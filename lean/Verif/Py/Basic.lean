import Mathlib.Data.Rat.Defs
import Mathlib.Data.Rat.Cast.Defs

/-!
# Python runtime: exceptions as values

`Py α` is the result of running a piece of Python: a value or a raised exception.
-/

namespace Verif

/-- The exceptions that can be observed by a caller of pysolar.
`complexResult` and `unmodelled` are not exceptions of the program: they mark points where the
Python code leaves the part of its behaviour that this model describes (a negative float raised to a
fractional power, which Python 3 evaluates to a `complex`; a datetime interpreted in the machine's
local time zone; non-finite operands of `**`, `round`). -/
inductive PyErr where
  /-- `tzinfo_check.NoTimeZoneInfoError` with its `argname` (tzinfo_check.py:6-17). -/
  | noTimeZoneInfo (argname : String)
  /-- `ValueError`, e.g. "math domain error". -/
  | valueError
  | zeroDivision
  | overflow
  | keyError
  | typeError
  | indexError
  | nameError
  | attributeError
  | assertionError
  | complexResult
  | unmodelled
  deriving DecidableEq, Repr

/-- The result of running Python code. -/
abbrev Py (α : Type) := Except PyErr α

/-- `xs[i]` for a non-negative index `i`; raises `IndexError` past the end. -/
def pyIndex {α : Type} (xs : List α) (i : Nat) : Py α :=
  match xs[i]? with
  | some x => .ok x
  | none => .error .indexError

/-- `d[k]` on a dictionary, given as an association list; raises `KeyError` if absent. -/
def pyLookup {α : Type} (d : List (String × α)) (k : String) : Py α :=
  match d.lookup k with
  | some x => .ok x
  | none => .error .keyError

/-- `xs[i]` with Python's treatment of a negative index: counted from the end. -/
def pyIndexInt {α : Type} (xs : List α) (i : ℤ) : Py α :=
  if 0 ≤ i then pyIndex xs i.toNat
  else if 0 ≤ (xs.length : ℤ) + i then pyIndex xs ((xs.length : ℤ) + i).toNat
  else .error .indexError

end Verif
