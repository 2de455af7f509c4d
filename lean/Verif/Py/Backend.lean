import Verif.Py.DateTime

/-!
# The numeric backend

pysolar computes through `pysolar/numeric.py`, whose global names `sin`, `asin`, `where`, `tm_yday`, ...
are bound either to the `math` module or to numpy (numeric.py:91-141).  A `Backend` is one such choice
together with the arithmetic of the values flowing through it.  Every model function is written over an
arbitrary backend.

Operators `+ - *`, unary minus, division by and remainder of *literal* non-zero constants and natural
powers are pure; every other operation may raise.
-/

namespace Verif

structure Backend where
  /-- numbers: Python floats, numpy scalars or arrays -/
  α : Type
  /-- results of comparisons: booleans or arrays of booleans -/
  C : Type
  /-- arrays of `datetime64` -/
  T : Type
  /-- numeric literals and exact integers/rationals entering the computation -/
  lit : ℚ → α
  pi : α
  e : α
  /-- `float("inf")` -/
  inf : α
  add : α → α → α
  sub : α → α → α
  mul : α → α → α
  neg : α → α
  /-- `x / q` for a literal constant `q ≠ 0` -/
  divq : α → ℚ → α
  /-- `x % q` for a literal constant `q > 0` -/
  modq : α → ℚ → α
  /-- `x ** n` for a literal natural number `n` -/
  powN : α → ℕ → α
  /-- `x / y` -/
  div : α → α → Py α
  /-- `x ** y` -/
  rpow : α → α → Py α
  sin : α → Py α
  cos : α → Py α
  tan : α → Py α
  asin : α → Py α
  acos : α → Py α
  atan : α → Py α
  /-- `atan2(y, x)` -/
  atan2 : α → α → Py α
  exp : α → Py α
  radians : α → α
  degrees : α → α
  /-- `x < y` -/
  lt : α → α → C
  /-- `x <= y` -/
  le : α → α → C
  /-- `where(cond, x, y)` (numeric.py:45-52, numpy.where): both branches already evaluated -/
  where_ : C → α → α → α
  /-- a comparison result used as a number (`360 * (x < 0)`) -/
  ofC : C → α
  /-- a comparison result used as a branch condition (`if`) -/
  truth : C → Py Bool
  /-- `timedelta(hours = x)` as microseconds -/
  tdHours : α → Py ℤ
  /-- Python's built-in `round(x)` -/
  round : α → Py ℤ
  /-- whether `tm_yday`, `tm_hour`, `tm_min` are the numpy versions (numeric.py:108-110) -/
  npTime : Bool
  /-- `tm_yday_numpy`, `tm_hour_numpy`, `tm_min_numpy` on arrays (numeric.py:61-64,73-76,85-88) -/
  arrYday : T → α
  arrHour : T → α
  arrMin : T → α

namespace Backend

variable {B : Backend}

instance : Add B.α := ⟨B.add⟩
instance : Sub B.α := ⟨B.sub⟩
instance : Mul B.α := ⟨B.mul⟩
instance : Neg B.α := ⟨B.neg⟩
instance (n : ℕ) : OfNat B.α n := ⟨B.lit n⟩
instance : OfScientific B.α := ⟨fun m s e => B.lit (OfScientific.ofScientific m s e)⟩
instance : HPow B.α ℕ B.α := ⟨B.powN⟩

end Backend

/-- `x / q` with a literal non-zero denominator. -/
infixl:70 " /. " => Backend.divq _
/-- `x % q` with a literal positive modulus. -/
infixl:70 " %. " => Backend.modq _

/-- The argument passed as `when`: a datetime, an array of `datetime64` (anything with a `shape`), or
some other object without a `tzinfo` attribute. -/
inductive When (B : Backend) where
  | dt (d : DateTime)
  | arr (t : B.T)
  | other

end Verif
