import Verif.Py.Backend
import Mathlib.Data.Option.NAry

/-!
# Shapes of numpy arrays

Operations on numpy arrays combine their shapes by broadcasting: shapes are aligned at the right, missing axes count as
size 1, an axis of size 1 is repeated, and sizes that differ otherwise raise `ValueError`.
-/

namespace Verif

/-- A shape, the last axis first (`a.shape[::-1]`); `[]` for numbers. -/
abbrev Shape := List ℕ

/-- The size of an axis of the result. -/
def bcAxis (a b : ℕ) : Option ℕ := if a = b then some a else if a = 1 then some b else if b = 1 then some a else none

/-- `numpy.broadcast_shapes(x, y)`, with the last axis first. -/
def bcShape : Shape → Shape → Option Shape
  | [], y => some y
  | x, [] => some x
  | a :: x, b :: y => Option.map₂ List.cons (bcAxis a b) (bcShape x y)

/-- The shape of an operation on two operands; `none` if their shapes, or those of an operation before, do not fit. -/
def bc (x y : Option Shape) : Option Shape := x.bind fun s => y.bind fun t => bcShape s t

/-- Numbers and arrays represented by their shapes only, with the functions of numpy. Operands of shapes that do not fit
raise `ValueError`: here the result has the shape `none`, and so has all that is computed from it. What does not follow
from shapes is a parameter: the truth of a single value, and a single value as a number of hours or rounded. numpy raises
no exception for the entries. -/
def shapeB (b : Bool) (k : ℤ) : Backend where
  α := Option Shape
  C := Option Shape
  T := Shape
  lit _ := some []
  pi := some []
  e := some []
  inf := some []
  add := bc
  sub := bc
  mul := bc
  neg x := x
  divq x _ := x
  modq x _ := x
  powN x _ := x
  div x y := .ok (bc x y)
  rpow x y := .ok (bc x y)
  sin x := .ok x
  cos x := .ok x
  tan x := .ok x
  asin x := .ok x
  acos x := .ok x
  atan x := .ok x
  atan2 x y := .ok (bc x y)
  exp x := .ok x
  radians x := x
  degrees x := x
  lt := bc
  le := bc
  where_ c x y := bc c (bc x y)
  ofC c := c
  truth c := match c with
    | some s => if s.prod = 1 then .ok b else .error .valueError
    | none => .error .valueError
  tdHours x := match x with
    | some [] => .ok k
    | some _ => .error .typeError
    | none => .error .valueError
  round x := match x with
    | some [] => .ok k
    | some _ => .error .typeError
    | none => .error .valueError
  npTime := true
  arrYday t := some t
  arrHour t := some t
  arrMin t := some t

/-- What a caller sees: the shape of the result, or the exception. -/
def shapeOf : Py (Option Shape) → Py Shape
  | .ok (some s) => .ok s
  | .ok none => .error .valueError
  | .error e => .error e

end Verif
