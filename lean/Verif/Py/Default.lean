import Verif.Py.Real
import Verif.Py.RoundedNumpy

/-!
# Python numbers with the functions of numpy

Where numpy is installed, pysolar starts with the functions of numpy (numeric.py:137-141), and most callers pass Python
numbers. The functions of numpy return numpy scalars. The operators follow Python's rules while both operands are Python
numbers, and numpy's rules as soon as one of them is a numpy scalar: only the former raise `ZeroDivisionError`.
-/

namespace Verif

/-- The outcome of an operator: by numpy's rule if `t`, else by Python's rule. -/
def tagOp {γ : Type} (t : Bool) (np py : Py γ) : Py (γ × Bool) := (if t then np else py) >>= fun z => pure (z, t)

/-- The numpy scalars of `N` and Python numbers mixed: `(x, true)` is a numpy scalar of value `x`, `(x, false)` a Python
number; `pydiv` and `pypow` are Python's `/` and `**`. Literals, `pi` and `e` are Python numbers (`numpy.pi` is a Python
float). Simplification: the numpy integers that `tm_yday`, `tm_hour` and `tm_min` return for a datetime count as Python
numbers; in the library they reach only `+ - *` and the functions of numpy, where the kind of number makes no
difference. -/
def tagB (N : Backend) (pydiv pypow : N.α → N.α → Py N.α) : Backend where
  α := N.α × Bool
  C := N.C × Bool
  T := N.T
  lit q := (N.lit q, false)
  pi := (N.pi, false)
  e := (N.e, false)
  inf := (N.inf, false)
  add x y := (N.add x.1 y.1, x.2 || y.2)
  sub x y := (N.sub x.1 y.1, x.2 || y.2)
  mul x y := (N.mul x.1 y.1, x.2 || y.2)
  neg x := (N.neg x.1, x.2)
  divq x q := (N.divq x.1 q, x.2)
  modq x q := (N.modq x.1 q, x.2)
  powN x n := (N.powN x.1 n, x.2)
  div x y := tagOp (x.2 || y.2) (N.div x.1 y.1) (pydiv x.1 y.1)
  rpow x y := tagOp (x.2 || y.2) (N.rpow x.1 y.1) (pypow x.1 y.1)
  sin x := do return (← N.sin x.1, true)
  cos x := do return (← N.cos x.1, true)
  tan x := do return (← N.tan x.1, true)
  asin x := do return (← N.asin x.1, true)
  acos x := do return (← N.acos x.1, true)
  atan x := do return (← N.atan x.1, true)
  atan2 y x := do return (← N.atan2 y.1 x.1, true)
  exp x := do return (← N.exp x.1, true)
  radians x := (N.radians x.1, true)
  degrees x := (N.degrees x.1, true)
  lt x y := (N.lt x.1 y.1, x.2 || y.2)
  le x y := (N.le x.1 y.1, x.2 || y.2)
  where_ c x y := (N.where_ c.1 x.1 y.1, true)
  ofC c := (N.ofC c.1, c.2)
  truth c := N.truth c.1
  tdHours x := N.tdHours x.1
  round x := N.round x.1
  npTime := N.npTime
  arrYday t := (N.arrYday t, true)
  arrHour t := (N.arrHour t, true)
  arrMin t := (N.arrMin t, true)

/-- The default configuration in exact arithmetic. -/
noncomputable abbrev dflB (tp : ℝ) : Backend := tagB (npB tp) (mathB tp).div (mathB tp).rpow

/-- The default configuration in double precision (one library for Python and numpy). -/
noncomputable abbrev dflF (F : F64) : Backend := tagB (nprB F) (rndB F).div (rndB F).rpow

/-- The kinds of numbers only: `true` for a numpy scalar. A division of two Python numbers may raise, and does so here.
What depends on values is left out: truth values, rounding and powers raise as well. -/
def kindB : Backend where
  α := Bool
  C := Bool
  T := Unit
  lit _ := false
  pi := false
  e := false
  inf := false
  add x y := x || y
  sub x y := x || y
  mul x y := x || y
  neg x := x
  divq x _ := x
  modq x _ := x
  powN x _ := x
  div x y := if x || y then .ok true else .error .typeError
  rpow _ _ := .error .unmodelled
  sin _ := .ok true
  cos _ := .ok true
  tan _ := .ok true
  asin _ := .ok true
  acos _ := .ok true
  atan _ := .ok true
  atan2 _ _ := .ok true
  exp _ := .ok true
  radians _ := true
  degrees _ := true
  lt x y := x || y
  le x y := x || y
  where_ _ _ _ := true
  ofC c := c
  truth _ := .error .unmodelled
  tdHours _ := .error .unmodelled
  round _ := .error .unmodelled
  npTime := true
  arrYday _ := true
  arrHour _ := true
  arrMin _ := true

end Verif
