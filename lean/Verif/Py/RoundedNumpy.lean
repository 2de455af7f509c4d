import Verif.Py.Rounded
import Verif.Spec.Backends

/-!
# numpy in double precision

`nprB F` are numpy scalars with the rounding and the library functions of `F`. Where the `math` module raises, numpy
returns nan or an infinity. `F` is numpy's own rounding and library: nothing relates it to the library behind `math`.
A zero divisor counts as `+0.0` (signed zeros are not modelled).
-/

namespace Verif

open scoped Classical

noncomputable section

/-- numpy scalars (`numpy.float64`) with rounding; see `rndB` for `radians`, `degrees` and `%`, which numpy computes
with the same formulas. -/
def nprB (F : F64) : Backend where
  α := V
  C := Bool
  T := ℤ
  lit q := .fin (F.rnd q)
  pi := .fin (F.rnd Real.pi)
  e := .fin (F.rnd (Real.exp 1))
  inf := .pinf
  add x y := V.rnd F (V.add x y)
  sub x y := V.rnd F (V.sub x y)
  mul x y := V.rnd F (V.mul x y)
  neg := V.neg
  divq x q := V.rnd F (V.divNZ x (.fin (F.rnd q)))
  modq x q := V.rnd F (V.modq x q)
  powN x n :=
    match x with
    | .fin a => V.ovf (F.pow a n)
    | y => V.powN y n
  div x y :=
    match y with
    | .fin b => if b = 0 then .ok (V.mul x .pinf) else .ok (V.rnd F (V.divNZ x y))
    | _ => .ok (V.rnd F (V.divNZ x y))
  rpow x y :=
    match x, y with
    | .fin a, .fin b =>
      if 0 < a then .ok (V.ovf (F.pow a b))
      else if a = 0 then (if b < 0 then .ok .pinf else .ok (.fin (F.pow a b)))
      else if ∃ n : ℤ, (n : ℝ) = b then .ok (V.ovf (F.pow a b))
      else .ok .nan
    | _, _ => .error .unmodelled
  sin x := match x with | .fin a => .ok (.fin (F.sin a)) | _ => .ok .nan
  cos x := match x with | .fin a => .ok (.fin (F.cos a)) | _ => .ok .nan
  tan x := match x with | .fin a => .ok (.fin (F.tan a)) | _ => .ok .nan
  asin x :=
    match x with
    | .fin a => if -1 ≤ a ∧ a ≤ 1 then .ok (.fin (F.asin a)) else .ok .nan
    | _ => .ok .nan
  acos x :=
    match x with
    | .fin a => if -1 ≤ a ∧ a ≤ 1 then .ok (.fin (F.acos a)) else .ok .nan
    | _ => .ok .nan
  atan x := match x with | .fin a => .ok (.fin (F.atan a)) | y => .ok (V.rnd F (V.atan y))
  atan2 y x :=
    match y, x with
    | .fin b, .fin a => .ok (.fin (F.atan2 b a))
    | y, x => .ok (V.rnd F (V.atan2 y x))
  exp x :=
    match x with
    | .fin a => if (2 : ℝ) ^ 1024 ≤ F.exp a then .ok .pinf else .ok (.fin (F.exp a))
    | .ninf => .ok (.fin 0)
    | y => .ok y
  radians x := V.rnd F (V.mul x (.fin (F.rnd (F.rnd Real.pi / 180))))
  degrees x := V.rnd F (V.mul x (.fin (F.rnd (180 / F.rnd Real.pi))))
  lt := V.lt
  le := V.le
  where_ c x y := if c then x else y
  ofC c := if c then .fin 1 else .fin 0
  truth c := .ok c
  tdHours := tdHoursF F
  round := roundV
  npTime := true
  arrYday t := .fin (Pysolar.Numeric.ydayOfMicros t : ℝ)
  arrHour t := .fin (Pysolar.Numeric.hourOfMicros t : ℝ)
  arrMin t := .fin (Pysolar.Numeric.minOfMicros t : ℝ)

/-- numpy arrays of shape `ι` in double precision. -/
abbrev arrF (F : F64) (ι : Type) : Backend := vecB (nprB F) ι

end

end Verif
