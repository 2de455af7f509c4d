import Verif.Model.Numeric
import Mathlib.Analysis.SpecialFunctions.Trigonometric.Inverse
import Mathlib.Analysis.SpecialFunctions.Trigonometric.Arctan
import Mathlib.Analysis.SpecialFunctions.Complex.Arg
import Mathlib.Analysis.SpecialFunctions.Pow.Real

/-!
# Concrete numeric backends

* `V`: Python floats idealised as exact reals plus the non-finite values.
* `mathB tp`: the `math` module and float arithmetic, raising where Python raises.
* `npB tp`: numpy scalars, producing nan/inf where `math` raises.
* `vecB B ι`: numpy arrays of shape `ι` over a scalar backend.

Rounding, overflow of `+ - *`, and signed zeros are not modelled. `tan` at a pole (where the float code
returns a huge number of unspecified sign) returns the arbitrary real `tp`.
-/

namespace Verif

open scoped Classical

/-- Idealised floats. -/
inductive V where
  | fin (x : ℝ)
  | pinf
  | ninf
  | nan

namespace V

noncomputable section

def add : V → V → V
  | nan, _ => nan
  | _, nan => nan
  | fin a, fin b => fin (a + b)
  | fin _, y => y
  | x, fin _ => x
  | pinf, pinf => pinf
  | ninf, ninf => ninf
  | pinf, ninf => nan
  | ninf, pinf => nan

def neg : V → V
  | fin a => fin (-a)
  | pinf => ninf
  | ninf => pinf
  | nan => nan

def sub : V → V → V
  | fin a, fin b => fin (a - b)
  | x, y => add x (neg y)

/-- An infinity times a finite number. -/
def infMul (a : ℝ) (i : V) : V := if 0 < a then i else if a < 0 then neg i else nan

def mul : V → V → V
  | nan, _ => nan
  | _, nan => nan
  | fin a, fin b => fin (a * b)
  | fin a, y => infMul a y
  | x, fin b => infMul b x
  | pinf, y => y
  | ninf, y => neg y

def divq : V → ℚ → V
  | fin a, q => fin (a / (q : ℝ))
  | x, q => infMul (q : ℝ) x

def modq : V → ℚ → V
  | fin a, q => fin (a - (q : ℝ) * ⌊a / (q : ℝ)⌋)
  | _, _ => nan

def powN : V → ℕ → V
  | _, 0 => fin 1
  | fin a, n => fin (a ^ n)
  | pinf, _ => pinf
  | ninf, n => if Even n then pinf else ninf
  | nan, _ => nan

/-- Division of two floats, for a non-zero divisor. -/
def divNZ : V → V → V
  | nan, _ => nan
  | _, nan => nan
  | fin a, fin b => fin (a / b)
  | fin _, _ => fin 0
  | x, fin b => infMul b x
  | _, _ => nan

def lt : V → V → Bool
  | nan, _ => false
  | _, nan => false
  | fin a, fin b => decide (a < b)
  | fin _, pinf => true
  | fin _, ninf => false
  | ninf, fin _ => true
  | ninf, pinf => true
  | ninf, ninf => false
  | pinf, _ => false

def le : V → V → Bool
  | nan, _ => false
  | _, nan => false
  | fin a, fin b => decide (a ≤ b)
  | fin _, pinf => true
  | fin _, ninf => false
  | ninf, _ => true
  | pinf, pinf => true
  | pinf, _ => false

def atan2 : V → V → V
  | nan, _ => nan
  | _, nan => nan
  | fin y, fin x => fin (Complex.arg ⟨x, y⟩)
  | fin _, pinf => fin 0
  | fin y, ninf => if 0 ≤ y then fin Real.pi else fin (-Real.pi)
  | pinf, fin _ => fin (Real.pi / 2)
  | ninf, fin _ => fin (-(Real.pi / 2))
  | pinf, pinf => fin (Real.pi / 4)
  | pinf, ninf => fin (3 * Real.pi / 4)
  | ninf, pinf => fin (-(Real.pi / 4))
  | ninf, ninf => fin (-(3 * Real.pi / 4))

def atan : V → V
  | fin a => fin (Real.arctan a)
  | pinf => fin (Real.pi / 2)
  | ninf => fin (-(Real.pi / 2))
  | nan => nan

def radians : V → V
  | fin a => fin (a * Real.pi / 180)
  | x => x

def degrees : V → V
  | fin a => fin (a * 180 / Real.pi)
  | x => x

end

end V

noncomputable section

/-- Rounding to the nearest integer, ties to even (Python's `round`, and `timedelta`). -/
def roundHalfEven (x : ℝ) : ℤ :=
  if Int.fract x < 1 / 2 then ⌊x⌋
  else if 1 / 2 < Int.fract x then ⌊x⌋ + 1
  else if Even ⌊x⌋ then ⌊x⌋ else ⌊x⌋ + 1

/-- `timedelta(hours = x)`: nearest microsecond, `OverflowError` beyond 999999999 days,
`ValueError` for nan. -/
def tdHoursV : V → Py ℤ
  | .fin a =>
    let us := roundHalfEven (a * 3600000000)
    if -999999999 * usPerDay ≤ us ∧ us < 1000000000 * usPerDay then .ok us else .error .overflow
  | .nan => .error .valueError
  | _ => .error .overflow

/-- `round(x)`. -/
def roundV : V → Py ℤ
  | .fin a => .ok (roundHalfEven a)
  | .nan => .error .valueError
  | _ => .error .overflow

/-- Python's `math` module on floats, idealised. -/
def mathB (tp : ℝ) : Backend where
  α := V
  C := Bool
  T := ℤ
  lit q := .fin (q : ℝ)
  pi := .fin Real.pi
  e := .fin (Real.exp 1)
  inf := .pinf
  add := V.add
  sub := V.sub
  mul := V.mul
  neg := V.neg
  divq := V.divq
  modq := V.modq
  powN := V.powN
  div x y :=
    match y with
    | .fin b => if b = 0 then .error .zeroDivision else .ok (V.divNZ x y)
    | _ => .ok (V.divNZ x y)
  rpow x y :=
    match x, y with
    | .fin a, .fin b =>
      if 0 < a then .ok (.fin (a ^ b))
      else if a = 0 then (if b < 0 then .error .zeroDivision else .ok (.fin (a ^ b)))
      else if ∃ n : ℤ, (n : ℝ) = b then .ok (.fin (a ^ b))
      else .error .complexResult
    | _, _ => .error .unmodelled
  sin x := match x with | .fin a => .ok (.fin (Real.sin a)) | .nan => .ok .nan | _ => .error .valueError
  cos x := match x with | .fin a => .ok (.fin (Real.cos a)) | .nan => .ok .nan | _ => .error .valueError
  tan x :=
    match x with
    | .fin a => .ok (.fin (if Real.cos a = 0 then tp else Real.tan a))
    | .nan => .ok .nan
    | _ => .error .valueError
  asin x :=
    match x with
    | .fin a => if -1 ≤ a ∧ a ≤ 1 then .ok (.fin (Real.arcsin a)) else .error .valueError
    | .nan => .ok .nan
    | _ => .error .valueError
  acos x :=
    match x with
    | .fin a => if -1 ≤ a ∧ a ≤ 1 then .ok (.fin (Real.arccos a)) else .error .valueError
    | .nan => .ok .nan
    | _ => .error .valueError
  atan x := .ok (V.atan x)
  atan2 y x := .ok (V.atan2 y x)
  exp x :=
    match x with
    | .fin a => if (2 : ℝ) ^ 1024 ≤ Real.exp a then .error .overflow else .ok (.fin (Real.exp a))
    | .ninf => .ok (.fin 0)
    | y => .ok y
  radians := V.radians
  degrees := V.degrees
  lt := V.lt
  le := V.le
  where_ c x y := if c then x else y
  ofC c := if c then .fin 1 else .fin 0
  truth c := .ok c
  tdHours := tdHoursV
  round := roundV
  npTime := false
  arrYday t := .fin (Pysolar.Numeric.ydayOfMicros t : ℝ)
  arrHour t := .fin (Pysolar.Numeric.hourOfMicros t : ℝ)
  arrMin t := .fin (Pysolar.Numeric.minOfMicros t : ℝ)

/-- numpy scalars (`numpy.float64`), idealised. A zero divisor counts as `+0.0`. -/
def npB (tp : ℝ) : Backend where
  α := V
  C := Bool
  T := ℤ
  lit q := .fin (q : ℝ)
  pi := .fin Real.pi
  e := .fin (Real.exp 1)
  inf := .pinf
  add := V.add
  sub := V.sub
  mul := V.mul
  neg := V.neg
  divq := V.divq
  modq := V.modq
  powN := V.powN
  div x y :=
    match y with
    | .fin b => if b = 0 then .ok (V.mul x .pinf) else .ok (V.divNZ x y)
    | _ => .ok (V.divNZ x y)
  rpow x y :=
    match x, y with
    | .fin a, .fin b =>
      if 0 < a then .ok (.fin (a ^ b))
      else if a = 0 then (if b < 0 then .ok .pinf else .ok (.fin (a ^ b)))
      else if ∃ n : ℤ, (n : ℝ) = b then .ok (.fin (a ^ b))
      else .ok .nan
    | _, _ => .error .unmodelled
  sin x := match x with | .fin a => .ok (.fin (Real.sin a)) | _ => .ok .nan
  cos x := match x with | .fin a => .ok (.fin (Real.cos a)) | _ => .ok .nan
  tan x :=
    match x with
    | .fin a => .ok (.fin (if Real.cos a = 0 then tp else Real.tan a))
    | _ => .ok .nan
  asin x :=
    match x with
    | .fin a => if -1 ≤ a ∧ a ≤ 1 then .ok (.fin (Real.arcsin a)) else .ok .nan
    | _ => .ok .nan
  acos x :=
    match x with
    | .fin a => if -1 ≤ a ∧ a ≤ 1 then .ok (.fin (Real.arccos a)) else .ok .nan
    | _ => .ok .nan
  atan x := .ok (V.atan x)
  atan2 y x := .ok (V.atan2 y x)
  exp x :=
    match x with
    | .fin a => if (2 : ℝ) ^ 1024 ≤ Real.exp a then .ok .pinf else .ok (.fin (Real.exp a))
    | .ninf => .ok (.fin 0)
    | y => .ok y
  radians := V.radians
  degrees := V.degrees
  lt := V.lt
  le := V.le
  where_ c x y := if c then x else y
  ofC c := if c then .fin 1 else .fin 0
  truth c := .ok c
  tdHours := tdHoursV
  round := roundV
  npTime := true
  arrYday t := .fin (Pysolar.Numeric.ydayOfMicros t : ℝ)
  arrHour t := .fin (Pysolar.Numeric.hourOfMicros t : ℝ)
  arrMin t := .fin (Pysolar.Numeric.minOfMicros t : ℝ)

/-- Evaluate an elementwise operation on a whole array: succeeds iff every element does (otherwise it
raises the exception of some failing element). -/
def seqV {ι α : Type} (f : ι → Py α) : Py (ι → α) :=
  if h : ∀ i, ∃ y, f i = .ok y then .ok fun i => (h i).choose
  else
    match f (not_forall.mp h).choose with
    | .error e => .error e
    | .ok _ => .error .unmodelled

/-- numpy arrays of shape `ι` (any set of indices) over a scalar backend; scalars are broadcast. -/
def vecB (B : Backend) (ι : Type) : Backend where
  α := ι → B.α
  C := ι → B.C
  T := ι → B.T
  lit q := fun _ => B.lit q
  pi := fun _ => B.pi
  e := fun _ => B.e
  inf := fun _ => B.inf
  add x y := fun i => B.add (x i) (y i)
  sub x y := fun i => B.sub (x i) (y i)
  mul x y := fun i => B.mul (x i) (y i)
  neg x := fun i => B.neg (x i)
  divq x q := fun i => B.divq (x i) q
  modq x q := fun i => B.modq (x i) q
  powN x n := fun i => B.powN (x i) n
  div x y := seqV fun i => B.div (x i) (y i)
  rpow x y := seqV fun i => B.rpow (x i) (y i)
  sin x := seqV fun i => B.sin (x i)
  cos x := seqV fun i => B.cos (x i)
  tan x := seqV fun i => B.tan (x i)
  asin x := seqV fun i => B.asin (x i)
  acos x := seqV fun i => B.acos (x i)
  atan x := seqV fun i => B.atan (x i)
  atan2 y x := seqV fun i => B.atan2 (y i) (x i)
  exp x := seqV fun i => B.exp (x i)
  radians x := fun i => B.radians (x i)
  degrees x := fun i => B.degrees (x i)
  lt x y := fun i => B.lt (x i) (y i)
  le x y := fun i => B.le (x i) (y i)
  where_ c x y := fun i => B.where_ (c i) (x i) (y i)
  ofC c := fun i => B.ofC (c i)
  truth c := if h : ∃ i : ι, ∀ j, j = i then B.truth (c h.choose) else .error .valueError
  tdHours _ := .error .typeError
  round _ := .error .typeError
  npTime := B.npTime
  arrYday t := fun i => B.arrYday (t i)
  arrHour t := fun i => B.arrHour (t i)
  arrMin t := fun i => B.arrMin (t i)

end

end Verif
