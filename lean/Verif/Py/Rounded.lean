import Verif.Py.Real

/-!
# Floating-point arithmetic

`F64` describes what is assumed of double-precision arithmetic and of the C mathematics library: a monotone rounding
with relative error at most 2^-53 (below the smallest normal number: absolute error at most 2^-1075), exact on
integers up to 2^53; library functions whose results are off by about one unit in the last place at most, the tangent being large at its
poles (which no double is).
`rndB F` is the numeric backend in which every operation is rounded this way. `Proofs/Binary64.lean` shows that
round-to-nearest-even with correctly rounded library functions is an instance.
-/

namespace Verif

open scoped Classical

/-- Rounding and library functions. -/
structure F64 where
  rnd : ℝ → ℝ
  rnd_mono : Monotone rnd
  rnd_err : ∀ x, |rnd x - x| ≤ |x| / 2 ^ 53 + 1 / 2 ^ 1075
  rnd_int : ∀ n : ℤ, |n| ≤ 2 ^ 53 → rnd n = n
  sin : ℝ → ℝ
  cos : ℝ → ℝ
  tan : ℝ → ℝ
  asin : ℝ → ℝ
  acos : ℝ → ℝ
  atan : ℝ → ℝ
  atan2 : ℝ → ℝ → ℝ
  exp : ℝ → ℝ
  pow : ℝ → ℝ → ℝ
  sin_err : ∀ x, |sin x - Real.sin x| ≤ 1 / 2 ^ 52
  cos_err : ∀ x, |cos x - Real.cos x| ≤ 1 / 2 ^ 52
  sin_le : ∀ x, |sin x| ≤ 1
  cos_le : ∀ x, |cos x| ≤ 1
  tan_err : ∀ x, Real.cos x ≠ 0 → |tan x - Real.tan x| ≤ |Real.tan x| / 2 ^ 51 + 1 / 2 ^ 1074
  tan_pole : ∀ x, Real.cos x = 0 → 10 ^ 6 ≤ |tan x|
  asin_err : ∀ x, |x| ≤ 1 → |asin x - Real.arcsin x| ≤ 1 / 2 ^ 51
  acos_err : ∀ x, |x| ≤ 1 → |acos x - Real.arccos x| ≤ 1 / 2 ^ 50
  atan_err : ∀ x, |atan x - Real.arctan x| ≤ 1 / 2 ^ 51
  atan2_err : ∀ y x, |atan2 y x - Complex.arg ⟨x, y⟩| ≤ 1 / 2 ^ 50
  exp_err : ∀ x, |exp x - Real.exp x| ≤ Real.exp x / 2 ^ 51 + 1 / 2 ^ 1074
  pow_err : ∀ x y : ℝ, 0 < x → |pow x y - x ^ y| ≤ x ^ y / 2 ^ 51 + 1 / 2 ^ 1074
  powN_err : ∀ (x : ℝ) (n : ℕ), |pow x n - x ^ n| ≤ |x| ^ n / 2 ^ 51 + 1 / 2 ^ 1074

noncomputable section

namespace V

/-- Rounding of a result, with overflow to an infinity. -/
def rnd (F : F64) : V → V
  | fin a => if 2 ^ 1024 ≤ F.rnd a then pinf else if F.rnd a ≤ -2 ^ 1024 then ninf else fin (F.rnd a)
  | x => x

/-- Overflow of a library result. -/
def ovf (a : ℝ) : V := if 2 ^ 1024 ≤ a then pinf else if a ≤ -2 ^ 1024 then ninf else fin a

end V

/-- The integral part, as returned by C's `modf`. -/
def truncR (a : ℝ) : ℤ := if 0 ≤ a then ⌊a⌋ else ⌈a⌉

/-- `timedelta(hours = x)` as CPython computes it (Modules/_datetimemodule.c, `accum` and `delta_new`): the whole hours are
converted exactly, the product of the fractional part and 3600000000 is rounded to a float, and the sum is rounded to
the nearest microsecond, ties to even. -/
def tdHoursF (F : F64) : V → Py ℤ
  | .fin a =>
    let us := roundHalfEven (truncR a * 3600000000 + F.rnd (3600000000 * (a - truncR a)))
    if -999999999 * usPerDay ≤ us ∧ us < 1000000000 * usPerDay then .ok us else .error .overflow
  | .nan => .error .valueError
  | _ => .error .overflow

/-- Python's `math` module on floats, with rounding.

`math.radians(x)` is `x * (pi / 180)`, `math.degrees(x)` is `x * (180 / pi)` (CPython's mathmodule.c). `x % q` is the
exact remainder, with the addition of `q` for negative `x` rounded. Literals are rounded to the nearest float (those
of pysolar neither overflow nor round to zero). Comparison, negation and `round` act on the rounded values. -/
def rndB (F : F64) : Backend where
  α := V
  C := Bool
  T := ℤ
  lit q := .fin (F.rnd q)
  pi := .fin (F.rnd Real.pi)
  e := .fin (F.rnd (Real.exp 1))
  inf := .pinf
  add x y := V.rnd F (V.add x y)
  sub x y := V.rnd F (V.sub x y)
  mul x y := V.rnd F (V.mul x y)
  neg := V.neg
  divq x q := V.rnd F (V.divNZ x (.fin (F.rnd q)))
  modq x q := V.rnd F (V.modq x q)
  powN x n :=
    match x with
    | .fin a => V.ovf (F.pow a n)
    | y => V.powN y n
  div x y :=
    match y with
    | .fin b => if b = 0 then .error .zeroDivision else .ok (V.rnd F (V.divNZ x y))
    | _ => .ok (V.rnd F (V.divNZ x y))
  rpow x y :=
    match x, y with
    | .fin a, .fin b =>
      if 0 < a then (if 2 ^ 1024 ≤ F.pow a b then .error .overflow else .ok (.fin (F.pow a b)))
      else if a = 0 then (if b < 0 then .error .zeroDivision else .ok (.fin (F.pow a b)))
      else if ∃ n : ℤ, (n : ℝ) = b then .ok (V.ovf (F.pow a b))
      else .error .complexResult
    | _, _ => .error .unmodelled
  sin x := match x with | .fin a => .ok (.fin (F.sin a)) | .nan => .ok .nan | _ => .error .valueError
  cos x := match x with | .fin a => .ok (.fin (F.cos a)) | .nan => .ok .nan | _ => .error .valueError
  tan x := match x with | .fin a => .ok (.fin (F.tan a)) | .nan => .ok .nan | _ => .error .valueError
  asin x :=
    match x with
    | .fin a => if -1 ≤ a ∧ a ≤ 1 then .ok (.fin (F.asin a)) else .error .valueError
    | .nan => .ok .nan
    | _ => .error .valueError
  acos x :=
    match x with
    | .fin a => if -1 ≤ a ∧ a ≤ 1 then .ok (.fin (F.acos a)) else .error .valueError
    | .nan => .ok .nan
    | _ => .error .valueError
  atan x := match x with | .fin a => .ok (.fin (F.atan a)) | y => .ok (V.rnd F (V.atan y))
  atan2 y x :=
    match y, x with
    | .fin b, .fin a => .ok (.fin (F.atan2 b a))
    | y, x => .ok (V.rnd F (V.atan2 y x))
  exp x :=
    match x with
    | .fin a => if (2 : ℝ) ^ 1024 ≤ F.exp a then .error .overflow else .ok (.fin (F.exp a))
    | .ninf => .ok (.fin 0)
    | y => .ok y
  radians x := V.rnd F (V.mul x (.fin (F.rnd (F.rnd Real.pi / 180))))
  degrees x := V.rnd F (V.mul x (.fin (F.rnd (180 / F.rnd Real.pi))))
  lt := V.lt
  le := V.le
  where_ c x y := if c then x else y
  ofC c := if c then .fin 1 else .fin 0
  truth c := .ok c
  tdHours := tdHoursF F
  round := roundV
  npTime := false
  arrYday t := .fin (Pysolar.Numeric.ydayOfMicros t : ℝ)
  arrHour t := .fin (Pysolar.Numeric.hourOfMicros t : ℝ)
  arrMin t := .fin (Pysolar.Numeric.minOfMicros t : ℝ)

end

end Verif
