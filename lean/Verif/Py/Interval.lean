import Verif.Model.Numeric

/-!
# A backend of intervals

Numbers are intervals in fixed point, in units of 2^-64, computed with integers only. A model function run on it at
given arguments encloses the exact result (`Proofs/Interval.lean`), by evaluation in the kernel. Used for concrete
cases, not part of the model of the code.
-/

namespace Verif

/-- An interval, or no information. -/
inductive Iv where
  | mk (lo hi : ℤ)
  | top
  deriving DecidableEq

namespace Iv

/-- One in fixed point. -/
def one : ℤ := 18446744073709551616

/-- The quotient rounded up. -/
def cdiv (a b : ℤ) : ℤ := -(-a / b)

/-- π in fixed point, rounded down. -/
def piZ : ℤ := 57952155664616982739

/-- Cosine and sine of `x`, for `x` up to 4 radians: Horner scheme for the exponential series. -/
def hor (x : ℤ) : ℕ → ℕ → ℤ × ℤ
  | 0, _ => (one, 0)
  | m + 1, k =>
    let p := hor x m (k + 1)
    (one - x * p.2 / (k * one), x * p.1 / (k * one))

/-- The same for any `x`, with an error bound. -/
def cosSin (x : ℤ) : Option (ℤ × ℤ × ℤ) :=
  let k := (x + piZ) / (2 * piZ)
  let y := x - 2 * k * piZ
  if -(4 * one) ≤ y ∧ y ≤ 4 * one then
    let p := hor y 36 1
    some (p.1, p.2, 2 * k.natAbs + 128)
  else none

def lit (q : ℚ) : Iv := mk (q.num * one / q.den) (cdiv (q.num * one) q.den)

def pi : Iv := mk piZ (piZ + 1)

def add : Iv → Iv → Iv
  | mk a b, mk c d => mk (a + c) (b + d)
  | _, _ => top

def neg : Iv → Iv
  | mk a b => mk (-b) (-a)
  | top => top

def sub (x y : Iv) : Iv := add x (neg y)

def mul : Iv → Iv → Iv
  | mk a b, mk c d =>
    mk (min (min (a * c) (a * d)) (min (b * c) (b * d)) / one) (cdiv (max (max (a * c) (a * d)) (max (b * c) (b * d))) one)
  | _, _ => top

def divq : Iv → ℚ → Iv
  | mk a b, q =>
    if 0 < q.num then mk (a * q.den / q.num) (cdiv (b * q.den) q.num)
    else if q.num < 0 then mk (-b * q.den / -q.num) (cdiv (-a * q.den) (-q.num))
    else top
  | _, _ => top

def modq : Iv → ℚ → Iv
  | mk a b, q =>
    let m := q.num * one
    if q.den = 1 ∧ 0 < q.num ∧ a / m = b / m then mk (a - a / m * m) (b - a / m * m) else top
  | _, _ => top

def powN (x : Iv) : ℕ → Iv
  | 0 => mk one one
  | n + 1 => mul (powN x n) x

/-- `1 / x` for an interval on one side of 0. -/
def recip : Iv → Option Iv
  | mk a b =>
    if 0 < a then some (mk (one * one / b) (cdiv (one * one) a))
    else if b < 0 then some (mk (-cdiv (one * one) (-b)) (-(one * one / -a)))
    else none
  | top => none

def div (x y : Iv) : Py Iv :=
  match recip y with
  | some z => .ok (mul x z)
  | none => .error .unmodelled

/-- Cosine and sine of all numbers in an interval. -/
def trig : Iv → Option (Iv × Iv)
  | mk a b =>
    let m := (a + b) / 2
    match cosSin m with
    | some (c, s, e) =>
      let r := max (b - m) (m - a) + e
      some (mk (c - r) (c + r), mk (s - r) (s + r))
    | none => none
  | top => none

def cos (x : Iv) : Py Iv :=
  match trig x with
  | some p => .ok p.1
  | none => .error .unmodelled

def sin (x : Iv) : Py Iv :=
  match trig x with
  | some p => .ok p.2
  | none => .error .unmodelled

def tan (x : Iv) : Py Iv :=
  match trig x with
  | some p => div p.2 p.1
  | none => .error .unmodelled

/-- Newton's method for the arc sine (not trusted). -/
def asinGuess (x : ℤ) : ℕ → ℤ
  | 0 => x
  | n + 1 =>
    let g := asinGuess x n
    match cosSin g with
    | some (c, s, _) => if c = 0 then g else g + (x - s) * one / c
    | none => g

/-- A number that is at most the arc sine of `x`. -/
def asinLo (x : ℤ) : Option ℤ :=
  let y := asinGuess x 8 - 16384
  match trig (mk y y) with
  | some (_, mk _ s) => if s ≤ x ∧ -(2 * y) < piZ ∧ 2 * y ≤ piZ then some y else none
  | _ => none

def asin : Iv → Py Iv
  | mk a b =>
    match asinLo a, asinLo (-b) with
    | some y, some z => .ok (mk y (-z))
    | _, _ => .error .unmodelled
  | top => .error .unmodelled

def acos (x : Iv) : Py Iv :=
  match asin x with
  | .ok y => .ok (sub (divq pi 2) y)
  | .error e => .error e

/-- An approximate direction of `(x, y)` (not trusted). -/
def argGuess (y x : ℤ) : ℕ → ℤ
  | 0 =>
    if |y| ≤ |x| then
      (if 0 < x then 0 else if 0 ≤ y then piZ else -piZ) + (if x = 0 then 0 else y * one * 4 / (5 * x))
    else (if 0 < y then piZ / 2 else -(piZ / 2)) - x * one * 4 / (5 * y)
  | n + 1 =>
    let g := argGuess y x n
    match cosSin g with
    | some (c, s, _) =>
      let u := x * c + y * s
      if u = 0 then g else g + (y * c - x * s) * one / u
    | none => g

/-- The direction of `(x, y)`. -/
def atan2 : Iv → Iv → Py Iv
  | mk c d, mk a b =>
    let g := argGuess ((c + d) / 2) ((a + b) / 2) 4
    match trig (mk g g) with
    | some (p, q) =>
      match add (mul (mk a b) p) (mul (mk c d) q), sub (mul (mk c d) p) (mul (mk a b) q) with
      | mk u _, mk v w =>
        let t := cdiv (max (-v) w * one) u
        if 0 < u ∧ 0 ≤ t ∧ -piZ < g - t ∧ g + t < piZ then .ok (mk (g - t) (g + t)) else .error .unmodelled
      | _, _ => .error .unmodelled
    | none => .error .unmodelled
  | _, _ => .error .unmodelled

def atan (x : Iv) : Py Iv := atan2 x (mk one one)

/-- `1 / π`. -/
def invPi : Iv := mk (one * one / (piZ + 1)) (cdiv (one * one) piZ)

def radians (x : Iv) : Iv := divq (mul x pi) 180

def degrees (x : Iv) : Iv := mul (mul x (lit 180)) invPi

/-- The exponential of `x`, for `x` up to 4: Horner scheme. -/
def horE (x : ℤ) : ℕ → ℕ → ℤ
  | 0, _ => one
  | m + 1, k => one + x * horE x m (k + 1) / (k * one)

/-- The same, with error at most 128. -/
def expPt (x : ℤ) : Option ℤ := if -(4 * one) ≤ x ∧ x ≤ 4 * one then some (horE x 36 1) else none

def exp : Iv → Py Iv
  | mk a b =>
    match expPt a, expPt b with
    | some u, some v => .ok (mk (u - 128) (v + 128))
    | _, _ => .error .unmodelled
  | top => .error .unmodelled

/-- Newton's method for the logarithm (not trusted). -/
def logGuess (x : ℤ) : ℕ → ℤ
  | 0 => x - one
  | n + 1 =>
    let g := logGuess x n
    match expPt g with
    | some u => if u = 0 then g else g + (x - u) * one / u
    | none => g

/-- The logarithm of positive numbers. -/
def log : Iv → Option Iv
  | mk a b =>
    if 0 < a then
      let y := logGuess a 8 - 4096
      let z := logGuess b 8 + 4096
      match expPt y, expPt z with
      | some u, some v => if u + 128 ≤ a ∧ b ≤ v - 128 then some (mk y z) else none
      | _, _ => none
    else none
  | top => none

/-- Powers of positive numbers. -/
def rpow (x y : Iv) : Py Iv :=
  match log x with
  | some l => exp (mul y l)
  | none => .error .unmodelled

def lt : Iv → Iv → Option Bool
  | mk a b, mk c d => if b < c then some true else if d ≤ a then some false else none
  | _, _ => none

def le : Iv → Iv → Option Bool
  | mk a b, mk c d => if b ≤ c then some true else if d < a then some false else none
  | _, _ => none

end Iv

/-- The backend of intervals. -/
def ivB : Backend where
  α := Iv
  C := Option Bool
  T := Empty
  lit := Iv.lit
  pi := Iv.pi
  e := .top
  inf := .top
  add := Iv.add
  sub := Iv.sub
  mul := Iv.mul
  neg := Iv.neg
  divq := Iv.divq
  modq := Iv.modq
  powN := Iv.powN
  div := Iv.div
  rpow := Iv.rpow
  sin := Iv.sin
  cos := Iv.cos
  tan := Iv.tan
  asin := Iv.asin
  acos := Iv.acos
  atan := Iv.atan
  atan2 := Iv.atan2
  exp := Iv.exp
  radians := Iv.radians
  degrees := Iv.degrees
  lt := Iv.lt
  le := Iv.le
  where_ c x y :=
    match c with
    | some true => x
    | some false => y
    | none => .top
  ofC c :=
    match c with
    | some true => .mk Iv.one Iv.one
    | some false => .mk 0 0
    | none => .top
  truth c :=
    match c with
    | some b => .ok b
    | none => .error .unmodelled
  tdHours _ := .error .unmodelled
  round _ := .error .unmodelled
  npTime := false
  arrYday := Empty.elim
  arrHour := Empty.elim
  arrMin := Empty.elim

end Verif
