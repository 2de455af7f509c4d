import Verif.Proofs.FloatLemmas
import Verif.Proofs.Pair
import Mathlib.Data.Rat.Floor
import Mathlib.Algebra.Order.Round

/-!
# A calculus of rounding errors

`ballB` is a numeric backend whose values bound a computed number, the exact number and their difference, by
rationals. Running a model function on it bounds the rounding error of the function (`ballSim`).
-/

namespace Verif

open Pysolar Pysolar.Numeric

/-- A bound on a computed value `x` and the exact value `y`.

* `num lo hi e`: `lo ≤ y ≤ hi` and `|x - y| ≤ e`;
* `deg m e`: `|x| ≤ m`, and `x - y` is within `e` of a multiple of 360;
* `rad m e`: `|x| ≤ m`, and `x - y` is within `e` of a multiple of 2π;
* `top`: no bound. -/
inductive Ball where
  | num (lo hi e : ℚ)
  | deg (m e : ℚ)
  | rad (m e : ℚ)
  | top

namespace Ball

/-- The relation of a bound to the pair of a computed and an exact value. -/
def rel : Ball → V × V → Prop
  | num lo hi e, p => ∃ x y : ℝ, p = (.fin x, .fin y) ∧ (lo : ℝ) ≤ y ∧ y ≤ hi ∧ |x - y| ≤ e
  | deg m e, p => ∃ x y : ℝ, p = (.fin x, .fin y) ∧ |x| ≤ m ∧ ∃ k : ℤ, |x - y - 360 * k| ≤ e
  | rad m e, p => ∃ x y : ℝ, p = (.fin x, .fin y) ∧ |x| ≤ m ∧ ∃ k : ℤ, |x - y - 2 * Real.pi * k| ≤ e
  | top, _ => True

/-- Rounding up to a multiple of 2^-120. -/
def up (x : ℚ) : ℚ := (⌈x * 2 ^ 120⌉ : ℤ) / 2 ^ 120
/-- Rounding up to a multiple of 2^-60. -/
def upI (x : ℚ) : ℚ := (⌈x * 2 ^ 60⌉ : ℤ) / 2 ^ 60
/-- Rounding down to a multiple of 2^-60. -/
def dnI (x : ℚ) : ℚ := (⌊x * 2 ^ 60⌋ : ℤ) / 2 ^ 60

theorem le_up (x : ℚ) : x ≤ up x := by
  unfold up
  rw [le_div_iff₀ (by positivity)]
  exact Int.le_ceil _

theorem le_upI (x : ℚ) : x ≤ upI x := by
  unfold upI
  rw [le_div_iff₀ (by positivity)]
  exact Int.le_ceil _

theorem dnI_le (x : ℚ) : dnI x ≤ x := by
  unfold dnI
  rw [div_le_iff₀ (by positivity)]
  exact Int.floor_le _

def tinyQ : ℚ := 1 / 2 ^ 150

theorem tinyQ_cast : ((tinyQ : ℚ) : ℝ) = tiny := by
  unfold tinyQ tiny
  push_cast
  rfl

/-- The larger of two absolute values. -/
def mag (lo hi : ℚ) : ℚ := max |lo| |hi|

theorem mag_cast (lo hi : ℚ) : ((mag lo hi : ℚ) : ℝ) = max |(lo : ℝ)| |(hi : ℝ)| := by
  unfold mag
  push_cast
  rfl

/-- The result of a library function. -/
def mkRaw (lo hi e : ℚ) : Ball := if mag lo hi + e ≤ 2 ^ 100 then num (dnI lo) (upI hi) (up e) else top

/-- The result of a rounded operation. -/
def mkNum (lo hi e : ℚ) : Ball :=
  if mag lo hi + e ≤ 2 ^ 100 then num (dnI lo) (upI hi) (up (e + (mag lo hi + e) / 2 ^ 53 + tinyQ)) else top

def mkDeg (m e : ℚ) : Ball :=
  if m ≤ 2 ^ 100 then deg (upI (m + m / 2 ^ 53 + tinyQ)) (up (e + m / 2 ^ 53 + tinyQ)) else top

def mkRad (m e : ℚ) : Ball :=
  if m ≤ 2 ^ 100 then rad (upI (m + m / 2 ^ 53 + tinyQ)) (up (e + m / 2 ^ 53 + tinyQ)) else top

theorem abs_le_of {lo hi e : ℚ} {x y : ℝ} (h1 : (lo : ℝ) ≤ y) (h2 : y ≤ hi) (h3 : |x - y| ≤ e) :
    |y| ≤ mag lo hi ∧ |x| ≤ mag lo hi + e := by
  have h4 : |y| ≤ mag lo hi := by rw [mag_cast]; exact abs_le_mag h1 h2
  refine ⟨h4, ?_⟩
  calc |x| = |y + (x - y)| := by ring_nf
    _ ≤ |y| + |x - y| := abs_add_le _ _
    _ ≤ _ := by linarith

theorem mkRaw_rel {lo hi e : ℚ} {x y : ℝ} (h1 : (lo : ℝ) ≤ y) (h2 : y ≤ hi) (h3 : |x - y| ≤ e) :
    (mkRaw lo hi e).rel (.fin x, .fin y) := by
  unfold mkRaw
  split_ifs with h
  · refine ⟨x, y, rfl, ?_, ?_, ?_⟩
    · exact le_trans (by exact_mod_cast dnI_le lo) h1
    · exact h2.trans (by exact_mod_cast le_upI hi)
    · exact h3.trans (by exact_mod_cast le_up e)
  · trivial

/-- The same for a result that overflows to an infinity. -/
theorem mkRaw_ovf {lo hi e : ℚ} {x y : ℝ} (h1 : (lo : ℝ) ≤ y) (h2 : y ≤ hi) (h3 : |x - y| ≤ e) :
    (mkRaw lo hi e).rel (V.ovf x, .fin y) := by
  by_cases h : mag lo hi + e ≤ 2 ^ 100
  · have h4 := (abs_le_of h1 h2 h3).2
    have h5 : ((mag lo hi + e : ℚ) : ℝ) ≤ ((2 ^ 100 : ℚ) : ℝ) := by exact_mod_cast h
    push_cast at h5
    rw [V.ovf_fin (by norm_num at h5 ⊢; linarith)]
    exact mkRaw_rel h1 h2 h3
  · unfold mkRaw
    rw [if_neg h]
    trivial

theorem mkNum_rel (F : F64) {lo hi e : ℚ} {z y : ℝ} (h1 : (lo : ℝ) ≤ y) (h2 : y ≤ hi) (h3 : |z - y| ≤ e) :
    (mkNum lo hi e).rel (V.rnd F (.fin z), .fin y) := by
  unfold mkNum
  split_ifs with h
  · have h4 := abs_le_of h1 h2 h3
    have h5 : ((mag lo hi + e : ℚ) : ℝ) ≤ ((2 ^ 100 : ℚ) : ℝ) := by exact_mod_cast h
    push_cast at h5
    rw [V.rnd_fin F (by linarith [h4.2])]
    refine ⟨_, y, rfl, ?_, ?_, ?_⟩
    · exact le_trans (by exact_mod_cast dnI_le lo) h1
    · exact h2.trans (by exact_mod_cast le_upI hi)
    · have h6 := F.prop h3 h4.1
      have h7 : ((e + (mag lo hi + e) / 2 ^ 53 + tinyQ : ℚ) : ℝ) ≤ up (e + (mag lo hi + e) / 2 ^ 53 + tinyQ) := by
        exact_mod_cast le_up _
      push_cast at h7
      rw [tinyQ_cast] at h7
      linarith
  · trivial

theorem mkDeg_rel (F : F64) {m e : ℚ} {z y : ℝ} (h1 : |z| ≤ m) (k : ℤ) (h3 : |z - y - 360 * k| ≤ e) :
    (mkDeg m e).rel (V.rnd F (.fin z), .fin y) := by
  unfold mkDeg
  split_ifs with h
  · have h5 : (m : ℝ) ≤ ((2 ^ 100 : ℚ) : ℝ) := by exact_mod_cast h
    push_cast at h5
    rw [V.rnd_fin F (h1.trans h5)]
    refine ⟨_, y, rfl, ?_, k, ?_⟩
    · have h6 := F.rnd_abs z h1
      have h7 : ((m + m / 2 ^ 53 + tinyQ : ℚ) : ℝ) ≤ upI (m + m / 2 ^ 53 + tinyQ) := by exact_mod_cast le_upI _
      push_cast at h7
      rw [tinyQ_cast] at h7
      linarith
    · have h6 := F.err z
      have h7 : ((e + m / 2 ^ 53 + tinyQ : ℚ) : ℝ) ≤ up (e + m / 2 ^ 53 + tinyQ) := by exact_mod_cast le_up _
      push_cast at h7
      rw [tinyQ_cast] at h7
      have h8 : |z| / 2 ^ 53 ≤ m / 2 ^ 53 := by gcongr
      calc |F.rnd z - y - 360 * k| = |(F.rnd z - z) + (z - y - 360 * k)| := by ring_nf
        _ ≤ |F.rnd z - z| + |z - y - 360 * k| := abs_add_le _ _
        _ ≤ _ := by linarith
  · trivial

theorem mkRad_rel (F : F64) {m e : ℚ} {z y : ℝ} (h1 : |z| ≤ m) (k : ℤ) (h3 : |z - y - 2 * Real.pi * k| ≤ e) :
    (mkRad m e).rel (V.rnd F (.fin z), .fin y) := by
  unfold mkRad
  split_ifs with h
  · have h5 : (m : ℝ) ≤ ((2 ^ 100 : ℚ) : ℝ) := by exact_mod_cast h
    push_cast at h5
    rw [V.rnd_fin F (h1.trans h5)]
    refine ⟨_, y, rfl, ?_, k, ?_⟩
    · have h6 := F.rnd_abs z h1
      have h7 : ((m + m / 2 ^ 53 + tinyQ : ℚ) : ℝ) ≤ upI (m + m / 2 ^ 53 + tinyQ) := by exact_mod_cast le_upI _
      push_cast at h7
      rw [tinyQ_cast] at h7
      linarith
    · have h6 := F.err z
      have h7 : ((e + m / 2 ^ 53 + tinyQ : ℚ) : ℝ) ≤ up (e + m / 2 ^ 53 + tinyQ) := by exact_mod_cast le_up _
      push_cast at h7
      rw [tinyQ_cast] at h7
      have h8 : |z| / 2 ^ 53 ≤ m / 2 ^ 53 := by gcongr
      calc |F.rnd z - y - 2 * Real.pi * k| = |(F.rnd z - z) + (z - y - 2 * Real.pi * k)| := by ring_nf
        _ ≤ |F.rnd z - z| + |z - y - 2 * Real.pi * k| := abs_add_le _ _
        _ ≤ _ := by linarith
  · trivial

/-- Read as a number of degrees, up to whole turns. -/
def toDeg : Ball → Option (ℚ × ℚ)
  | num lo hi e => some (mag lo hi + e, e)
  | deg m e => some (m, e)
  | _ => none

theorem toDeg_rel {b : Ball} {p : V × V} (h : b.rel p) {m e : ℚ} (hb : b.toDeg = some (m, e)) :
    (deg m e).rel p := by
  cases b with
  | num lo hi e' =>
    obtain ⟨x, y, rfl, h1, h2, h3⟩ := h
    cases hb
    refine ⟨x, y, rfl, ?_, 0, ?_⟩
    · push_cast
      exact (abs_le_of h1 h2 h3).2
    · simpa using h3
  | deg m' e' => cases hb; exact h
  | rad m' e' => cases hb
  | top => cases hb

/-- Bounds of a product. -/
def mulLo (a b c d : ℚ) : ℚ := min (min (a * c) (a * d)) (min (b * c) (b * d))
def mulHi (a b c d : ℚ) : ℚ := max (max (a * c) (a * d)) (max (b * c) (b * d))

theorem mul_mem' {a b c d : ℚ} {x y : ℝ} (h1 : (a : ℝ) ≤ x) (h2 : x ≤ b) (h3 : (c : ℝ) ≤ y) (h4 : y ≤ d) :
    ((mulLo a b c d : ℚ) : ℝ) ≤ x * y ∧ x * y ≤ ((mulHi a b c d : ℚ) : ℝ) := by
  unfold mulLo mulHi
  push_cast
  exact mul_mem h1 h2 h3 h4

def add : Ball → Ball → Ball
  | num lo hi e, num lo' hi' e' => mkNum (lo + lo') (hi + hi') (e + e')
  | a, b =>
    match a.toDeg, b.toDeg with
    | some (m, e), some (m', e') => mkDeg (m + m') (e + e')
    | _, _ => top

def neg : Ball → Ball
  | num lo hi e => num (-hi) (-lo) e
  | deg m e => deg m e
  | rad m e => rad m e
  | top => top

def sub (a b : Ball) : Ball := add a (neg b)

def mul : Ball → Ball → Ball
  | num lo hi e, num lo' hi' e' =>
    mkNum (mulLo lo hi lo' hi') (mulHi lo hi lo' hi') (mag lo hi * e' + mag lo' hi' * e + e * e')
  | _, _ => top

def divq : Ball → ℚ → Ball
  | num lo hi e, q =>
    if 1 / 2 ^ 50 ≤ |q| then
      mkNum (mulLo lo hi (1 / q) (1 / q)) (mulHi lo hi (1 / q) (1 / q)) ((e + (mag lo hi + e) / 2 ^ 51) / |q|)
    else top
  | _, _ => top

def modq (b : Ball) (q : ℚ) : Ball :=
  if q = 360 then
    match b.toDeg with
    | some (_, e) => mkDeg 360 e
    | none => top
  else top

def powN : Ball → ℕ → Ball
  | num lo hi e, n =>
    if n = 0 then top
    else
    mkRaw (if Even n then 0 else lo ^ n) (if Even n then mag lo hi ^ n else hi ^ n)
      (n * (mag lo hi + e) ^ (n - 1) * e + (mag lo hi + e) ^ n / 2 ^ 51 + tinyQ)
  | _, _ => top

/-- The distance of an interval from 0, if it does not contain 0. -/
def gap (lo hi : ℚ) : ℚ := if 0 < lo then lo else -hi

def div : Ball → Ball → Py Ball
  | num lo hi e, num lo' hi' e' =>
    if (0 < lo' ∨ hi' < 0) ∧ e' < gap lo' hi' then
      .ok (mkNum (mulLo lo hi (1 / hi') (1 / lo')) (mulHi lo hi (1 / hi') (1 / lo'))
        ((e + mag lo hi / gap lo' hi' * e') / (gap lo' hi' - e')))
    else .error .unmodelled
  | _, _ => .error .unmodelled

def sin : Ball → Py Ball
  | num lo hi e => .ok (mkRaw (-min 1 (mag lo hi)) (min 1 (mag lo hi)) (e + 1 / 2 ^ 52))
  | rad _ e => .ok (mkRaw (-1) 1 (e + 1 / 2 ^ 52))
  | _ => .error .unmodelled

def cos : Ball → Py Ball
  | num lo hi e => .ok (mkRaw (max (-1) (1 - mag lo hi ^ 2 / 2)) 1 (e + 1 / 2 ^ 52))
  | rad _ e => .ok (mkRaw (-1) 1 (e + 1 / 2 ^ 52))
  | _ => .error .unmodelled

def tan : Ball → Py Ball
  | num lo hi e =>
    if mag lo hi + e ≤ 1 then
      .ok (mkRaw (-(4 * mag lo hi)) (4 * mag lo hi) (4 * e + 4 * (mag lo hi + e) / 2 ^ 51 + tinyQ))
    else .error .unmodelled
  | _ => .error .unmodelled

def asin : Ball → Py Ball
  | num lo hi e =>
    if mag lo hi + e ≤ 4 / 5 then
      .ok (mkRaw (-(5 / 3 * mag lo hi)) (5 / 3 * mag lo hi) (5 / 3 * e + 1 / 2 ^ 51))
    else .error .unmodelled
  | _ => .error .unmodelled

def acos : Ball → Py Ball
  | num lo hi e =>
    if mag lo hi + e ≤ 4 / 5 then .ok (mkRaw 0 (16 / 5) (5 / 3 * e + 1 / 2 ^ 50))
    else .error .unmodelled
  | _ => .error .unmodelled

def atan : Ball → Py Ball
  | num lo hi e => .ok (mkRaw (-min (8 / 5) (mag lo hi)) (min (8 / 5) (mag lo hi)) (e + 1 / 2 ^ 51))
  | _ => .error .unmodelled

def atan2 : Ball → Ball → Py Ball
  | num lo hi e, num lo' _ e' =>
    if 0 < lo' ∧ e' < lo' then
      .ok (mkRaw (-min (8 / 5) (mag lo hi / lo')) (min (8 / 5) (mag lo hi / lo'))
        ((e + mag lo hi / lo' * e') / (lo' - e') + 1 / 2 ^ 50))
    else .error .unmodelled
  | _, _ => .error .unmodelled

def radLo : ℚ := 0.017453292519943
def radHi : ℚ := 0.017453292519944
def degLo : ℚ := 57.295779513082
def degHi : ℚ := 57.295779513083

def radians : Ball → Ball
  | num lo hi e =>
    mkNum (mulLo lo hi radLo radHi) (mulHi lo hi radLo radHi)
      (mag lo hi * (1 / 2 ^ 57) + radHi * e + e * (1 / 2 ^ 57))
  | deg m e => mkRad (m * (1 / 57)) (m * (1 / 2 ^ 57) + e * radHi)
  | _ => top

def degrees : Ball → Ball
  | num lo hi e =>
    mkNum (mulLo lo hi degLo degHi) (mulHi lo hi degLo degHi)
      (mag lo hi * (1 / 2 ^ 46) + degHi * e + e * (1 / 2 ^ 46))
  | rad m e => mkDeg (m * 58) (m * (1 / 2 ^ 46) + e * degHi)
  | _ => top

def lt : Ball → Ball → Option Bool
  | num lo hi e, num lo' hi' e' =>
    if hi + e + e' < lo' then some true else if hi' + e + e' ≤ lo then some false else none
  | _, _ => none

def le : Ball → Ball → Option Bool
  | num lo hi e, num lo' hi' e' =>
    if hi + e + e' ≤ lo' then some true else if hi' + e + e' < lo then some false else none
  | _, _ => none

def lit (q : ℚ) : Ball :=
  if q.den = 1 ∧ |q| ≤ 2 ^ 53 then num q q 0 else num q q (|q| / 2 ^ 53 + tinyQ)

end Ball

/-- The backend of error bounds. -/
def ballB : Backend where
  α := Ball
  C := Option Bool
  T := Empty
  lit := Ball.lit
  pi := .num 3.14159265358979 3.1415926535898 (1 / 2 ^ 51)
  e := .num 2.7182818283 2.7182818286 (1 / 2 ^ 51)
  inf := .top
  add := Ball.add
  sub := Ball.sub
  mul := Ball.mul
  neg := Ball.neg
  divq := Ball.divq
  modq := Ball.modq
  powN := Ball.powN
  div := Ball.div
  rpow _ _ := .error .unmodelled
  sin := Ball.sin
  cos := Ball.cos
  tan := Ball.tan
  asin := Ball.asin
  acos := Ball.acos
  atan := Ball.atan
  atan2 := Ball.atan2
  exp _ := .error .unmodelled
  radians := Ball.radians
  degrees := Ball.degrees
  lt := Ball.lt
  le := Ball.le
  where_ c x y :=
    match c with
    | some true => x
    | some false => y
    | none => .top
  ofC c :=
    match c with
    | some true => .num 1 1 0
    | some false => .num 0 0 0
    | none => .top
  truth c :=
    match c with
    | some b => .ok b
    | none => .error .unmodelled
  tdHours _ := .error .unmodelled
  round _ := .error .unmodelled
  npTime := false
  arrYday := Empty.elim
  arrHour := Empty.elim
  arrMin := Empty.elim

/-- Computed and exact arithmetic side by side. -/
noncomputable abbrev fxB (F : F64) (tp : ℝ) : Backend := pairB (rndB F) (mathB tp)

end Verif
