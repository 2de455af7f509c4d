import Verif.Spec.Geometry
import Mathlib.Tactic.Linarith
import Mathlib.Tactic.FieldSimp
import Mathlib.Tactic.Positivity
import Mathlib.Analysis.SpecialFunctions.Trigonometric.Bounds
import Mathlib.Analysis.SpecialFunctions.Trigonometric.ArctanDeriv
import Mathlib.Analysis.Real.Pi.Bounds

/-!
# Trigonometric lemmas
-/

namespace Verif

open Verif.Spec Real

theorem rad_deg (x : ℝ) : rad (deg x) = x := by
  unfold rad deg
  field_simp

theorem deg_rad (x : ℝ) : deg (rad x) = x := by
  unfold rad deg
  field_simp

theorem rad_add (x y : ℝ) : rad (x + y) = rad x + rad y := by unfold rad; ring
theorem rad_sub (x y : ℝ) : rad (x - y) = rad x - rad y := by unfold rad; ring
theorem rad_neg (x : ℝ) : rad (-x) = -rad x := by unfold rad; ring
theorem deg_add (x y : ℝ) : deg (x + y) = deg x + deg y := by unfold deg; ring
theorem deg_sub (x y : ℝ) : deg (x - y) = deg x - deg y := by unfold deg; ring
theorem deg_neg (x : ℝ) : deg (-x) = -deg x := by unfold deg; ring
@[simp] theorem rad_zero : rad 0 = 0 := by simp [rad]
@[simp] theorem deg_zero : deg 0 = 0 := by simp [deg]
theorem rad_180 : rad 180 = π := by unfold rad; field_simp
theorem rad_90 : rad 90 = π / 2 := by unfold rad; field_simp; norm_num
theorem rad_360 : rad 360 = 2 * π := by unfold rad; field_simp; norm_num
theorem deg_pi : deg π = 180 := by unfold deg; field_simp
theorem deg_pi_div_two : deg (π / 2) = 90 := by unfold deg; field_simp; norm_num

theorem rad_le_rad {x y : ℝ} : rad x ≤ rad y ↔ x ≤ y := by
  unfold rad
  have := pi_pos
  constructor
  · intro h
    by_contra hlt
    rw [not_le] at hlt
    have : y * π / 180 < x * π / 180 := by
      have : y * π < x * π := by nlinarith
      linarith
    linarith
  · intro h
    have : x * π ≤ y * π := by nlinarith
    linarith

theorem rad_lt_rad {x y : ℝ} : rad x < rad y ↔ x < y := by
  rw [lt_iff_not_ge, lt_iff_not_ge, rad_le_rad]

theorem deg_le_deg {x y : ℝ} : deg x ≤ deg y ↔ x ≤ y := by
  rw [← rad_le_rad, rad_deg, rad_deg]

theorem deg_lt_deg {x y : ℝ} : deg x < deg y ↔ x < y := by
  rw [← rad_lt_rad, rad_deg, rad_deg]

theorem rad_injective : Function.Injective rad := fun x y h => by rw [← deg_rad x, h, deg_rad]

/-! ## Reduction modulo 360 -/

theorem mod360_nonneg (x : ℝ) : 0 ≤ mod360 x := by
  unfold mod360
  have := Int.floor_le (x / 360)
  rw [le_div_iff₀ (by norm_num)] at this
  linarith

theorem mod360_lt (x : ℝ) : mod360 x < 360 := by
  unfold mod360
  have := Int.lt_floor_add_one (x / 360)
  rw [div_lt_iff₀ (by norm_num)] at this
  linarith

theorem mod360_eq (x : ℝ) : ∃ k : ℤ, mod360 x = x - 360 * k := ⟨_, rfl⟩

theorem rad_mod360 (x : ℝ) : rad (mod360 x) = rad x - ⌊x / 360⌋ * (2 * π) := by
  unfold mod360 rad
  ring

@[simp] theorem cos_rad_mod360 (x : ℝ) : cos (rad (mod360 x)) = cos (rad x) := by
  rw [rad_mod360, cos_sub_int_mul_two_pi]

@[simp] theorem sin_rad_mod360 (x : ℝ) : sin (rad (mod360 x)) = sin (rad x) := by
  rw [rad_mod360, sin_sub_int_mul_two_pi]

theorem mod360_add_int (x : ℝ) (k : ℤ) : mod360 (x + 360 * k) = mod360 x := by
  unfold mod360
  have : (x + 360 * k) / 360 = x / 360 + k := by field_simp
  rw [this, Int.floor_add_intCast]
  push_cast
  ring

theorem mod360_of_mem {x : ℝ} (h0 : 0 ≤ x) (h1 : x < 360) : mod360 x = x := by
  unfold mod360
  have : ⌊x / 360⌋ = 0 := by
    rw [Int.floor_eq_zero_iff]
    constructor
    · positivity
    · rw [div_lt_one (by norm_num)]; exact h1
  rw [this]
  simp

/-- A bearing in `[0, 360)` is determined by its sine and cosine. -/
theorem bearing_unique {a b : ℝ} (ha0 : 0 ≤ a) (ha : a < 360) (hb0 : 0 ≤ b) (hb : b < 360)
    (hs : sin (rad a) = sin (rad b)) (hc : cos (rad a) = cos (rad b)) : a = b := by
  have h1 : cos (rad (a - b)) = 1 := by
    rw [rad_sub, cos_sub, hs, hc]
    nlinarith [sin_sq_add_cos_sq (rad b)]
  rw [cos_eq_one_iff] at h1
  obtain ⟨n, hn⟩ := h1
  have : a - b = 360 * n := by
    unfold rad at hn
    have hp := pi_pos
    have : (a - b) * π = (360 * n) * π := by linarith
    exact mul_right_cancel₀ hp.ne' this
  have hn1 : (n : ℝ) < 1 := by linarith
  have hn2 : (-1 : ℝ) < n := by linarith
  have : n = 0 := by
    have h1 : n < 1 := by exact_mod_cast hn1
    have h2 : -1 < n := by exact_mod_cast hn2
    omega
  subst this
  push_cast at *
  linarith

/-! ## atan2 -/

/-- Length of the vector `(x, y)`. -/
theorem norm_mk (x y : ℝ) : ‖(⟨x, y⟩ : ℂ)‖ = sqrt (x ^ 2 + y ^ 2) := by
  rw [Complex.norm_def, Complex.normSq_mk]
  congr 1
  ring

theorem norm_mul_cos_arg (x y : ℝ) : sqrt (x ^ 2 + y ^ 2) * cos (Complex.arg ⟨x, y⟩) = x := by
  rw [← norm_mk]
  exact Complex.norm_mul_cos_arg ⟨x, y⟩

theorem norm_mul_sin_arg (x y : ℝ) : sqrt (x ^ 2 + y ^ 2) * sin (Complex.arg ⟨x, y⟩) = y := by
  rw [← norm_mk]
  exact Complex.norm_mul_sin_arg ⟨x, y⟩

/-- The angle of a non-zero vector is determined up to whole turns: if `r > 0` and `t` satisfies
`(x, y) = r (cos t, sin t)`, sine and cosine of `atan2` are those of `t`. -/
theorem arg_of_polar {r t : ℝ} (hr : 0 < r) :
    cos (Complex.arg ⟨r * cos t, r * sin t⟩) = cos t ∧ sin (Complex.arg ⟨r * cos t, r * sin t⟩) = sin t := by
  have h1 := norm_mul_cos_arg (r * cos t) (r * sin t)
  have h2 := norm_mul_sin_arg (r * cos t) (r * sin t)
  have hs : sqrt ((r * cos t) ^ 2 + (r * sin t) ^ 2) = r := by
    rw [show (r * cos t) ^ 2 + (r * sin t) ^ 2 = r ^ 2 by
      have := sin_sq_add_cos_sq t; nlinarith]
    exact sqrt_sq hr.le
  rw [hs] at h1 h2
  exact ⟨mul_left_cancel₀ hr.ne' h1, mul_left_cancel₀ hr.ne' h2⟩

theorem deg_arg_bounds (z : ℂ) : -180 < deg (Complex.arg z) ∧ deg (Complex.arg z) ≤ 180 := by
  have h1 := Complex.neg_pi_lt_arg z
  have h2 := Complex.arg_le_pi z
  constructor
  · rw [← deg_pi, ← deg_neg, deg_lt_deg]; exact h1
  · rw [← deg_pi, deg_le_deg]; exact h2

theorem deg_arcsin_bounds (x : ℝ) : -90 ≤ deg (arcsin x) ∧ deg (arcsin x) ≤ 90 := by
  constructor
  · rw [← deg_pi_div_two, ← deg_neg, deg_le_deg]; exact neg_pi_div_two_le_arcsin x
  · rw [← deg_pi_div_two, deg_le_deg]; exact arcsin_le_pi_div_two x

theorem deg_arccos_bounds (x : ℝ) : 0 ≤ deg (arccos x) ∧ deg (arccos x) ≤ 180 := by
  constructor
  · rw [← deg_zero, deg_le_deg]; exact arccos_nonneg x
  · rw [← deg_pi, deg_le_deg]; exact arccos_le_pi x

theorem cos_rad_pos {x : ℝ} (h1 : -90 < x) (h2 : x < 90) : 0 < cos (rad x) := by
  apply cos_pos_of_mem_Ioo
  constructor
  · rw [← rad_90, ← rad_neg, rad_lt_rad]; exact h1
  · rw [← rad_90, rad_lt_rad]; exact h2

theorem cos_rad_nonneg {x : ℝ} (h1 : -90 ≤ x) (h2 : x ≤ 90) : 0 ≤ cos (rad x) := by
  apply cos_nonneg_of_mem_Icc
  constructor
  · rw [← rad_90, ← rad_neg, rad_le_rad]; exact h1
  · rw [← rad_90, rad_le_rad]; exact h2

theorem sin_rad_pos {x : ℝ} (h1 : 0 < x) (h2 : x < 180) : 0 < sin (rad x) := by
  apply sin_pos_of_pos_of_lt_pi
  · rw [← rad_zero, rad_lt_rad]; exact h1
  · rw [← rad_180, rad_lt_rad]; exact h2

/-! ## Directions -/

theorem sph_unit (lon lat : ℝ) : (sph lon lat).dot (sph lon lat) = 1 := by
  unfold sph Vec3.dot
  simp only
  have h1 := sin_sq_add_cos_sq (rad lat)
  have h2 := sin_sq_add_cos_sq (rad lon)
  linear_combination h1 + cos (rad lat) ^ 2 * h2

theorem toHorizon_dot (lat : ℝ) (u v : Vec3) : (toHorizon lat u).dot (toHorizon lat v) = u.dot v := by
  unfold toHorizon Vec3.dot
  simp only
  have h1 := sin_sq_add_cos_sq (rad lat)
  linear_combination (u.x * v.x + u.z * v.z) * h1

theorem rotX_dot (e : ℝ) (u v : Vec3) : (rotX e u).dot (rotX e v) = u.dot v := by
  unfold rotX Vec3.dot
  simp only
  have h1 := sin_sq_add_cos_sq (rad e)
  linear_combination (u.y * v.y + u.z * v.z) * h1

theorem unit_z {v : Vec3} (h : v.dot v = 1) : -1 ≤ v.z ∧ v.z ≤ 1 := by
  unfold Vec3.dot at h
  constructor <;> nlinarith [sq_nonneg v.x, sq_nonneg v.y]

theorem sunENU_unit (lat ha dec : ℝ) : (sunENU lat ha dec).dot (sunENU lat ha dec) = 1 := by
  unfold sunENU
  rw [toHorizon_dot, sph_unit]

/-- A unit vector is the direction of altitude `arcsin z` and any azimuth `t` pointing along `(y, x)`. -/
theorem cos_arcsin_z {v : Vec3} (h : v.dot v = 1) : cos (arcsin v.z) = sqrt (v.y ^ 2 + v.x ^ 2) := by
  rw [cos_arcsin]
  congr 1
  unfold Vec3.dot at h
  linarith

/-- The azimuth formula `180 + atan2(a, b)`: if `(a, b)` points opposite to (east, north), altitude
`arcsin z` and this azimuth describe the unit vector `v`. -/
theorem horizontal_of_arg {v : Vec3} (h : v.dot v = 1) {k a b : ℝ} (hk : 0 < k) (hx : v.x = -(k * a))
    (hy : v.y = -(k * b)) :
    horizontal (deg (arcsin v.z)) (mod360 (180 + deg (Complex.arg ⟨b, a⟩))) = v := by
  have hz := unit_z h
  have hc : cos (arcsin v.z) = k * sqrt (b ^ 2 + a ^ 2) := by
    rw [cos_arcsin_z h, hx, hy]
    rw [show (-(k * b)) ^ 2 + (-(k * a)) ^ 2 = k ^ 2 * (b ^ 2 + a ^ 2) by ring,
      sqrt_mul (sq_nonneg k), sqrt_sq hk.le]
  have h1 := norm_mul_cos_arg b a
  have h2 := norm_mul_sin_arg b a
  unfold horizontal
  rw [rad_deg, sin_rad_mod360, cos_rad_mod360, rad_add, rad_deg, rad_180, hc, add_comm π,
    sin_add_pi, cos_add_pi, sin_arcsin hz.1 hz.2]
  ext
  · simp only [hx]; linear_combination -k * h2
  · simp only [hy]; linear_combination -k * h1
  · rfl

/-- If `(a, b)` points along `(y, x)` of a unit vector, longitude `atan2(a, b)` and latitude `arcsin z`
are its spherical coordinates. -/
theorem sph_of_arg {v : Vec3} (h : v.dot v = 1) {k a b : ℝ} (hk : 0 < k) (hx : v.x = k * b)
    (hy : v.y = k * a) :
    sph (mod360 (deg (Complex.arg ⟨b, a⟩))) (deg (arcsin v.z)) = v := by
  have hz := unit_z h
  have hc : cos (arcsin v.z) = k * sqrt (b ^ 2 + a ^ 2) := by
    rw [cos_arcsin_z h, hx, hy]
    rw [show (k * a) ^ 2 + (k * b) ^ 2 = k ^ 2 * (b ^ 2 + a ^ 2) by ring,
      sqrt_mul (sq_nonneg k), sqrt_sq hk.le]
  have h1 := norm_mul_cos_arg b a
  have h2 := norm_mul_sin_arg b a
  unfold sph
  rw [rad_deg, sin_rad_mod360, cos_rad_mod360, rad_deg, hc, sin_arcsin hz.1 hz.2]
  ext
  · simp only [hx]; linear_combination k * h1
  · simp only [hy]; linear_combination k * h2
  · rfl

theorem abs_arctan_sub_le (x y : ℝ) : |arctan x - arctan y| ≤ |x - y| := by
  have h : LipschitzWith 1 arctan := by
    apply lipschitzWith_of_nnnorm_deriv_le differentiable_arctan
    intro x
    rw [Real.deriv_arctan, ← NNReal.coe_le_coe, coe_nnnorm, Real.norm_eq_abs, NNReal.coe_one, abs_of_pos
      (by positivity), div_le_one (by positivity)]
    nlinarith [sq_nonneg x]
  have := h.dist_le_mul x y
  simpa [Real.dist_eq] using this

theorem arg_eq_arctan {b w : ℝ} (h : 0 < b) : Complex.arg ⟨b, w⟩ = arctan (w / b) := by
  have h1 : |Complex.arg ⟨b, w⟩| < π / 2 := Complex.abs_arg_lt_pi_div_two_iff.mpr (Or.inl h)
  rw [abs_lt] at h1
  rw [← arctan_tan h1.1 h1.2, Complex.tan_arg]

end Verif
