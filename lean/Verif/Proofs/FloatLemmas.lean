import Verif.Py.Rounded
import Mathlib.Analysis.SpecialFunctions.Trigonometric.InverseDeriv
import Mathlib.Analysis.SpecialFunctions.Trigonometric.ArctanDeriv
import Mathlib.Analysis.SpecialFunctions.Trigonometric.Bounds
import Mathlib.Analysis.Calculus.MeanValue
import Mathlib.Analysis.Real.Pi.Bounds
import Mathlib.Analysis.Complex.ExponentialBounds

/-!
# How rounding errors propagate through one operation

Throughout, `z` is the computed and `y` the exact value.
-/

namespace Verif

open Real

/-- A bound larger than the smallest subnormal number. -/
noncomputable def tiny : ℝ := 1 / 2 ^ 150

theorem tiny_pos : 0 < tiny := by unfold tiny; positivity

theorem two_1074 : (1 : ℝ) / 2 ^ 1074 ≤ tiny := by
  unfold tiny
  exact one_div_le_one_div_of_le (by positivity) (pow_le_pow_right₀ (by norm_num) (by norm_num))

theorem two_1075 : (1 : ℝ) / 2 ^ 1075 ≤ tiny := by
  unfold tiny
  exact one_div_le_one_div_of_le (by positivity) (pow_le_pow_right₀ (by norm_num) (by norm_num))

theorem tiny_le : tiny ≤ 1 / 2 ^ 110 := by
  unfold tiny
  exact one_div_le_one_div_of_le (by positivity) (pow_le_pow_right₀ (by norm_num) (by norm_num))

theorem abs_le_mag {lo hi y : ℝ} (h1 : lo ≤ y) (h2 : y ≤ hi) : |y| ≤ max |lo| |hi| := by
  rw [abs_le]
  constructor
  · have := neg_abs_le lo
    have := le_max_left |lo| |hi|
    linarith
  · have := le_abs_self hi
    have := le_max_right |lo| |hi|
    linarith

theorem F64.err (F : F64) (x : ℝ) : |F.rnd x - x| ≤ |x| / 2 ^ 53 + tiny :=
  (F.rnd_err x).trans (add_le_add le_rfl two_1075)

/-- The rounding of an inexact result. -/
theorem F64.prop (F : F64) {z y e M : ℝ} (h : |z - y| ≤ e) (hM : |y| ≤ M) :
    |F.rnd z - y| ≤ e + (M + e) / 2 ^ 53 + tiny := by
  have h1 := F.err z
  have h2 : |z| ≤ M + e := by
    calc |z| = |y + (z - y)| := by ring_nf
      _ ≤ |y| + |z - y| := abs_add_le _ _
      _ ≤ _ := by linarith
  have h3 : |z| / 2 ^ 53 ≤ (M + e) / 2 ^ 53 := by gcongr
  calc |F.rnd z - y| = |(F.rnd z - z) + (z - y)| := by ring_nf
    _ ≤ |F.rnd z - z| + |z - y| := abs_add_le _ _
    _ ≤ _ := by linarith

theorem F64.rnd_abs (F : F64) (z : ℝ) {m : ℝ} (h : |z| ≤ m) : |F.rnd z| ≤ m + m / 2 ^ 53 + tiny := by
  have h1 := F.err z
  have h3 : |z| / 2 ^ 53 ≤ m / 2 ^ 53 := by gcongr
  calc |F.rnd z| = |(F.rnd z - z) + z| := by ring_nf
    _ ≤ |F.rnd z - z| + |z| := abs_add_le _ _
    _ ≤ _ := by linarith

theorem big_lt : (2 : ℝ) ^ 101 < 2 ^ 1024 := pow_lt_pow_right₀ (by norm_num) (by norm_num)

theorem V.ovf_fin {a : ℝ} (h : |a| ≤ 2 ^ 101) : V.ovf a = .fin a := by
  have h2 := abs_le.1 h
  have h3 := big_lt
  unfold V.ovf
  rw [if_neg (not_le.2 (h2.2.trans_lt h3)), if_neg (not_le.2 ((neg_lt_neg h3).trans_le h2.1))]

theorem V.rnd_fin (F : F64) {z : ℝ} (h : |z| ≤ 2 ^ 100) : V.rnd F (.fin z) = .fin (F.rnd z) := by
  have h1 := F.rnd_abs z h
  have h2 : (2 : ℝ) ^ 100 + 2 ^ 100 / 2 ^ 53 + tiny ≤ 2 ^ 101 := by
    have := tiny_le
    norm_num at this ⊢
    linarith
  exact V.ovf_fin (h1.trans h2)

/-! ### Products and quotients -/

theorem mul_err {x y x' y' e e' M M' : ℝ} (h : |x - y| ≤ e) (h' : |x' - y'| ≤ e') (hM : |y| ≤ M)
    (hM' : |y'| ≤ M') : |x * x' - y * y'| ≤ M * e' + M' * e + e * e' := by
  have h1 : x * x' - y * y' = y * (x' - y') + y' * (x - y) + (x - y) * (x' - y') := by ring
  rw [h1]
  refine (abs_add_le _ _).trans (add_le_add ((abs_add_le _ _).trans (add_le_add ?_ ?_)) ?_)
  · rw [abs_mul]; exact mul_le_mul hM h' (abs_nonneg _) ((abs_nonneg _).trans hM)
  · rw [abs_mul]; exact mul_le_mul hM' h (abs_nonneg _) ((abs_nonneg _).trans hM')
  · rw [abs_mul]; exact mul_le_mul h h' (abs_nonneg _) ((abs_nonneg _).trans h)

theorem mul_mem {a b c d x y : ℝ} (h1 : a ≤ x) (h2 : x ≤ b) (h3 : c ≤ y) (h4 : y ≤ d) :
    min (min (a * c) (a * d)) (min (b * c) (b * d)) ≤ x * y ∧
      x * y ≤ max (max (a * c) (a * d)) (max (b * c) (b * d)) := by
  have key : ∀ t : ℝ, min (t * c) (t * d) ≤ t * y ∧ t * y ≤ max (t * c) (t * d) := by
    intro t
    rcases le_total 0 t with ht | ht
    · exact ⟨(min_le_left _ _).trans (mul_le_mul_of_nonneg_left h3 ht),
        (mul_le_mul_of_nonneg_left h4 ht).trans (le_max_right _ _)⟩
    · exact ⟨(min_le_right _ _).trans (mul_le_mul_of_nonpos_left h4 ht),
        (mul_le_mul_of_nonpos_left h3 ht).trans (le_max_left _ _)⟩
  obtain ⟨ka, ka'⟩ := key a
  obtain ⟨kb, kb'⟩ := key b
  have hy : min (a * y) (b * y) ≤ x * y ∧ x * y ≤ max (a * y) (b * y) := by
    rcases le_total 0 y with ht | ht
    · exact ⟨(min_le_left _ _).trans (mul_le_mul_of_nonneg_right h1 ht),
        (mul_le_mul_of_nonneg_right h2 ht).trans (le_max_right _ _)⟩
    · exact ⟨(min_le_right _ _).trans (mul_le_mul_of_nonpos_right h2 ht),
        (mul_le_mul_of_nonpos_right h1 ht).trans (le_max_left _ _)⟩
  exact ⟨(min_le_min ka kb).trans hy.1, hy.2.trans (max_le_max ka' kb')⟩

theorem inv_mem {c d y : ℝ} (h : 0 < c ∨ d < 0) (h3 : c ≤ y) (h4 : y ≤ d) : 1 / d ≤ 1 / y ∧ 1 / y ≤ 1 / c := by
  rcases h with h | h
  · exact ⟨one_div_le_one_div_of_le (h.trans_le h3) h4, one_div_le_one_div_of_le h h3⟩
  · exact ⟨one_div_le_one_div_of_neg_of_le h h4, one_div_le_one_div_of_neg_of_le (h4.trans_lt h) h3⟩

/-- `δ` bounds the exact denominator away from 0. -/
theorem div_err {x y x' y' e e' M δ : ℝ} (h : |x - y| ≤ e) (h' : |x' - y'| ≤ e') (hM : |y| ≤ M)
    (hδ : δ ≤ |y'|) (he : e' < δ) : |x / x' - y / y'| ≤ (e + M / δ * e') / (δ - e') := by
  have he0 : 0 ≤ e' := (abs_nonneg _).trans h'
  have hδ0 : 0 < δ := lt_of_le_of_lt he0 he
  have hy' : 0 < |y'| := hδ0.trans_le hδ
  have hx : δ - e' ≤ |x'| := by
    have : |y'| ≤ |x'| + |x' - y'| := by
      calc |y'| = |x' - (x' - y')| := by ring_nf
        _ ≤ _ := abs_sub _ _
    linarith
  have hx0 : 0 < |x'| := lt_of_lt_of_le (by linarith) hx
  have hx1 : x' ≠ 0 := abs_pos.1 hx0
  have hy1 : y' ≠ 0 := abs_pos.1 hy'
  have h1 : x / x' - y / y' = ((x - y) - y / y' * (x' - y')) / x' := by
    field_simp
    ring
  have hM0 : 0 ≤ M := (abs_nonneg _).trans hM
  rw [h1, abs_div]
  have h2 : |(x - y) - y / y' * (x' - y')| ≤ e + M / δ * e' := by
    refine (abs_sub _ _).trans (add_le_add h ?_)
    rw [abs_mul, abs_div]
    refine mul_le_mul ?_ h' (abs_nonneg _) (by positivity)
    exact div_le_div₀ hM0 hM hδ0 hδ
  have h3 : 0 ≤ e + M / δ * e' := (abs_nonneg _).trans h2
  exact div_le_div₀ h3 h2 (by linarith) hx

/-- Division by a rounded literal. -/
theorem divq_err (F : F64) {x y e M q : ℝ} (hq : 1 / 2 ^ 50 ≤ |q|) (h : |x - y| ≤ e) (hM : |y| ≤ M) :
    F.rnd q ≠ 0 ∧ |x / F.rnd q - y / q| ≤ (e + (M + e) / 2 ^ 51) / |q| := by
  have hq0 : 0 < |q| := lt_of_lt_of_le (by positivity) hq
  have hq1 : q ≠ 0 := abs_pos.1 hq0
  have h1 := F.err q
  have ht : tiny ≤ |q| / 2 ^ 53 := by
    have := tiny_le
    have h2 : (1 : ℝ) / 2 ^ 110 ≤ 1 / 2 ^ 50 / 2 ^ 53 := by norm_num
    have h3 : (1 : ℝ) / 2 ^ 50 / 2 ^ 53 ≤ |q| / 2 ^ 53 := by gcongr
    linarith
  have h2 : |F.rnd q - q| ≤ |q| / 2 ^ 52 := by
    have : |q| / 2 ^ 52 = |q| / 2 ^ 53 + |q| / 2 ^ 53 := by ring
    linarith
  have h3 : |q| / 2 ≤ |F.rnd q| := by
    have h4 : |q| ≤ |F.rnd q| + |F.rnd q - q| := by
      calc |q| = |F.rnd q - (F.rnd q - q)| := by ring_nf
        _ ≤ _ := abs_sub _ _
    have h5 : |q| / 2 ^ 52 ≤ |q| / 2 := by gcongr; norm_num
    linarith
  have h6 : 0 < |F.rnd q| := by linarith
  have h7 : F.rnd q ≠ 0 := abs_pos.1 h6
  refine ⟨h7, ?_⟩
  have hx : |x| ≤ M + e := by
    calc |x| = |y + (x - y)| := by ring_nf
      _ ≤ |y| + |x - y| := abs_add_le _ _
      _ ≤ _ := by linarith
  have h8 : x / F.rnd q - y / q = (x - y) / q - x * (F.rnd q - q) / (q * F.rnd q) := by
    field_simp
    ring
  rw [h8]
  have h9 : |(x - y) / q| ≤ e / |q| := by rw [abs_div]; gcongr
  have h10 : |x * (F.rnd q - q) / (q * F.rnd q)| ≤ (M + e) / 2 ^ 51 / |q| := by
    rw [abs_div, abs_mul, abs_mul, div_le_div_iff₀ (by positivity) hq0]
    have h11 : |x| * |F.rnd q - q| ≤ (M + e) * (|q| / 2 ^ 52) :=
      mul_le_mul hx h2 (abs_nonneg _) ((abs_nonneg _).trans hx)
    have h12 : (M + e) / 2 ^ 51 * (|q| * (|q| / 2)) ≤ (M + e) / 2 ^ 51 * (|q| * |F.rnd q|) := by
      have : 0 ≤ M + e := (abs_nonneg _).trans hx
      gcongr
    calc |x| * |F.rnd q - q| * |q| ≤ (M + e) * (|q| / 2 ^ 52) * |q| := by gcongr
      _ = (M + e) / 2 ^ 51 * (|q| * (|q| / 2)) := by ring
      _ ≤ _ := h12
  calc _ ≤ |(x - y) / q| + |x * (F.rnd q - q) / (q * F.rnd q)| := abs_sub _ _
    _ ≤ e / |q| + (M + e) / 2 ^ 51 / |q| := add_le_add h9 h10
    _ = _ := by ring

theorem pow_err' {x y e M : ℝ} (h : |x - y| ≤ e) (hM : |y| ≤ M) (n : ℕ) :
    |x ^ n - y ^ n| ≤ n * (M + e) ^ (n - 1) * e := by
  have he : 0 ≤ e := (abs_nonneg _).trans h
  have hM0 : 0 ≤ M := (abs_nonneg _).trans hM
  have hx : |x| ≤ M + e := by
    calc |x| = |y + (x - y)| := by ring_nf
      _ ≤ |y| + |x - y| := abs_add_le _ _
      _ ≤ _ := by linarith
  have h1 : |x ^ n - y ^ n| ≤ |x - y| * n * max |x| |y| ^ (n - 1) := abs_pow_sub_pow_le x y n
  have h2 : max |x| |y| ≤ M + e := max_le hx (by linarith)
  calc _ ≤ |x - y| * n * max |x| |y| ^ (n - 1) := h1
    _ ≤ e * n * (M + e) ^ (n - 1) := by gcongr
    _ = _ := by ring

theorem powN_err' (F : F64) {x y e M : ℝ} (h : |x - y| ≤ e) (hM : |y| ≤ M) (n : ℕ) :
    |F.pow x n - y ^ n| ≤ n * (M + e) ^ (n - 1) * e + (M + e) ^ n / 2 ^ 51 + tiny := by
  have hx : |x| ≤ M + e := by
    calc |x| = |y + (x - y)| := by ring_nf
      _ ≤ |y| + |x - y| := abs_add_le _ _
      _ ≤ _ := by linarith
  have h1 := (F.powN_err x n).trans (add_le_add le_rfl two_1074)
  have h2 := pow_err' h hM n
  have h3 : |x| ^ n / 2 ^ 51 ≤ (M + e) ^ n / 2 ^ 51 := by gcongr
  calc _ = |(F.pow x n - x ^ n) + (x ^ n - y ^ n)| := by ring_nf
    _ ≤ _ := abs_add_le _ _
    _ ≤ _ := by linarith

/-! ### Library functions -/

theorem lip_sin (x y : ℝ) : |Real.sin x - Real.sin y| ≤ |x - y| := by
  have := Convex.norm_image_sub_le_of_norm_deriv_le (f := Real.sin) (s := Set.univ) (x := y) (y := x) (C := 1)
    (fun _ _ => Real.differentiableAt_sin)
    (fun x _ => by rw [Real.deriv_sin, Real.norm_eq_abs]; exact Real.abs_cos_le_one x) convex_univ trivial trivial
  simpa [Real.norm_eq_abs] using this

theorem lip_cos (x y : ℝ) : |Real.cos x - Real.cos y| ≤ |x - y| := by
  have := Convex.norm_image_sub_le_of_norm_deriv_le (f := Real.cos) (s := Set.univ) (x := y) (y := x) (C := 1)
    (fun _ _ => Real.differentiableAt_cos)
    (fun x _ => by
      rw [Real.deriv_cos, Real.norm_eq_abs, abs_neg]; exact Real.abs_sin_le_one x) convex_univ trivial trivial
  simpa [Real.norm_eq_abs] using this

theorem lip_arctan (x y : ℝ) : |Real.arctan x - Real.arctan y| ≤ |x - y| := by
  have := Convex.norm_image_sub_le_of_norm_deriv_le (f := Real.arctan) (s := Set.univ) (x := y) (y := x) (C := 1)
    (fun x _ => (Real.hasDerivAt_arctan x).differentiableAt)
    (fun x _ => by
      rw [(Real.hasDerivAt_arctan x).deriv, Real.norm_eq_abs, abs_of_nonneg (by positivity), div_le_one (by positivity)]
      nlinarith [sq_nonneg x]) convex_univ trivial trivial
  simpa [Real.norm_eq_abs] using this

theorem lip_arcsin {x y : ℝ} (hx : |x| ≤ 4 / 5) (hy : |y| ≤ 4 / 5) :
    |Real.arcsin x - Real.arcsin y| ≤ 5 / 3 * |x - y| := by
  have hd : ∀ t ∈ Set.Icc (-(4 / 5) : ℝ) (4 / 5), HasDerivAt Real.arcsin (1 / √(1 - t ^ 2)) t := by
    intro t ht
    exact Real.hasDerivAt_arcsin (by linarith [ht.1]) (by linarith [ht.2])
  have := Convex.norm_image_sub_le_of_norm_deriv_le (f := Real.arcsin) (s := Set.Icc (-(4 / 5) : ℝ) (4 / 5))
    (x := y) (y := x) (C := 5 / 3)
    (fun t ht => (hd t ht).differentiableAt)
    (fun t ht => by
      rw [(hd t ht).deriv, Real.norm_eq_abs, abs_of_nonneg (by positivity)]
      have h1 : (3 / 5 : ℝ) ≤ √(1 - t ^ 2) := by
        apply Real.le_sqrt_of_sq_le
        nlinarith [ht.1, ht.2]
      rw [div_le_iff₀ (by linarith)]
      linarith) (convex_Icc _ _) (abs_le.1 hy) (abs_le.1 hx)
  simpa [Real.norm_eq_abs] using this

theorem cos_one_sq : (1 / 4 : ℝ) ≤ Real.cos 1 ^ 2 := by
  have := Real.cos_one_pos
  have h := Real.one_sub_sq_div_two_le_cos (x := 1)
  nlinarith

theorem lip_tan {x y : ℝ} (hx : |x| ≤ 1) (hy : |y| ≤ 1) : |Real.tan x - Real.tan y| ≤ 4 * |x - y| := by
  have hc : ∀ t ∈ Set.Icc (-1 : ℝ) 1, 1 / 2 ≤ Real.cos t := by
    intro t ht
    have h := Real.one_sub_sq_div_two_le_cos (x := t)
    nlinarith [ht.1, ht.2]
  have hd : ∀ t ∈ Set.Icc (-1 : ℝ) 1, HasDerivAt Real.tan (1 / Real.cos t ^ 2) t := by
    intro t ht
    exact Real.hasDerivAt_tan (by have := hc t ht; intro h; linarith)
  have := Convex.norm_image_sub_le_of_norm_deriv_le (f := Real.tan) (s := Set.Icc (-1 : ℝ) 1)
    (x := y) (y := x) (C := 4)
    (fun t ht => (hd t ht).differentiableAt)
    (fun t ht => by
      rw [(hd t ht).deriv, Real.norm_eq_abs, abs_of_nonneg (by positivity)]
      have h1 := hc t ht
      rw [div_le_iff₀ (by positivity)]
      nlinarith) (convex_Icc _ _) (abs_le.1 hy) (abs_le.1 hx)
  simpa [Real.norm_eq_abs] using this

theorem abs_tan_le {y : ℝ} (hy : |y| ≤ 1) : |Real.tan y| ≤ 4 * |y| := by
  have := lip_tan (x := y) (y := 0) hy (by simp)
  simpa using this

theorem abs_arctan_le (y : ℝ) : |Real.arctan y| ≤ |y| := by
  have := lip_arctan y 0
  simpa using this

theorem abs_sin_le (y : ℝ) : |Real.sin y| ≤ |y| := by
  have := lip_sin y 0
  simpa using this

theorem abs_arcsin_le {y : ℝ} (hy : |y| ≤ 4 / 5) : |Real.arcsin y| ≤ 5 / 3 * |y| := by
  have := lip_arcsin (x := y) (y := 0) hy (by norm_num)
  simpa using this

theorem arg_eq_arctan {x y : ℝ} (hx : 0 < x) : Complex.arg ⟨x, y⟩ = Real.arctan (y / x) := by
  have h := Complex.tan_arg ⟨x, y⟩
  have h1 : |Complex.arg ⟨x, y⟩| < Real.pi / 2 := by
    rw [Complex.abs_arg_lt_pi_div_two_iff]
    exact Or.inl hx
  rw [← h, Real.arctan_tan (by linarith [(abs_lt.1 h1).1]) (abs_lt.1 h1).2]

/-! ### Degrees and radians -/

theorem pi180 : (0.017453292519943 : ℝ) < π / 180 ∧ π / 180 < 0.017453292519944 := by
  have h1 := Real.pi_gt_d20
  have h2 := Real.pi_lt_d20
  constructor <;> norm_num at h1 h2 ⊢ <;> linarith

theorem pi57 : (57.295779513082 : ℝ) < 180 / π ∧ 180 / π < 57.295779513083 := by
  have h1 := Real.pi_gt_d20
  have h2 := Real.pi_lt_d20
  have h0 := Real.pi_pos
  constructor
  · rw [lt_div_iff₀ h0]; norm_num at h1 h2 ⊢; linarith
  · rw [div_lt_iff₀ h0]; norm_num at h1 h2 ⊢; linarith

/-- The factor CPython uses for `math.radians`. -/
theorem rad_factor (F : F64) : |F.rnd (F.rnd π / 180) - π / 180| ≤ 1 / 2 ^ 57 := by
  have h0 := Real.pi_pos
  have h2 := Real.pi_lt_d20
  have h1 := F.err π
  rw [abs_of_pos h0] at h1
  have ht := tiny_le
  have h3 : |F.rnd π - π| ≤ 3.1416 / 2 ^ 53 + tiny := by
    refine h1.trans ?_
    gcongr
    linarith
  have h4 : |F.rnd π / 180 - π / 180| ≤ (3.1416 / 2 ^ 53 + tiny) / 180 := by
    rw [← sub_div, abs_div, abs_of_pos (by norm_num : (0 : ℝ) < 180)]
    gcongr
  have h5 := F.prop (M := 0.01746) h4 (by rw [abs_of_pos (by positivity)]; linarith)
  refine h5.trans ?_
  norm_num at ht ⊢
  linarith

theorem deg_factor (F : F64) : |F.rnd (180 / F.rnd π) - 180 / π| ≤ 1 / 2 ^ 46 := by
  have h0 := Real.pi_pos
  have h2 := Real.pi_lt_d20
  have h6 := Real.pi_gt_d20
  have h1 := F.err π
  rw [abs_of_pos h0] at h1
  have ht := tiny_le
  have h3 : |F.rnd π - π| ≤ 3.1416 / 2 ^ 53 + tiny := by
    refine h1.trans ?_
    gcongr
    linarith
  have h4 := div_err (x := 180) (y := 180) (e := 0) (M := 180) (δ := 3.14) (by norm_num) h3 (by norm_num)
    (by rw [abs_of_pos h0]; linarith) (by norm_num at ht ⊢; linarith)
  have h7 : (0 + 180 / 3.14 * (3.1416 / 2 ^ 53 + tiny)) / (3.14 - (3.1416 / 2 ^ 53 + tiny)) ≤ (1 : ℝ) / 2 ^ 47 := by
    rw [div_le_iff₀ (by norm_num at ht ⊢; linarith)]
    norm_num at ht ⊢
    linarith
  have h5 := F.prop (M := 57.3) (h4.trans h7) (by rw [abs_of_pos (by positivity)]; linarith [pi57.2])
  refine h5.trans ?_
  norm_num at ht ⊢
  linarith

end Verif
