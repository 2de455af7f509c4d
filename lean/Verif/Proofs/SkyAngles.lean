import Verif.Props.Accuracy
import Mathlib.Geometry.Euclidean.Angle.Unoriented.TriangleInequality

/-!
# Angles between directions in the sky
-/

namespace Verif

open Verif.Spec Verif.Props Real

theorem angleBetween_eq (u v : Vec3) : angleBetween u v = deg (InnerProductGeometry.angle (toE u) (toE v)) := by
  unfold angleBetween InnerProductGeometry.angle
  rw [inner_toE, norm_toE, norm_toE]

theorem deg_add' (x y : ℝ) : deg (x + y) = deg x + deg y := by unfold deg; ring

theorem deg_mono {x y : ℝ} (h : x ≤ y) : deg x ≤ deg y := by
  unfold deg
  have := pi_pos
  gcongr

theorem angleBetween_triangle (u v w : Vec3) : angleBetween u w ≤ angleBetween u v + angleBetween v w := by
  rw [angleBetween_eq, angleBetween_eq, angleBetween_eq, ← deg_add']
  exact deg_mono (InnerProductGeometry.angle_le_angle_add_angle _ _ _)

theorem angleBetween_comm (u v : Vec3) : angleBetween u v = angleBetween v u := by
  rw [angleBetween_eq, angleBetween_eq, InnerProductGeometry.angle_comm]

theorem angleBetween_unit {u v : Vec3} (hu : u.dot u = 1) (hv : v.dot v = 1) :
    angleBetween u v = deg (arccos (u.dot v)) := by
  unfold angleBetween
  rw [hu, hv]
  simp

/-- An angle is at most `x` if the cosine is at least that of `x`. -/
theorem angleBetween_le {u v : Vec3} (hu : u.dot u = 1) (hv : v.dot v = 1) {x : ℝ}
    (h : cos (rad x) ≤ u.dot v) : angleBetween u v ≤ |x| := by
  rw [angleBetween_unit hu hv]
  have hp := pi_pos
  by_cases hx : |x| ≤ 180
  · have h1 : arccos (u.dot v) ≤ rad |x| := by
      calc arccos (u.dot v) ≤ arccos (cos (rad x)) := antitone_arccos h
        _ = arccos (cos (rad |x|)) := by
          rcases abs_choice x with e | e
          · rw [e]
          · rw [e, show rad (-x) = -rad x by unfold rad; ring, cos_neg]
        _ = rad |x| := by
          apply arccos_cos
          · unfold rad; positivity
          · rw [← rad_180, rad_le_rad]; exact hx
    calc deg (arccos (u.dot v)) ≤ deg (rad |x|) := deg_mono h1
      _ = |x| := deg_rad _
  · calc deg (arccos (u.dot v)) ≤ deg π := deg_mono (arccos_le_pi _)
      _ = 180 := by unfold deg; field_simp
      _ ≤ |x| := by linarith

theorem angleBetween_sph_lat (l a b : ℝ) : angleBetween (sph l a) (sph l b) ≤ |a - b| := by
  refine angleBetween_le (sph_unit _ _) (sph_unit _ _) (le_of_eq ?_)
  rw [rad_sub, cos_sub]
  simp only [sph, Vec3.dot]
  have h3 := sin_sq_add_cos_sq (rad l)
  linear_combination (-(cos (rad a) * cos (rad b))) * h3

theorem angleBetween_sph_lon (b l m : ℝ) : angleBetween (sph l b) (sph m b) ≤ |l - m| := by
  refine angleBetween_le (sph_unit _ _) (sph_unit _ _) ?_
  rw [rad_sub, cos_sub]
  simp only [sph, Vec3.dot]
  have h3 := sin_sq_add_cos_sq (rad b)
  have h4 : cos (rad l) * cos (rad m) + sin (rad l) * sin (rad m) ≤ 1 := by
    rw [← cos_sub]; exact cos_le_one _
  have e : cos (rad b) * cos (rad l) * (cos (rad b) * cos (rad m))
      + cos (rad b) * sin (rad l) * (cos (rad b) * sin (rad m)) + sin (rad b) * sin (rad b)
      = cos (rad b) ^ 2 * (cos (rad l) * cos (rad m) + sin (rad l) * sin (rad m)) + sin (rad b) ^ 2 := by ring
  rw [e]
  nlinarith [sq_nonneg (sin (rad b))]

/-- The angle in terms of the chord. -/
theorem angleBetween_le_chord {u v : Vec3} (hu : u.dot u = 1) (hv : v.dot v = 1) {c : ℝ}
    (h : ‖toE u - toE v‖ ≤ c) : angleBetween u v ≤ deg (2 * c) := by
  have h0 : ‖toE u‖ = 1 := by rw [norm_toE, hu, Real.sqrt_one]
  have h0' : ‖toE v‖ = 1 := by rw [norm_toE, hv, Real.sqrt_one]
  have h1 : ‖toE u - toE v‖ ^ 2 = 2 - 2 * u.dot v := by
    rw [norm_sub_sq_real, h0, h0', inner_toE]
    ring
  have hc : 0 ≤ c := (norm_nonneg _).trans h
  rw [angleBetween_unit hu hv]
  refine deg_mono ?_
  set t := arccos (u.dot v) with ht
  have ht0 : 0 ≤ t := arccos_nonneg _
  have htp : t ≤ π := arccos_le_pi _
  have hd1 : u.dot v ≤ 1 := by nlinarith [sq_nonneg ‖toE u - toE v‖]
  have hd2 : -1 ≤ u.dot v := by
    have : ‖toE u - toE v‖ ≤ 2 := by
      calc _ ≤ ‖toE u‖ + ‖toE v‖ := norm_sub_le _ _
        _ = 2 := by rw [h0, h0']; norm_num
    nlinarith [norm_nonneg (toE u - toE v)]
  have hcos : cos t = u.dot v := cos_arccos hd2 hd1
  have hs : ‖toE u - toE v‖ ^ 2 = (2 * sin (t / 2)) ^ 2 := by
    rw [h1, ← hcos]
    have := cos_sq' (t / 2)
    have h2 := cos_two_mul (t / 2)
    rw [show 2 * (t / 2) = t by ring] at h2
    rw [h2, mul_pow]
    linarith
  have hsin : 0 ≤ sin (t / 2) := sin_nonneg_of_nonneg_of_le_pi (by linarith) (by linarith)
  have hs' : 2 * sin (t / 2) ≤ c := by
    have : ‖toE u - toE v‖ = 2 * sin (t / 2) := by
      rw [← abs_of_nonneg (norm_nonneg (toE u - toE v)), ← abs_of_nonneg (by linarith : 0 ≤ 2 * sin (t / 2))]
      exact sq_eq_sq_iff_abs_eq_abs _ _ |>.1 hs
    linarith
  have hj := Real.mul_le_sin (x := t / 2) (by linarith) (by linarith)
  have h2 : (1 : ℝ) / 2 ≤ 2 / π := by
    rw [div_le_div_iff₀ (by norm_num) pi_pos]
    linarith [pi_le_four]
  nlinarith

theorem angleBetween_toHorizon (lat : ℝ) {u v : Vec3} :
    angleBetween (toHorizon lat u) (toHorizon lat v) = angleBetween u v := by
  have h : (toHorizon lat u).dot (toHorizon lat v) = u.dot v := by
    simp only [toHorizon, Vec3.dot]
    have := sin_sq_add_cos_sq (rad lat)
    linear_combination (u.x * v.x + u.z * v.z) * this
  unfold angleBetween
  rw [h, toHorizon_dot, toHorizon_dot]

/-- Directions given by altitude and azimuth are spherical coordinates. -/
theorem horizontal_eq_sph (e a : ℝ) : horizontal e a = sph (90 - a) e := by
  have hs : sin (rad (90 - a)) = cos (rad a) := by rw [rad_sub, rad_90, sin_pi_div_two_sub]
  have hc : cos (rad (90 - a)) = sin (rad a) := by rw [rad_sub, rad_90, cos_pi_div_two_sub]
  simp only [horizontal, sph, hs, hc]

/-- The altitudes of two directions differ by at most the angle between them. -/
theorem altitude_diff {u v : Vec3} (hu : u.dot u = 1) (hv : v.dot v = 1) :
    |deg (arcsin u.z) - deg (arcsin v.z)| ≤ angleBetween u v := by
  have hz : (⟨0, 0, 1⟩ : Vec3).dot ⟨0, 0, 1⟩ = 1 := by simp [Vec3.dot]
  have e : ∀ w : Vec3, w.dot w = 1 → deg (arcsin w.z) = 90 - angleBetween w ⟨0, 0, 1⟩ := by
    intro w hw
    rw [angleBetween_unit hw hz, arccos]
    simp only [Vec3.dot, mul_zero, mul_one, zero_add, deg]
    have := pi_pos
    field_simp
    ring
  rw [e u hu, e v hv, abs_le]
  have h1 := angleBetween_triangle u v ⟨0, 0, 1⟩
  have h2 := angleBetween_triangle v u ⟨0, 0, 1⟩
  rw [angleBetween_comm v u] at h2
  constructor <;> linarith

/-- The direction of the sun moves at most as much as declination and hour angle. -/
theorem angleBetween_sunENU (lat : ℝ) {H H' δ δ' : ℝ} (k : ℤ) :
    angleBetween (sunENU lat H' δ') (sunENU lat H δ) ≤ |δ' - δ| + |H' - H - 360 * k| := by
  unfold sunENU
  rw [angleBetween_toHorizon]
  refine (angleBetween_triangle _ (sph H' δ) _).trans (add_le_add (angleBetween_sph_lat _ _ _) ?_)
  rw [← sph_add_turns H δ k]
  refine (angleBetween_sph_lon _ _ _).trans (le_of_eq ?_)
  congr 1
  ring

/-- Azimuth errors count with the cosine of the altitude. -/
theorem angleBetween_azimuth (e a b : ℝ) (k : ℤ) :
    angleBetween (horizontal e a) (horizontal e b) ≤ 2 * |cos (rad e)| * |a - b - 360 * k| := by
  have hu := horizontal_unit e a
  have hv := horizontal_unit e b
  have hc : ‖toE (horizontal e a) - toE (horizontal e b)‖ ≤ |cos (rad e)| * |rad (a - b - 360 * k)| := by
    rw [← toE_sub, norm_toE]
    apply Real.sqrt_le_iff.mpr
    refine ⟨by positivity, ?_⟩
    have hk : cos (rad (a - b - 360 * k)) = cos (rad (a - b)) := by
      rw [rad_sub, show rad (360 * k) = k * (2 * π) by unfold rad; ring, cos_sub_int_mul_two_pi]
    have h : ((horizontal e a).sub (horizontal e b)).dot ((horizontal e a).sub (horizontal e b))
        = cos (rad e) ^ 2 * (2 - 2 * cos (rad (a - b))) := by
      rw [rad_sub, cos_sub]
      simp only [horizontal, Vec3.sub, Vec3.dot]
      have h1 := sin_sq_add_cos_sq (rad a)
      have h2 := sin_sq_add_cos_sq (rad b)
      linear_combination (cos (rad e) ^ 2) * (h1 + h2)
    rw [h, mul_pow, sq_abs, sq_abs, ← hk]
    have := one_sub_sq_div_two_le_cos (x := rad (a - b - 360 * k))
    have h2 := sq_nonneg (cos (rad e))
    nlinarith
  refine (angleBetween_le_chord hu hv hc).trans (le_of_eq ?_)
  have hp := pi_pos
  unfold deg rad
  rw [abs_div, abs_mul, abs_of_pos hp, abs_of_pos (by norm_num : (0 : ℝ) < 180)]
  field_simp

/-- The arcsine is continuous with exponent 1/2 up to the ends of its domain. -/
theorem arcsin_close {a b ε η : ℝ} (ha : |a| ≤ 1) (hb : |b| ≤ 1) (h : |a - b| ≤ ε) (hε : ε ≤ 1 / 10 ^ 10)
    (hη : 0 ≤ η) (h2 : 2.1 * ε ≤ η ^ 2) : |arcsin a - arcsin b| ≤ η := by
  wlog hab : b ≤ a generalizing a b
  · rw [abs_sub_comm]
    exact this hb ha (by rwa [abs_sub_comm]) (le_of_not_ge hab)
  have ha' := abs_le.1 ha
  have hb' := abs_le.1 hb
  set u := arcsin a with hu
  set v := arcsin b with hv
  have huv : v ≤ u := monotone_arcsin hab
  have hu1 := arcsin_le_pi_div_two a
  have hv1 := neg_pi_div_two_le_arcsin b
  have hu2 : -(π / 2) ≤ u := neg_pi_div_two_le_arcsin a
  have hv2 : v ≤ π / 2 := arcsin_le_pi_div_two b
  rw [abs_of_nonneg (by linarith)]
  have ea : a = sin u := (sin_arcsin ha'.1 ha'.2).symm
  have eb : b = sin v := (sin_arcsin hb'.1 hb'.2).symm
  set t := (u - v) / 2 with ht
  have ht0 : 0 ≤ t := by rw [ht]; linarith
  have ht1 : t ≤ π / 2 := by rw [ht]; linarith
  have hst : 0 ≤ sin t := sin_nonneg_of_nonneg_of_le_pi ht0 (by linarith [pi_pos])
  have hcos : sin t ≤ cos ((u + v) / 2) := by
    rw [← cos_pi_div_two_sub]
    have h3 : |(u + v) / 2| ≤ π / 2 - t := by
      rw [abs_le, ht]
      constructor <;> linarith
    rw [← cos_abs ((u + v) / 2)]
    exact cos_le_cos_of_nonneg_of_le_pi (abs_nonneg _) (by linarith [pi_pos]) h3
  have hd : a - b = 2 * sin t * cos ((u + v) / 2) := by
    rw [ea, eb, sin_sub_sin]
  have hsq : sin t ^ 2 ≤ ε / 2 := by
    have : a - b ≤ ε := (le_abs_self _).trans h
    nlinarith
  -- first a crude bound on `t`, then a sharp one
  have hj := Real.mul_le_sin ht0 ht1
  have h12 : (1 : ℝ) / 2 ≤ 2 / π := by
    rw [div_le_div_iff₀ (by norm_num) pi_pos]
    linarith [pi_le_four]
  have ht2 : t / 2 ≤ sin t := by nlinarith
  have ht3 : t ≤ 1 / 10000 := by
    by_contra hc
    push Not at hc
    have h5 : (1 / 20000 : ℝ) ≤ sin t := by linarith
    have h6 : (1 / 20000 : ℝ) ^ 2 ≤ sin t ^ 2 := pow_le_pow_left₀ (by norm_num) h5 2
    norm_num at h6 hε
    linarith
  have hs3 : t * 0.999 ≤ sin t := by
    rcases ht0.eq_or_lt with h0 | h0
    · rw [← h0]; simp
    · have := sin_gt_sub_cube h0
      nlinarith [pow_pos h0 3, mul_pos h0 h0]
  have h7 : (t * 0.999) ^ 2 ≤ ε / 2 := (pow_le_pow_left₀ (by positivity) hs3 2).trans hsq
  have h8 : (u - v) ^ 2 ≤ η ^ 2 := by
    have : u - v = 2 * t := by rw [ht]; ring
    rw [this]
    have hε0 : 0 ≤ ε := (abs_nonneg _).trans h
    nlinarith
  exact abs_le_of_sq_le_sq' h8 hη |>.2

end Verif
