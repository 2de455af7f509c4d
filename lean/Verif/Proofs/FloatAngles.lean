import Verif.Proofs.FloatLemmas
import Mathlib.Analysis.SpecialFunctions.Complex.Arg

/-!
# Stability of angles
-/

namespace Verif

open Real

/-- The argument of a number close to 1. -/
theorem abs_arg_one_add {w : ℂ} (h : ‖w‖ ≤ 1 / 2) : |Complex.arg (1 + w)| ≤ 2 * ‖w‖ := by
  have hre : 1 - ‖w‖ ≤ (1 + w).re := by
    have := (abs_le.1 (Complex.abs_re_le_norm w)).1
    simp only [Complex.add_re, Complex.one_re]
    linarith
  have hpos : 0 < (1 + w).re := by linarith
  have him : |(1 + w).im| ≤ ‖w‖ := by
    simp only [Complex.add_im, Complex.one_im, zero_add]
    exact Complex.abs_im_le_norm w
  have h1 : Complex.arg (1 + w) = arctan ((1 + w).im / (1 + w).re) := arg_eq_arctan (x := (1 + w).re) hpos
  rw [h1]
  refine (abs_arctan_le _).trans ?_
  rw [abs_div, abs_of_pos hpos, div_le_iff₀ hpos]
  have h2 : 0 ≤ ‖w‖ := norm_nonneg w
  nlinarith

/-- The direction of a plane vector changes little when the vector changes little compared to its length. -/
theorem arg_close {x y x' y' e e' ρ : ℝ} (hx : |x' - x| ≤ e) (hy : |y' - y| ≤ e') (hρ : 0 < ρ)
    (hr : ρ ^ 2 ≤ x ^ 2 + y ^ 2) (hs : e + e' ≤ ρ / 2) :
    ∃ k : ℤ, |Complex.arg ⟨x', y'⟩ - Complex.arg ⟨x, y⟩ - 2 * π * k| ≤ 2 * ((e + e') / ρ) := by
  set z : ℂ := ⟨x, y⟩ with hz
  set z' : ℂ := ⟨x', y'⟩ with hz'
  have hn : ρ ≤ ‖z‖ := by
    have h1 : ‖z‖ ^ 2 = x ^ 2 + y ^ 2 := by
      rw [Complex.sq_norm, Complex.normSq_mk]
      ring
    exact le_of_sq_le_sq (by rw [h1]; exact hr) (norm_nonneg z)
  have hz0 : z ≠ 0 := by
    intro h
    rw [h, norm_zero] at hn
    linarith
  have hd : ‖z' - z‖ ≤ e + e' := by
    refine (Complex.norm_le_abs_re_add_abs_im _).trans ?_
    exact add_le_add (by simpa [hz, hz'] using hx) (by simpa [hz, hz'] using hy)
  set w := (z' - z) / z with hw
  have hwn : ‖w‖ ≤ (e + e') / ρ := by
    rw [hw, norm_div]
    exact div_le_div₀ ((norm_nonneg _).trans hd) hd hρ hn
  have hwh : ‖w‖ ≤ 1 / 2 := by
    refine hwn.trans ?_
    rw [div_le_iff₀ hρ]
    linarith
  have hzw : z' = z * (1 + w) := by
    rw [hw]
    field_simp
    ring
  have h1w : (1 + w) ≠ 0 := by
    intro h
    have : ‖w‖ = 1 := by
      rw [show w = -1 by linear_combination h, norm_neg, norm_one]
    linarith
  have ha := Complex.arg_mul_coe_angle hz0 h1w
  rw [← hzw, ← Real.Angle.coe_add] at ha
  obtain ⟨k, hk⟩ := Real.Angle.angle_eq_iff_two_pi_dvd_sub.1 ha
  refine ⟨k, ?_⟩
  rw [show Complex.arg z' - Complex.arg z - 2 * π * k = Complex.arg (1 + w) by linarith]
  exact (abs_arg_one_add hwh).trans (by linarith)

/-- A relative change of the tangent. -/
theorem arctan_mul_close (m δ : ℝ) (h : |δ| ≤ 1 / 2) : |arctan (m * (1 + δ)) - arctan m| ≤ |δ| := by
  have hδ := abs_le.1 h
  have h1 : arctan (m * (1 + δ)) + arctan (-m) = arctan ((m * (1 + δ) + -m) / (1 - m * (1 + δ) * -m)) :=
    arctan_add (by nlinarith [sq_nonneg m])
  rw [arctan_neg, ← sub_eq_add_neg] at h1
  rw [h1]
  refine (abs_arctan_le _).trans ?_
  have hpos : 0 < 1 - m * (1 + δ) * -m := by nlinarith [sq_nonneg m]
  rw [abs_div, abs_of_pos hpos, div_le_iff₀ hpos, show m * (1 + δ) + -m = m * δ by ring, abs_mul]
  have h2 : |m| ≤ 1 - m * (1 + δ) * -m := by
    nlinarith [sq_nonneg (|m| - 1), abs_nonneg m, sq_abs m]
  rw [mul_comm]
  exact mul_le_mul_of_nonneg_left h2 (abs_nonneg δ)

/-- The reduced latitude changes little. -/
theorem reduced_close {x y k : ℝ} (hk : 99 / 100 ≤ k) (hk1 : k ≤ 1) (hx : |x| < π / 2) (hy : |y| < π / 2) :
    |arctan (k * tan x) - arctan (k * tan y)| ≤ 102 / 100 * |x - y| := by
  have hc : ∀ t ∈ Set.Ioo (-(π / 2)) (π / 2), 0 < cos t := fun t ht => cos_pos_of_mem_Ioo ht
  have hd : ∀ t ∈ Set.Ioo (-(π / 2)) (π / 2),
      HasDerivAt (fun t => arctan (k * tan t)) (1 / (1 + (k * tan t) ^ 2) * (k * (1 / cos t ^ 2))) t := by
    intro t ht
    exact ((Real.hasDerivAt_tan (hc t ht).ne').const_mul k).arctan
  have := Convex.norm_image_sub_le_of_norm_deriv_le (f := fun t => arctan (k * tan t))
    (s := Set.Ioo (-(π / 2)) (π / 2)) (x := y) (y := x) (C := 102 / 100)
    (fun t ht => (hd t ht).differentiableAt)
    (fun t ht => by
      have hct := hc t ht
      rw [(hd t ht).deriv, Real.norm_eq_abs, abs_of_nonneg (by positivity), tan_eq_sin_div_cos]
      have hs := sin_sq_add_cos_sq t
      have h1 : 1 / (1 + (k * (sin t / cos t)) ^ 2) * (k * (1 / cos t ^ 2)) = k / (cos t ^ 2 + k ^ 2 * sin t ^ 2) := by
        field_simp
      have h2 : k ^ 2 ≤ cos t ^ 2 + k ^ 2 * sin t ^ 2 := by
        have h3 : 0 ≤ (1 - k ^ 2) * cos t ^ 2 := mul_nonneg (by nlinarith) (sq_nonneg _)
        have h4 : k ^ 2 * (sin t ^ 2 + cos t ^ 2) = k ^ 2 := by rw [hs, mul_one]
        nlinarith
      rw [h1, div_le_iff₀ (by nlinarith [sq_nonneg (cos t)])]
      nlinarith) (convex_Ioo _ _) (abs_lt.1 hy) (abs_lt.1 hx)
  simpa [Real.norm_eq_abs] using this

end Verif
