import Verif.Props.Stubs
import Verif.Props.IrradianceFormulas

/-!
# C131: what `direct_underclear` answers when it is called as its stub says

The stub has `temperature, pressure` as fourth and fifth parameters, the code `TY, AM` (days in the year, air mass).
-/

namespace Verif.Props

open Verif.Spec Pysolar Pysolar.Util Real

/-- A sine away from the ends of the half turn. -/
theorem sin_ge {x : ℝ} (h1 : 0.019 ≤ x) (h2 : x ≤ 2.52) : 0.012 ≤ sin x := by
  have hp := pi_gt_d4
  have hp' := pi_lt_d4
  have h4 : (0.636 : ℝ) ≤ 2 / π := by
    rw [le_div_iff₀ pi_pos]
    norm_num at *
    linarith
  rcases le_total x (π / 2) with hx | hx
  · have := mul_le_sin (by norm_num at *; linarith : 0 ≤ x) hx
    have h5 : 0.636 * x ≤ 2 / π * x := mul_le_mul_of_nonneg_right h4 (by norm_num at *; linarith)
    norm_num at *
    linarith
  · rw [← sin_pi_sub]
    have h0 : 0 ≤ π - x := by norm_num at *; linarith
    have := mul_le_sin h0 (by linarith)
    have h5 : 0.636 * (π - x) ≤ 2 / π * (π - x) := mul_le_mul_of_nonneg_right h4 h0
    norm_num at *
    linarith

theorem year_angle {t n : ℝ} (h1 : 250 ≤ t) (h2 : t ≤ 330) (h3 : 1 ≤ n) (h4 : n ≤ 100) : 0.012 ≤ sin (2 * π / t * n) := by
  have hp := pi_gt_d4
  have hp' := pi_lt_d4
  have e : 2 * π / t * n = 2 * π * n / t := by ring
  refine sin_ge ?_ ?_
  · rw [e, le_div_iff₀ (by linarith)]
    norm_num at *
    nlinarith
  · rw [e, div_le_iff₀ (by linarith)]
    norm_num at *
    nlinarith

/-- C131, the effect: with a temperature of 250 to 330 kelvin and a pressure from 50000 pascals as fourth and fifth
argument, `direct_underclear` raises `OverflowError` on each of the first 80 days of the year, wherever the place. -/
theorem C131_effect_winter_partial (tp : ℝ) (d : DateTime) (c : Civil) (h : UtcFields d c) (lat lon : V) (t p : ℝ) (t1 : 250 ≤ t)
    (t2 : t ≤ 330) (p1 : 50000 ≤ p) (hy : yday c.date ≤ 80) :
    direct_underclear (mathB tp) lat lon (.dt d) (num t) (num p) = .error .overflow := by
  have hd := C81_declination_degree tp t d c h
  rw [if_neg (by linarith : t ≠ 0)] at hd
  have y1 : (1 : ℝ) ≤ yday c.date := by exact_mod_cast (yday_bounds h.1.2.2.1).1
  have y2 : (yday c.date : ℝ) ≤ 80 := by exact_mod_cast hy
  have hs := year_angle t1 t2 (n := 81 - yday c.date) (by linarith) (by linarith)
  have hs' : sin (2 * π / t * (yday c.date - 81)) ≤ -0.012 := by
    have : sin (2 * π / t * (yday c.date - 81)) = -sin (2 * π / t * (81 - yday c.date)) := by rw [← sin_neg]; congr 1; ring
    rw [this]
    norm_num at *
    linarith
  have he : 2 ^ 1024 ≤ exp (-0.8662 * p * (TL_default : ℚ) * (23.45 * sin (2 * π / t * (yday c.date - 81)))) := by
    have e1 : ((TL_default : ℚ) : ℝ) = 1 := by norm_num [TL_default]
    rw [e1, show (2 : ℝ) ^ 1024 = exp ((1024 : ℕ) * log 2) by rw [exp_nat_mul, exp_log (by norm_num)], exp_le_exp]
    have := log_two_lt_d9
    push_cast
    norm_num at *
    nlinarith
  simp only [direct_underclear, guard_denotes h.2, ok_bind, C43_constant_partial tp d c h, hd, m_sci,
    m_ofNat, m_neg, m_mul, m_lit]
  rw [m_exp_err (by norm_num at *; exact he)]
  rfl

/-- ... and on the days 82 to 181, if the altitude exists, it returns zero to more than 100 digits. -/
theorem C131_effect_summer_partial (tp : ℝ) (d : DateTime) (c : Civil) (h : UtcFields d c) (lat lon t p a : ℝ) (t1 : 250 ≤ t)
    (t2 : t ≤ 330) (p1 : 50000 ≤ p) (hy1 : 82 ≤ yday c.date) (hy2 : yday c.date ≤ 181)
    (ha : Solar.get_altitude (mathB tp) (num lat) (num lon) (.dt d) = .ok (num a)) :
    ∃ r, direct_underclear (mathB tp) (num lat) (num lon) (.dt d) (num t) (num p) = .ok (num r) ∧ |r| ≤ 1 / 10 ^ 100 := by
  have hd := C81_declination_degree tp t d c h
  rw [if_neg (by linarith : t ≠ 0)] at hd
  have y1 : (82 : ℝ) ≤ yday c.date := by exact_mod_cast hy1
  have y2 : (yday c.date : ℝ) ≤ 181 := by exact_mod_cast hy2
  have hs := year_angle t1 t2 (n := yday c.date - 81) (by linarith) (by linarith)
  have hle : -0.8662 * p * (TL_default : ℚ) * (23.45 * sin (2 * π / t * (yday c.date - 81))) ≤ -500 := by
    have e1 : ((TL_default : ℚ) : ℝ) = 1 := by norm_num [TL_default]
    rw [e1]
    norm_num at *
    nlinarith
  set x := -0.8662 * p * (TL_default : ℚ) * (23.45 * sin (2 * π / t * (yday c.date - 81))) with hx
  have he1 : exp x ≤ 1 := exp_le_one_iff.2 (by linarith)
  have he : exp x < 2 ^ 1024 := by
    refine lt_of_le_of_lt he1 ?_
    calc (1 : ℝ) < 2 ^ 1 := by norm_num
      _ ≤ 2 ^ 1024 := pow_le_pow_right₀ (by norm_num) (by norm_num)
  have hz : exp x ≤ 1 / 10 ^ 110 := by
    have h10 : (10 : ℝ) ^ 110 ≤ exp 500 := by
      have h1 : (2.7 : ℝ) ≤ exp 1 := by have := exp_one_gt_d9; norm_num at *; linarith
      have h2 : exp (500 : ℝ) = exp 1 ^ 500 := by rw [← exp_nat_mul]; norm_num
      rw [h2]
      calc (10 : ℝ) ^ 110 ≤ (2.7 : ℝ) ^ 256 := by norm_num
        _ ≤ exp 1 ^ 256 := pow_le_pow_left₀ (by norm_num) h1 _
        _ ≤ exp 1 ^ 500 := pow_le_pow_right₀ (le_trans (by norm_num) h1) (by norm_num)
    calc exp x ≤ exp (-500) := exp_le_exp.2 hle
      _ = 1 / exp 500 := by rw [exp_neg, one_div]
      _ ≤ _ := one_div_le_one_div_of_le (by positivity) h10
  refine ⟨1367 * exp x * sin a, ?_, ?_⟩
  · have e0 : (mathB tp).lit elevation_default = (0 : (mathB tp).α) := by
      rw [m_zero, m_lit]
      norm_num [elevation_default]
    simp only [direct_underclear, guard_denotes h.2, ok_bind, C43_constant_partial tp d c h, hd, e0, ha, m_sin]
    simp only [m_sci, m_ofNat, m_neg, m_mul, m_lit]
    rw [show (mathB tp).exp _ = .ok (num (exp x)) from (congrArg (mathB tp).exp (by rw [hx])).trans (m_exp he)]
    simp only [ok_bind, m_mul, pure_eq_ok]
    norm_num
  · rw [abs_mul, abs_of_nonneg (by positivity)]
    calc 1367 * exp x * |sin a| ≤ 1367 * (1 / 10 ^ 110) * 1 := by
          refine mul_le_mul (mul_le_mul_of_nonneg_left hz (by norm_num)) (abs_sin_le_one a) (abs_nonneg _) (by positivity)
      _ ≤ _ := by norm_num

/-- The call of the stub at 15 degrees Celsius and one atmosphere on 18 February 2007. -/
example (tp : ℝ) (lat lon : V) : direct_underclear (mathB tp) lat lon (.dt sampleDT) (num 288.15) (num 101325) = .error .overflow :=
  C131_effect_winter_partial tp sampleDT sampleUTC sample_utc lat lon _ _ (by norm_num) (by norm_num) (by norm_num) (by decide)

end Verif.Props
