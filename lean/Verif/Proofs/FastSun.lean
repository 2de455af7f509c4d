import Verif.Proofs.FastTime

/-!
# The sun's longitude against the day of the year
-/

namespace Verif

open Verif.Spec Verif.Props Pysolar Pysolar.Solar Pysolar.Constants Pysolar.Solartime Real

/-- The longitude table without its constant, linear and largest periodic terms. -/
def lonTail : List (List (ℚ × ℚ × ℚ)) :=
  (heliocentric_longitude_coeffs.head!).tail.tail :: (heliocentric_longitude_coeffs.tail.head!).tail ::
    heliocentric_longitude_coeffs.tail.tail

theorem lon_head2 : heliocentric_longitude_coeffs
    = ((175347046, 0, 0) :: (3341656, 4.6692568, 6283.07585) :: (heliocentric_longitude_coeffs.head!).tail.tail) ::
      ((628331966747, 0, 0) :: (heliocentric_longitude_coeffs.tail.head!).tail) ::
        heliocentric_longitude_coeffs.tail.tail := by
  decide +kernel

theorem lonTail_ampl : ampl 0.101 lonTail ≤ 85770 := by decide +kernel

noncomputable section

/-- Mean longitude of the sun and mean anomaly (plus a quarter turn), in degrees, `t` in millennia. -/
def muD (t : ℝ) : ℝ := deg (1.75347046 + 6283.31966747 * t) + 180
def anoD (t : ℝ) : ℝ := deg (4.6692568 + 6283.07585 * t)
/-- Amplitude of the equation of the centre, in degrees. -/
def ampD : ℝ := deg 0.03341656

end

theorem lon_main (t : ℝ) : vsop t heliocentric_longitude_coeffs
    = 175347046 + 628331966747 * t + 3341656 * cos (4.6692568 + 6283.07585 * t) + vsop t lonTail := by
  conv_lhs => rw [lon_head2]
  unfold lonTail
  rw [vsop_cons, vsop_cons, rowSum_cons, rowSum_cons, rowSum_cons, vsop_cons, vsop_cons]
  simp
  norm_num
  ring

theorem lon_deg {t : ℝ} (h : |t| ≤ 0.101) :
    |deg (vsop t heliocentric_longitude_coeffs / 100000000) + 180 - (muD t + ampD * cos (rad (anoD t)))| ≤ 0.0492 := by
  have h1 : |vsop t lonTail| ≤ 85770 := by
    refine (abs_vsop_le _ _).trans ((vsopBound_le (c := 0.101) (by norm_num at *; exact h) _).trans ?_)
    exact_mod_cast lonTail_ampl
  have e : deg (vsop t heliocentric_longitude_coeffs / 100000000) + 180 - (muD t + ampD * cos (rad (anoD t)))
      = deg (vsop t lonTail / 100000000) := by
    unfold muD ampD anoD
    rw [rad_deg, lon_main]
    unfold deg
    ring
  rw [e]
  unfold deg
  rw [abs_div, abs_mul, abs_div, abs_of_pos pi_pos, abs_of_pos (by norm_num : (0 : ℝ) < 180),
    abs_of_pos (by norm_num : (0 : ℝ) < 100000000), div_le_iff₀ pi_pos]
  have := pi_gt_d4
  norm_num at *
  linarith

theorem muD_close {t : ℝ} (h : |t| ≤ 0.101) : |muD t - (280.466457 + 360007.698278 * t)| ≤ 1e-6 := by
  have h1 := pi_gt_d20
  have h2 := pi_lt_d20
  have hp := pi_pos
  have ht := abs_le.mp h
  have e : muD t - (280.466457 + 360007.698278 * t)
      = ((1.75347046 * 180 - 100.466457 * π) + (6283.31966747 * 180 - 360007.698278 * π) * t) / π := by
    unfold muD deg
    field_simp
    ring
  have b1 : |6283.31966747 * 180 - 360007.698278 * π| ≤ 3e-6 := by
    rw [abs_le]; norm_num at *; constructor <;> linarith
  have b2 : |1.75347046 * 180 - 100.466457 * π| ≤ 1e-6 := by
    rw [abs_le]; norm_num at *; constructor <;> linarith
  rw [e, abs_div, abs_of_pos hp, div_le_iff₀ hp]
  refine (abs_add_le _ _).trans ?_
  rw [abs_mul]
  have : |6283.31966747 * 180 - 360007.698278 * π| * |t| ≤ 3e-6 * 0.101 :=
    mul_le_mul b1 h (abs_nonneg _) (by norm_num)
  norm_num at *
  linarith

theorem anoD_close {t : ℝ} (h : |t| ≤ 0.101) : |anoD t - muD t - (-12.937749 - 13.969712 * t)| ≤ 1e-6 := by
  have h1 := pi_gt_d20
  have h2 := pi_lt_d20
  have hp := pi_pos
  have e : anoD t - muD t - (-12.937749 - 13.969712 * t)
      = (((4.6692568 - 1.75347046) * 180 - 167.062251 * π) + ((6283.07585 - 6283.31966747) * 180 + 13.969712 * π) * t) / π := by
    unfold muD anoD deg
    field_simp
    ring
  have b1 : |(6283.07585 - 6283.31966747) * 180 + 13.969712 * π| ≤ 1e-6 := by
    rw [abs_le]; norm_num at *; constructor <;> linarith
  have b2 : |(4.6692568 - 1.75347046) * 180 - 167.062251 * π| ≤ 1e-6 := by
    rw [abs_le]; norm_num at *; constructor <;> linarith
  rw [e, abs_div, abs_of_pos hp, div_le_iff₀ hp]
  refine (abs_add_le _ _).trans ?_
  rw [abs_mul]
  have : |(6283.07585 - 6283.31966747) * 180 + 13.969712 * π| * |t| ≤ 1e-6 * 0.101 :=
    mul_le_mul b1 h (abs_nonneg _) (by norm_num)
  norm_num at *
  linarith

theorem ampD_bounds : 1.9146 ≤ ampD ∧ ampD ≤ 1.9147 := by
  have h1 := pi_gt_d6
  have h2 := pi_lt_d6
  unfold ampD deg
  rw [le_div_iff₀ pi_pos, div_le_iff₀ pi_pos]
  norm_num at *
  constructor <;> linarith

theorem nutPsi_abs {c : Civil} (h : c.Valid) : |nutPsi (jceOf c)| ≤ 0.00581 := by
  obtain ⟨l, o, e, hl, -⟩ := C23_bounds 0 (jceOf c) (abs_jceOf h)
  rw [nutation_eval] at e
  have e := congrArg Nutation.longitude (Except.ok.inj e)
  have e : nutPsi (jceOf c) = l := num_injective e
  rw [e]
  exact hl

theorem nutEps_abs {c : Civil} (h : c.Valid) : |nutEps (jceOf c)| ≤ 0.00284 := by
  obtain ⟨l, o, e, -, ho⟩ := C23_bounds 0 (jceOf c) (abs_jceOf h)
  rw [nutation_eval] at e
  have e := congrArg Nutation.obliquity (Except.ok.inj e)
  have e : nutEps (jceOf c) = o := num_injective e
  rw [e]
  exact ho

/-- Apparent longitude: mean longitude, equation of the centre and small terms. -/
theorem lam_main {c : Civil} (h : c.Valid) (ht : |jmeOf c| ≤ 0.101) :
    ∃ k : ℤ, |lamOf c - (muD (jmeOf c) + ampD * cos (rad (anoD (jmeOf c)))) - 360 * k| ≤ 0.061 := by
  have h1 := abs_le.mp (lon_deg ht)
  have h2 := abs_le.mp (nutPsi_abs h)
  have hR := sunDist_bounds (abs_jmeOf h)
  obtain ⟨k1, e1⟩ := mod360_eq (deg (vsop (jmeOf c) heliocentric_longitude_coeffs / 100000000))
  obtain ⟨k2, e2⟩ := mod360_eq (helioLon (jmeOf c) + 180)
  have h3 : -0.0059 ≤ -20.4898 / (3600 * sunDist (jmeOf c)) ∧ -20.4898 / (3600 * sunDist (jmeOf c)) ≤ 0 := by
    have hp : 0 < 3600 * sunDist (jmeOf c) := by norm_num at *; linarith
    constructor
    · rw [le_div_iff₀ hp]; norm_num at *; linarith
    · rw [div_le_iff₀ hp]; norm_num
  refine ⟨-k1 - k2, ?_⟩
  unfold lamOf
  rw [e2]
  unfold helioLon
  rw [e1]
  push_cast
  rw [abs_le]
  norm_num at *
  constructor <;> linarith

/-- Everything needed about the time arguments in the years 1901 to 2099: `x` and `b` are the arguments of the fast
declination and of the fast equation of time, in degrees. -/
theorem year_bounds {c : Civil} (h : c.Valid) (h1 : 1901 ≤ c.year) (h2 : c.year ≤ 2099) :
    |jmeOf c| ≤ 0.101 ∧
    (-2.14 ≤ muD (jmeOf c) - 360 * (c.year - 1999) - 360 / 365 * (yday c.date - 81) ∧
      muD (jmeOf c) - 360 * (c.year - 1999) - 360 / 365 * (yday c.date - 81) ≤ 1.38) ∧
    (-2.91 ≤ muD (jmeOf c) - 360 * (c.year - 1999) - 360 / 364 * (yday c.date - 81) ∧
      muD (jmeOf c) - 360 * (c.year - 1999) - 360 / 364 * (yday c.date - 81) ≤ 1.59) ∧
    (-15.71 ≤ anoD (jmeOf c) - 360 * (c.year - 1999) - 360 / 364 * (yday c.date - 81) ∧
      anoD (jmeOf c) - 360 * (c.year - 1999) - 360 / 364 * (yday c.date - 81) ≤ -11.48) := by
  obtain ⟨N, r, f, η, η', hr0, hr3, hN, -, hf0, hf1, -, hη0, hη1, -, hj⟩ := days_of_year h h1 h2
  have hy := yday_bounds h.2.2.1
  have hl : yearLen c.date.year ≤ 366 := by unfold yearLen; split <;> norm_num
  have n1 : (1 : ℝ) ≤ yday c.date := by exact_mod_cast hy.1
  have n2 : (yday c.date : ℝ) ≤ 366 := by exact_mod_cast hy.2.trans hl
  have r0 : (0 : ℝ) ≤ r := by exact_mod_cast hr0
  have r3 : (r : ℝ) ≤ 3 := by exact_mod_cast hr3
  have y1 : (1901 : ℝ) ≤ c.year := by exact_mod_cast h1
  have y2 : (c.year : ℝ) ≤ 2099 := by exact_mod_cast h2
  have hN' : (4 : ℝ) * N = 1461 * (c.year - 2000) + r := by exact_mod_cast hN
  have e : jmeOf c = (N + yday c.date + f - 1.5 + η') / 365250 := by
    rw [← hj]; unfold jmeOf jceOf; ring
  generalize (yday c.date : ℝ) = n at *
  generalize (c.year : ℝ) = Y at *
  generalize (r : ℝ) = r' at *
  generalize (N : ℝ) = N' at *
  have ht : |jmeOf c| ≤ 0.101 := by
    rw [e, abs_le]
    norm_num at *
    constructor
    · rw [le_div_iff₀ (by norm_num)]; linarith
    · rw [div_le_iff₀ (by norm_num)]; linarith
  have m := abs_le.mp (muD_close ht)
  have a := abs_le.mp (anoD_close ht)
  have e' : 365250 * jmeOf c = N' + n + f - 1.5 + η' := by rw [e]; ring
  generalize jmeOf c = t at *
  refine ⟨ht, ?_, ?_, ?_⟩
  · norm_num at *; constructor <;> linarith
  · norm_num at *; constructor <;> linarith
  · norm_num at *; constructor <;> linarith

end Verif
