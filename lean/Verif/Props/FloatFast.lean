import Verif.Proofs.FloatFast
import Verif.Props.Float

/-!
# C103, C104: the fast functions in double precision
-/

namespace Verif.Props

open Verif.Spec Verif.Chain Pysolar Pysolar.Solar Pysolar.Numeric

/-- C103: `get_declination`, `get_hour_angle` and `get_altitude_fast` in double precision. The declination is within
1.3e-13 degrees and the hour angle within 8.5e-13 degrees of the exact values. The altitude is within 1.4e-5 degrees,
and within 5e-12 degrees divided by the cosine of the altitude; the only exception is a `ValueError` with the exact
altitude within 1.4e-5 degrees of the zenith or nadir. -/
theorem C103_fast_altitude (F : F64) (tp : ℝ) (d : DateTime) (c : Civil) (h : UtcFields d c) (lat lon : ℝ)
    (hlat : |lat| ≤ 90) (hlon : |lon| ≤ 360) :
    ∃ dec H alt dec' H',
      get_declination (mathB tp) (num (yday c.date)) = .ok (num dec) ∧
      get_hour_angle (mathB tp) (.dt d) (num lon) = .ok (num H) ∧
      get_altitude_fast (mathB tp) (num lat) (num lon) (.dt d) = .ok (num alt) ∧
      get_declination (rndB F) ((rndB F).lit (yday c.date)) = .ok (flt F dec') ∧
      get_hour_angle (rndB F) (.dt d) (flt F lon) = .ok (flt F H') ∧
      |dec' - dec| ≤ 13 / 10 ^ 14 ∧ |H' - H| ≤ 85 / 10 ^ 14 ∧
      ((∃ alt', get_altitude_fast (rndB F) (flt F lat) (flt F lon) (.dt d) = .ok (flt F alt') ∧
          |alt' - alt| ≤ 14 / 10 ^ 6 ∧ Real.cos (rad alt) * |alt' - alt| ≤ 5 / 10 ^ 12) ∨
        (get_altitude_fast (rndB F) (flt F lat) (flt F lon) (.dt d) = .error .valueError ∧
          90 - 14 / 10 ^ 6 ≤ |alt|)) := by
  obtain ⟨x, hx, _, _, ex, -, -, rx⟩ := decF_rel F 0 h.1
  obtain ⟨y, hy, _, _, ey, -, -, ry⟩ := haF_rel F 0 h hlon
  cases ex
  cases ey
  push_cast at rx ry
  exact ⟨_, _, _, x, y, decl_eval _, ha_eval h lon, altF_eval h lat lon, hx, hy, rx, ry, altF_float F h hlat hlon⟩

/-- C103 for binary64 at the sample instant in Massachusetts. -/
example : ∃ H', get_hour_angle (rndB binary64) (.dt sampleDT) (flt binary64 (-71.1)) = .ok (flt binary64 H') := by
  obtain ⟨_, _, _, _, H', _, _, _, _, h, _⟩ := C103_fast_altitude binary64 0 sampleDT sampleUTC sample_utc
    42.2 (-71.1) (by rw [abs_of_pos] <;> norm_num) (by rw [abs_of_neg] <;> norm_num)
  exact ⟨H', h⟩

/-- C104: `get_azimuth_fast` in double precision, not closer than 0.1 degrees to a pole and with the sun not closer than
0.06 degrees to the zenith or nadir: the azimuth is within 3e-5 degrees divided by the cosine of the altitude of the
exact azimuth, up to turns. The only exception is a `ValueError`, with the exact azimuth that close to due east or
west. -/
theorem C104_fast_azimuth (F : F64) (tp : ℝ) (d : DateTime) (c : Civil) (h : UtcFields d c) (lat lon : ℝ)
    (hlat : |lat| ≤ 89.9) (hlon : |lon| ≤ 360) (alt : ℝ)
    (halt : get_altitude_fast (mathB tp) (num lat) (num lon) (.dt d) = .ok (num alt))
    (hcos : 1 / 1000 ≤ Real.cos (rad alt)) :
    ∃ az, get_azimuth_fast (mathB tp) (num lat) (num lon) (.dt d) = .ok (num az) ∧
      ((∃ az', get_azimuth_fast (rndB F) (flt F lat) (flt F lon) (.dt d) = .ok (flt F az') ∧
          ∃ k : ℤ, Real.cos (rad alt) * |az' - az - 360 * k| ≤ 3 / 10 ^ 5) ∨
        (get_azimuth_fast (rndB F) (flt F lat) (flt F lon) (.dt d) = .error .valueError ∧
          ∃ k : ℤ, Real.cos (rad alt) * |az - 90 - 180 * k| ≤ 3 / 10 ^ 5)) := by
  have e : alt = altF lat lon c := num_injective (Except.ok.inj (halt.symm.trans (altF_eval h lat lon)))
  subst e
  exact aziF_float F h hlat hlon rfl hcos tp

/-- Outside the tropics the sun is never that close to the zenith or nadir. -/
theorem C104_outside_tropics (tp : ℝ) (d : DateTime) (c : Civil) (h : UtcFields d c) (lat lon : ℝ)
    (h1 : 24 ≤ |lat|) (h2 : |lat| ≤ 90) :
    ∃ alt, get_altitude_fast (mathB tp) (num lat) (num lon) (.dt d) = .ok (num alt) ∧
      1 / 1000 ≤ Real.cos (rad alt) := by
  refine ⟨_, altF_eval h lat lon, ?_⟩
  set dec := decF (yday c.date) with hdec
  set H := haF lon c with hH
  have hu := sunENU_unit lat H dec
  have hz := unit_z hu
  have hd := decF_abs (yday c.date)
  rw [← hdec] at hd
  have hae : altF lat lon c = deg (Real.arcsin (sunENU lat H dec).z) := rfl
  rw [hae, rad_deg, Real.cos_arcsin]
  refine Real.le_sqrt_of_sq_le ?_
  have hzz : (sunENU lat H dec).z = Real.cos (rad lat) * Real.cos (rad dec) * Real.cos (rad H)
      + Real.sin (rad lat) * Real.sin (rad dec) := by
    simp [sunENU, toHorizon, sph]
    ring
  have hl := abs_le.1 h2
  have hd' := abs_le.1 hd
  have hcl : 0 ≤ Real.cos (rad lat) := cos_rad_nonneg hl.1 hl.2
  have hcd : 0 ≤ Real.cos (rad dec) := cos_rad_nonneg (by linarith) (by linarith)
  -- the two culminations bound the height
  have hbound : |(sunENU lat H dec).z| ≤ Real.cos (rad 0.55) := by
    have hp := mul_nonneg hcl hcd
    have hc1 := mul_le_mul_of_nonneg_left (Real.cos_le_one (rad H)) hp
    have hc2 := mul_le_mul_of_nonneg_left (Real.neg_one_le_cos (rad H)) hp
    have e1 : Real.cos (rad (lat - dec)) = Real.cos (rad lat) * Real.cos (rad dec) + Real.sin (rad lat) * Real.sin (rad dec) := by
      rw [rad_sub, Real.cos_sub]
    have e2 : Real.cos (rad (lat + dec)) = Real.cos (rad lat) * Real.cos (rad dec) - Real.sin (rad lat) * Real.sin (rad dec) := by
      rw [rad_add, Real.cos_add]
    have g1 : Real.cos (rad (lat - dec)) ≤ Real.cos (rad 0.55) := by
      have := abs_sub_abs_le_abs_sub lat dec
      have hle : |lat - dec| ≤ 180 := by
        rw [abs_le]; constructor <;> linarith
      have := (cos_rad_le_iff (x := 0.55) (y := |lat - dec|) (by norm_num) (abs_nonneg _) hle).2
        (by norm_num at *; linarith)
      rcases abs_choice (lat - dec) with hh | hh
      · rw [hh] at this; simpa using this
      · rw [hh, rad_neg, Real.cos_neg] at this; simpa using this
    have g2 : Real.cos (rad (lat + dec)) ≤ Real.cos (rad 0.55) := by
      have := abs_sub_abs_le_abs_sub lat (-dec)
      rw [abs_neg, sub_neg_eq_add] at this
      have hle : |lat + dec| ≤ 180 := by
        rw [abs_le]; constructor <;> linarith
      have := (cos_rad_le_iff (x := 0.55) (y := |lat + dec|) (by norm_num) (abs_nonneg _) hle).2
        (by norm_num at *; linarith)
      rcases abs_choice (lat + dec) with hh | hh
      · rw [hh] at this; simpa using this
      · rw [hh, rad_neg, Real.cos_neg] at this; simpa using this
    rw [abs_le, hzz]
    constructor <;> linarith
  have hsq : (sunENU lat H dec).z ^ 2 ≤ Real.cos (rad 0.55) ^ 2 := by
    rw [← sq_abs]
    exact pow_le_pow_left₀ (abs_nonneg _) hbound 2
  have hsin : 1 / 1000 ≤ Real.sin (rad 0.55) := by
    have hr : (0.009 : ℝ) ≤ rad 0.55 ∧ rad 0.55 ≤ 0.01 := by
      have := Real.pi_gt_d4
      have := Real.pi_lt_d4
      unfold rad
      norm_num at *
      constructor <;> linarith
    have := Real.mul_le_sin (x := rad 0.55) (by linarith [hr.1]) (by linarith [hr.2, Real.pi_gt_three])
    have h4 : (1 : ℝ) / 2 ≤ 2 / Real.pi := by
      rw [div_le_div_iff₀ (by norm_num) Real.pi_pos]
      linarith [Real.pi_le_four]
    have h5 := mul_le_mul h4 hr.1 (by norm_num) (by positivity)
    norm_num at *
    linarith
  have := pow_le_pow_left₀ (by norm_num) hsin 2
  have := Real.sin_sq_add_cos_sq (rad 0.55)
  linarith

/-- C104 for binary64 at the sample instant in Massachusetts. -/
example : ∃ az, get_azimuth_fast (mathB 0) (num 42.2) (num (-71.1)) (.dt sampleDT) = .ok (num az) ∧
    ((∃ az', get_azimuth_fast (rndB binary64) (flt binary64 42.2) (flt binary64 (-71.1)) (.dt sampleDT)
        = .ok (flt binary64 az')) ∨
      get_azimuth_fast (rndB binary64) (flt binary64 42.2) (flt binary64 (-71.1)) (.dt sampleDT) = .error .valueError) := by
  obtain ⟨alt, halt, hc⟩ := C104_outside_tropics 0 sampleDT sampleUTC sample_utc 42.2 (-71.1)
    (by rw [abs_of_pos] <;> norm_num) (by rw [abs_of_pos] <;> norm_num)
  obtain ⟨az, h, h'⟩ := C104_fast_azimuth binary64 0 sampleDT sampleUTC sample_utc 42.2 (-71.1)
    (by rw [abs_of_pos] <;> norm_num) (by rw [abs_of_neg] <;> norm_num) alt halt hc
  exact ⟨az, h, h'.imp (fun ⟨az', g, _⟩ => ⟨az', g⟩) (fun g => g.1)⟩

end Verif.Props
