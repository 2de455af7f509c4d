import Verif.Proofs.FloatRad
import Verif.Props.Float

/-!
# C105, C106: direct radiation in double precision
-/

namespace Verif.Props

open Verif.Spec Verif.Chain Pysolar Pysolar.Radiation Pysolar.Numeric

/-- C105: with the sun at least a millionth of a degree up, `get_radiation_direct` in double precision returns a number
within 1e-11 W/m² of the exact value of its formula. -/
theorem C105_direct_radiation (F : F64) (tp : ℝ) (d : DateTime) (c : Civil) (h : UtcFields d c) (alt : ℝ)
    (h1 : 1 / 10 ^ 6 ≤ alt) (h2 : alt ≤ 90) :
    ∃ r r', get_radiation_direct (mathB tp) (.dt d) (num alt) = .ok (num r) ∧
      get_radiation_direct (rndB F) (.dt d) (flt F alt) = .ok (flt F r') ∧ |r' - r| ≤ 1 / 10 ^ 11 :=
  direct_day F tp h h1 h2

/-- C105: flux and optical depth in double precision. -/
theorem C105_flux_depth (F : F64) (tp : ℝ) (c : Civil) (h : c.Valid) :
    ∃ fl fl' k k', get_apparent_extraterrestrial_flux (mathB tp) (num (yday c.date)) = .ok (num fl) ∧
      get_apparent_extraterrestrial_flux (rndB F) ((rndB F).lit (yday c.date)) = .ok (flt F fl') ∧
      get_optical_depth (mathB tp) (num (yday c.date)) = .ok (num k) ∧
      get_optical_depth (rndB F) ((rndB F).lit (yday c.date)) = .ok (flt F k') ∧
      |fl' - fl| ≤ 54 / 10 ^ 14 ∧ |k' - k| ≤ 3 / 10 ^ 16 := by
  obtain ⟨x, hx, ex⟩ := flux_float F h
  obtain ⟨y, hy, ey⟩ := depth_float F h
  exact ⟨_, x, _, y, flux_eval _, hx, depth_eval _, hy, ex, ey⟩

/-- C105 for binary64 at the sample instant with the sun 30 degrees up. -/
example : ∃ r', get_radiation_direct (rndB binary64) (.dt sampleDT) (flt binary64 30) = .ok (flt binary64 r') := by
  obtain ⟨_, r', _, h, _⟩ := C105_direct_radiation binary64 0 sampleDT sampleUTC sample_utc 30 (by norm_num) (by norm_num)
  exact ⟨r', h⟩

/-! ## C106 -/

theorem sin_small {x y z : ℝ} (hx : y + 1 / 10 ^ 9 ≤ x * 0.0174532) (hz : x * 0.0174533 ≤ z) (hx0 : 0 < x) (hx1 : x ≤ 0.05) :
    y ≤ Real.sin (rad x) ∧ Real.sin (rad x) ≤ z := by
  have hp := Real.pi_gt_d6
  have hp' := Real.pi_lt_d6
  have h1 : x * 0.0174532 ≤ rad x := by unfold rad; norm_num at *; nlinarith
  have h2 : rad x ≤ x * 0.0174533 := by unfold rad; norm_num at *; nlinarith
  have h0 : 0 < rad x := lt_of_lt_of_le (by positivity) h1
  have h3 := Real.sin_gt_sub_cube h0
  have h4 : rad x ≤ 0.001 := by norm_num at *; linarith
  have h5 : (rad x) ^ 3 ≤ 0.001 ^ 3 := pow_le_pow_left₀ h0.le h4 3
  have h6 := Real.sin_le h0.le
  constructor
  · norm_num at *
    linarith
  · linarith

/-- C106 as stated is false: on 10 April 2003 with the sun 0.0141 degrees below the horizon the result is not a number:
flux times attenuation overflows to infinity, which is then multiplied by `False`. -/
theorem C106_refuted (F : F64) : ¬ ∀ (d : DateTime) (c : Civil) (alt : ℝ), UtcFields d c → -90 ≤ alt → alt < 0 →
    ∀ r, get_radiation_direct (rndB F) (.dt d) (flt F alt) = .ok r → r = flt F 0 := by
  intro hall
  have hv : (⟨2003, 4, 10, 12, 0, 0, 0⟩ : Civil).Valid := civil_valid_of_check (by decide)
  have hf := utcDT_fields hv
  have hy : yday (⟨2003, 4, 10, 12, 0, 0, 0⟩ : Civil).date = 100 := by decide
  have hk : depthF (yday (⟨2003, 4, 10, 12, 0, 0, 0⟩ : Civil).date) = 0.174 := by
    rw [hy]
    unfold depthF
    push_cast
    norm_num
  have hs := sin_small (x := 0.0141) (y := 0.000246) (z := 0.0002462) (by norm_num) (by norm_num) (by norm_num) (by norm_num)
  have e : -Real.sin (rad (-0.0141)) = Real.sin (rad 0.0141) := by rw [rad_neg, Real.sin_neg, neg_neg]
  have hpos : 0 < Real.sin (rad 0.0141) := lt_of_lt_of_le (by norm_num) hs.1
  have hn := direct_night_nan F hf (alt := -0.0141) (by norm_num) (by norm_num)
    (by rw [hk, e, le_div_iff₀ hpos]; norm_num at *; linarith)
    (by rw [hk, e, div_le_iff₀ hpos]; norm_num at *; linarith)
    (by rw [e]; norm_num at *; linarith)
  have := hall _ _ (-0.0141) hf (by norm_num) (by norm_num) _ hn
  cases this

/-- C106, the part that holds: more than 0.0171 degrees below the horizon the result is exactly zero. -/
theorem C106_zero_partial (F : F64) (d : DateTime) (c : Civil) (h : UtcFields d c) (alt : ℝ) (h1 : -90 ≤ alt)
    (h2 : alt ≤ -0.0171) : get_radiation_direct (rndB F) (.dt d) (flt F alt) = .ok (flt F 0) := by
  have hs : Real.sin (rad 0.0171) ≤ Real.sin (rad (-alt)) := by
    rcases (show 0.0171 ≤ -alt by linarith).eq_or_lt with h' | h'
    · rw [← h']
    · exact (sin_rad_lt (by norm_num) h' (by linarith)).le
  have hl := (sin_small (x := 0.0171) (y := 0.000298) (z := 0.0003) (by norm_num) (by norm_num) (by norm_num) (by norm_num)).1
  have e : -Real.sin (rad alt) = Real.sin (rad (-alt)) := by rw [rad_neg, Real.sin_neg]
  have hpos : 0 < Real.sin (rad (-alt)) := lt_of_lt_of_le (lt_of_lt_of_le (by norm_num) hl) hs
  have hk := (depthF_bounds (yday c.date)).2
  refine direct_night_zero F h h1 (by norm_num at *; linarith) ?_ ?_
  · rw [e, div_le_iff₀ hpos]
    norm_num at *
    linarith
  · rw [e]
    norm_num at *
    linarith

/-- C106: from 0.011 degrees to a millionth of a degree below the horizon the call raises `OverflowError`. -/
theorem C106_overflow_partial (F : F64) (d : DateTime) (c : Civil) (h : UtcFields d c) (alt : ℝ) (h1 : -0.011 ≤ alt)
    (h2 : alt ≤ -(1 / 10 ^ 6)) : get_radiation_direct (rndB F) (.dt d) (flt F alt) = .error .overflow := by
  have hp := Real.pi_gt_d4
  have hp' := Real.pi_lt_d4
  have hneg : 0 < -alt := by norm_num at *; linarith
  have h0 : 0 < rad (-alt) := by unfold rad; positivity
  have hup : rad (-alt) ≤ 0.0001921 := by unfold rad; norm_num at *; nlinarith
  have hlo : 1.7 / 10 ^ 8 ≤ rad (-alt) := by unfold rad; norm_num at *; nlinarith
  have e : -Real.sin (rad alt) = Real.sin (rad (-alt)) := by rw [rad_neg, Real.sin_neg]
  have hsin1 := Real.sin_le h0.le
  have hsin2 := Real.mul_le_sin h0.le (by norm_num at *; linarith)
  have h4 : (0.63 : ℝ) ≤ 2 / Real.pi := by
    rw [le_div_iff₀ Real.pi_pos]
    norm_num at *
    linarith
  have h5 : 0.63 * rad (-alt) ≤ 2 / Real.pi * rad (-alt) := mul_le_mul_of_nonneg_right h4 h0.le
  have hlo2 : 1 / 10 ^ 8 ≤ Real.sin (rad (-alt)) := by norm_num at *; linarith
  have hpos : 0 < Real.sin (rad (-alt)) := lt_of_lt_of_le (by norm_num) hlo2
  have hk := (depthF_bounds (yday c.date)).1
  refine direct_night_overflow F h (by norm_num at *; linarith) (by linarith) ?_ (by rw [e]; exact hlo2)
  rw [e, le_div_iff₀ hpos]
  norm_num at *
  linarith

/-- C106: in between, whenever the exponent `depth * air mass` is from 703.6 to 709, the result is not a number. -/
theorem C106_nan_partial (F : F64) (tp : ℝ) (d : DateTime) (c : Civil) (h : UtcFields d c) (alt k : ℝ) (h1 : -90 ≤ alt)
    (h2 : alt < 0) (hk : get_optical_depth (mathB tp) (num (yday c.date)) = .ok (num k))
    (hx1 : 703.6 ≤ k / |Real.sin (rad alt)|) (hx2 : k / |Real.sin (rad alt)| ≤ 709) :
    get_radiation_direct (rndB F) (.dt d) (flt F alt) = .ok V.nan := by
  have e : k = depthF (yday c.date) := num_injective (Except.ok.inj (hk.symm.trans (depth_eval _)))
  have hs : Real.sin (rad alt) < 0 := by
    have := sin_rad_lt h1 h2 (by norm_num)
    rwa [rad_zero, Real.sin_zero] at this
  rw [abs_of_neg hs, e] at hx1 hx2
  have hkb := (depthF_bounds (yday c.date)).1
  refine direct_night_nan F h h1 h2.le hx1 hx2 ?_
  rw [div_le_iff₀ (by linarith)] at hx2
  norm_num at *
  linarith

/-- The three regions for binary64. -/
example : get_radiation_direct (rndB binary64) (.dt sampleDT) (flt binary64 (-10)) = .ok (flt binary64 0) ∧
    get_radiation_direct (rndB binary64) (.dt sampleDT) (flt binary64 (-0.005)) = .error .overflow :=
  ⟨C106_zero_partial binary64 _ _ sample_utc (-10) (by norm_num) (by norm_num),
    C106_overflow_partial binary64 _ _ sample_utc (-0.005) (by norm_num) (by norm_num)⟩

end Verif.Props
