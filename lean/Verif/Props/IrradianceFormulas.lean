import Verif.Props.Irradiance

/-!
# C81, C82: formulas and signs of the irradiance functions of util.py
-/

namespace Verif.Props

open Verif.Spec Pysolar Pysolar.Constants Pysolar.Util Pysolar.Numeric Real

variable {tp : ℝ}

/-! ## C81 -/

theorem C81_diffuse_transmittance (tp TL : ℝ) :
    diffuse_transmittance (mathB tp) (num TL) = num (-21.657 + 41.752 * TL + 0.51905 * TL ^ 2) := by
  simp only [diffuse_transmittance, m_sci, m_neg, m_mul, m_add]
  congr 1
  ring

/-- The declination for a year of `TY` days; `TY = 0` raises. -/
theorem C81_declination_degree (tp TY : ℝ) (d : DateTime) (c : Civil) (h : UtcFields d c) :
    declination_degree (mathB tp) (.dt d) (num TY) = if TY = 0 then .error .zeroDivision else
      .ok (num (23.45 * sin (2 * π / TY * (yday c.date - 81)))) := by
  have hy := utcYday_eval (tp := tp) h
  split_ifs with h0
  · subst h0
    simp only [declination_degree, guard_denotes h.2, ok_bind, m_ofNat, m_pi, m_mul, m_div_zero, error_bind]
  · simp only [declination_degree, guard_denotes h.2, ok_bind, m_ofNat, m_pi, m_mul, m_div _ h0, hy, m_sub, m_sin,
      pure_eq_ok, m_lit]
    congr 2

/-- Given the altitude (in degrees) that `get_altitude` returns for the same arguments: the diffuse irradiance under a
clear sky and the global irradiance under an overcast sky are proportional to it. -/
theorem C81_diffuse_overcast (tp : ℝ) (d : DateTime) (c : Civil) (h : UtcFields d c) (lat lon TL elev T P a : ℝ)
    (ha : Solar.get_altitude (mathB tp) (num lat) (num lon) (.dt d) (num elev) (num T) (num P) = .ok (num a)) :
    diffuse_underclear (mathB tp) (num lat) (num lon) (.dt d) (num elev) (num T) (num P) (num TL)
      = .ok (num ((-21.657 + 41.752 * TL + 0.51905 * TL ^ 2) * a)) ∧
    diffuse_underovercast (mathB tp) (num lat) (num lon) (.dt d) (num elev) (num T) (num P) (num TL)
      = .ok (num ((-21.657 + 41.752 * TL + 0.51905 * TL ^ 2) * a)) ∧
    global_irradiance_overcast (mathB tp) (num lat) (num lon) (.dt d) (num elev) (num T) (num P)
      = .ok (num (572 * a)) := by
  have e := diffuse_eval (TL := TL) h ha
  rw [show -21.657 + 41.752 * TL + 0.51905 * TL * TL = -21.657 + 41.752 * TL + 0.51905 * TL ^ 2 by ring] at e
  refine ⟨e, by rw [C67_same_diffuse tp d c h, e], ?_⟩
  simp only [global_irradiance_overcast, guard_denotes h.2, ok_bind, ha, m_ofNat, m_mul, pure_eq_ok]
  norm_num

/-- The direct irradiance under a clear sky, for a year of `TY` days, while the exponential does not overflow. -/
theorem C81_direct (tp : ℝ) (d : DateTime) (c : Civil) (h : UtcFields d c) (lat lon TY AM TL elev T P a : ℝ)
    (ha : Solar.get_altitude (mathB tp) (num lat) (num lon) (.dt d) (num elev) (num T) (num P) = .ok (num a))
    (hTY : TY ≠ 0) (hA : |AM * TL| ≤ 4) :
    direct_underclear (mathB tp) (num lat) (num lon) (.dt d) (num TY) (num AM) (num TL) (num elev) (num T) (num P)
      = .ok (num (1367 * exp (-0.8662 * AM * TL * (23.45 * sin (2 * π / TY * (yday c.date - 81)))) * sin a)) := by
  have hd := C81_declination_degree tp TY d c h
  rw [if_neg hTY] at hd
  have he : exp (-0.8662 * AM * TL * (23.45 * sin (2 * π / TY * (yday c.date - 81)))) < 2 ^ 1024 := by
    apply exp_lt_two_pow
    have hs := abs_sin_le_one (2 * π / TY * (yday c.date - 81))
    have : |AM * TL| * |sin (2 * π / TY * (yday c.date - 81))| ≤ 4 * 1 :=
      mul_le_mul hA hs (abs_nonneg _) (by norm_num)
    rw [← abs_mul, abs_le] at this
    norm_num at this ⊢
    nlinarith
  simp only [direct_underclear, guard_denotes h.2, ok_bind, C43_constant_partial tp d c h, hd, ha, m_sin, m_sci,
    m_ofNat, m_neg, m_mul, m_exp he, pure_eq_ok]
  norm_num

/-! ## C82 -/

/-- On the equator at local midnight the elevation angle is the declination minus 90 degrees. -/
theorem midnight_elevation (tp : ℝ) {c : Civil} (h : c.Valid) :
    teaOf tp 0 (raOf tp c - astOf c + 180) 0 c = -(90 - |decOf c|) := by
  have hd := decOf_bound h
  have hl : lhaOf tp (raOf tp c - astOf c + 180) c = 180 := by
    unfold lhaOf
    rw [show astOf c + (raOf tp c - astOf c + 180) - raOf tp c = 180 by ring]
    exact mod360_of_mem (by norm_num) (by norm_num)
  have ht : tanP tp (rad 0) = 0 := by
    rw [rad_zero, tanP_of_ne (by rw [cos_zero]; exact one_ne_zero), tan_zero]
  have hz : zetaOf tp 0 0 = 0 := by
    unfold zetaOf
    rw [ht, mul_zero, arctan_zero, sin_zero, zero_mul, zero_div, mul_zero, add_zero]
  have hr : rhoOf tp 0 0 = 1 := by
    unfold rhoOf
    rw [ht, mul_zero, arctan_zero, cos_zero, zero_mul, zero_div, add_zero]
  have hcd : 0 ≤ cos (rad (decOf c)) := by
    rw [abs_le] at hd
    apply cos_nonneg_of_neg_pi_div_two_le_of_le
    · rw [← rad_90, ← rad_neg, rad_le_rad]; norm_num at hd; linarith
    · rw [← rad_90, rad_le_rad]; norm_num at hd; linarith
  have hpar : 0 ≤ sin (rad (parOf c)) := by
    have hb := sunDist_bounds (abs_jmeOf h)
    have hp0 := pi_pos
    have hp := pi_lt_d4
    have h0 : 0 < sunDist (jmeOf c) := by linarith [hb.1]
    have e : parOf c = 8.794 / 3600 * sunDist (jmeOf c) := by
      unfold parOf
      field_simp
    have h1 : 0 ≤ rad (parOf c) := by
      rw [e]; unfold rad; positivity
    apply sin_nonneg_of_nonneg_of_le_pi h1
    rw [e]
    unfold rad
    have : 8.794 / 3600 * sunDist (jmeOf c) ≤ 8.794 / 3600 * 1.1 :=
      mul_le_mul_of_nonneg_left (by linarith [hb.2]) (by norm_num)
    rw [div_le_iff₀ (by norm_num)]
    norm_num at this ⊢
    nlinarith
  have hps : psraOf tp 0 (raOf tp c - astOf c + 180) 0 c = 0 := by
    unfold psraOf
    rw [hl, hr, rad_180, sin_pi, cos_pi, mul_zero, neg_zero]
    have : (⟨cos (rad (decOf c)) - 1 * sin (rad (parOf c)) * -1, 0⟩ : ℂ)
        = ((cos (rad (decOf c)) - 1 * sin (rad (parOf c)) * -1 : ℝ) : ℂ) := by
      apply Complex.ext <;> simp only [Complex.ofReal_re, Complex.ofReal_im]
    rw [this, Complex.arg_ofReal_of_nonneg (by linarith), deg_zero]
  have htd : topoDec tp 0 (raOf tp c - astOf c + 180) 0 c = decOf c := by
    unfold topoDec
    rw [hl, hz, hps, rad_zero, cos_zero]
    simp only [zero_mul, sub_zero, mul_one]
    have : (⟨cos (rad (decOf c)), sin (rad (decOf c))⟩ : ℂ)
        = Complex.cos (rad (decOf c) : ℂ) + Complex.sin (rad (decOf c) : ℂ) * Complex.I := by
      apply Complex.ext <;> simp [Complex.cos_ofReal_re, Complex.sin_ofReal_re]
    rw [this, Complex.arg_cos_add_sin_mul_I, deg_rad]
    rw [abs_le] at hd
    constructor
    · rw [← rad_180, ← rad_neg, rad_lt_rad]; norm_num at *; linarith
    · rw [← rad_180, rad_le_rad]; norm_num at *; linarith
  have htH : topoH tp 0 (raOf tp c - astOf c + 180) 0 c = 180 := by
    unfold topoH
    rw [hl, hps, sub_zero]
  unfold teaOf
  rw [htd, htH, ← up_eq]
  simp only [rad_zero, cos_zero, sin_zero, one_mul, zero_mul, zero_add, rad_180, cos_pi, mul_neg, mul_one]
  rw [arcsin_neg, arcsin_cos_rad (by norm_num at *; linarith), deg_neg, deg_rad]

/-- At standard conditions the sun is more than 60 degrees below the horizon there. -/
theorem midnight_standard {tp : ℝ} (htp : tp ≠ 0) {d : DateTime} {c : Civil} (h : UtcFields d c) :
    ∃ a, a ≤ -65 ∧ Solar.get_altitude (mathB tp) (num 0) (num (raOf tp c - astOf c + 180)) (.dt d) (num 0)
      (num standard_temperature) (num standard_pressure) = .ok (num a) := by
  have hd := decOf_bound h.1
  have hd0 := abs_nonneg (decOf c)
  have e := midnight_elevation tp h.1
  set t := teaOf tp 0 (raOf tp c - astOf c + 180) 0 c
  have ht : -90 ≤ t ∧ t ≤ -65.9 := by rw [e]; norm_num at hd ⊢; linarith
  have hs : sin (refrArg t) ≠ 0 := by
    have hq : t + 5.11 < 0 := by norm_num at ht ⊢; linarith
    have hb : -1 ≤ 10.3 / (t + 5.11) ∧ 10.3 / (t + 5.11) < 0 := by
      refine ⟨?_, div_neg_of_pos_of_neg (by norm_num) hq⟩
      rw [le_div_iff_of_neg hq]
      norm_num at ht ⊢
      linarith
    apply ne_of_lt
    unfold refrArg
    apply sin_neg_of_neg_of_neg_pi_lt
    · rw [← rad_zero, rad_lt_rad]; norm_num at ht hb ⊢; linarith
    · rw [← rad_180, ← rad_neg, rad_lt_rad]; norm_num at ht hb ⊢; linarith
  have htan : tanP tp (refrArg t) ≠ 0 := by
    unfold tanP
    split_ifs with hc
    · exact htp
    · rw [tan_eq_sin_div_cos]; exact div_ne_zero hs hc
  refine ⟨t, by norm_num at ht ⊢; linarith, ?_⟩
  rw [altitude_eval h]
  change (do let r ← Solar.get_refraction_correction (mathB tp) _ _ (num t); return num t + r) = _
  rw [refr_eval (by norm_num at ht ⊢; intro h0; linarith) (by norm_num [standard_temperature]) htan,
    if_neg (by norm_num at ht ⊢; linarith)]
  change Except.ok (num _) = _
  rw [add_zero]

/-- C82, what holds: with the sun at altitude `a` the diffuse irradiance (turbidity at least 0.6) and the overcast
irradiance have the sign of `a`. Missing: they are not cut off at zero when the sun is down. -/
theorem C82_sign_partial (tp : ℝ) (d : DateTime) (c : Civil) (h : UtcFields d c) (lat lon TL elev T P a : ℝ)
    (ha : Solar.get_altitude (mathB tp) (num lat) (num lon) (.dt d) (num elev) (num T) (num P) = .ok (num a))
    (hTL : 0.6 ≤ TL) :
    ∃ f g : ℝ,
      diffuse_underclear (mathB tp) (num lat) (num lon) (.dt d) (num elev) (num T) (num P) (num TL) = .ok (num f) ∧
      global_irradiance_overcast (mathB tp) (num lat) (num lon) (.dt d) (num elev) (num T) (num P) = .ok (num g) ∧
      (0 ≤ f ↔ 0 ≤ a) ∧ (0 ≤ g ↔ 0 ≤ a) ∧ (f = 0 ↔ a = 0) ∧ (g = 0 ↔ a = 0) := by
  obtain ⟨e1, -, e2⟩ := C81_diffuse_overcast tp d c h lat lon TL elev T P a ha
  have hk : (0 : ℝ) < -21.657 + 41.752 * TL + 0.51905 * TL ^ 2 := by
    norm_num at hTL ⊢
    nlinarith [sq_nonneg TL]
  refine ⟨_, _, e1, e2, mul_nonneg_iff_of_pos_left hk, by constructor <;> intro <;> linarith, ?_, ?_⟩
  · rw [mul_eq_zero, or_iff_right hk.ne']
  · rw [mul_eq_zero, or_iff_right (by norm_num)]

/-- C82 is false: negative diffuse and overcast irradiances at midnight on the equator, all defaults. -/
theorem C82_refuted (tp : ℝ) (htp : tp ≠ 0) : ∃ lon f g : ℝ,
    diffuse_underclear (mathB tp) (num 0) (num lon) (.dt sampleDT) (num 0) = .ok (num f) ∧ f < 0 ∧
    global_irradiance_overcast (mathB tp) (num 0) (num lon) (.dt sampleDT) (num 0) = .ok (num g) ∧ g < 0 := by
  obtain ⟨a, ha, e⟩ := midnight_standard htp sample_utc
  obtain ⟨e1, -, e2⟩ := C81_diffuse_overcast tp _ _ sample_utc _ _ 1 _ _ _ _ e
  refine ⟨_, (-21.657 + 41.752 * 1 + 0.51905 * 1 ^ 2) * a, _, ?_, ?_, e2, by linarith⟩
  · have ht : (mathB tp).lit TL_default = num 1 := by rw [m_lit]; norm_num [TL_default]
    rw [← ht] at e1
    exact e1
  · norm_num
    linarith

/-- The hypotheses of C81 and C82 are met: noon and midnight on the equator. -/
example (tp : ℝ) (htp : 1 ≤ |tp|) : ∃ a f : ℝ, 60 ≤ a ∧ 0 < f ∧
    diffuse_underclear (mathB tp) (num 0) (num (raOf tp sampleUTC - astOf sampleUTC)) (.dt sampleDT) (num 0)
      (num standard_temperature) (num standard_pressure) (num 2) = .ok (num f) := by
  obtain ⟨a, h60, e⟩ := noon_standard htp sample_utc
  obtain ⟨e1, -, -⟩ := C81_diffuse_overcast tp _ _ sample_utc _ _ 2 _ _ _ _ e
  exact ⟨a, _, h60, by norm_num; linarith, e1⟩

end Verif.Props
