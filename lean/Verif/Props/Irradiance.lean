import Verif.Props.Refraction
import Verif.Props.Radiation
import Verif.Props.Sky

/-!
# C43, C44, C67-C70: the irradiance functions of util.py, and angle-unit slips
-/

namespace Verif.Props

open Verif.Spec Pysolar Pysolar.Util Pysolar.Constants Pysolar.Numeric Real

variable {tp : ℝ}

/-! ## C43 -/

theorem utcYday_eval {d : DateTime} {c : Civil} (h : UtcFields d c) :
    utcYday (B := mathB tp) (.dt d) = .ok (num (yday c.date)) := by
  simp [utcYday, utctimetuple_dt, utctimetuple_of_utcFields h]

/-- C43, what holds: the function returns exactly 1 for every aware datetime (the factor 1/365 is outside the
sine, whose argument is then a multiple of 2 pi).  Missing: any annual variation. -/
theorem C43_constant_partial (tp : ℝ) (d : DateTime) (c : Civil) (h : UtcFields d c) :
    mean_earth_sun_distance (mathB tp) (.dt d) = .ok (num 1) := by
  have hs : sin (2 * π * ((yday c.date : ℝ) - 94)) = 0 := by
    have := sin_int_mul_pi (2 * (yday c.date - 94))
    rw [← this]
    congr 1
    push_cast
    ring
  simp only [mean_earth_sun_distance, guard_denotes h.2, utcYday_eval h, ok_bind, m_ofNat, m_sci, m_pi, m_mul,
    m_sub, Nat.cast_ofNat, m_sin, hs, pure_eq_ok, m_divq]
  simp

/-- C43 is false: 18 February 2007, the 49th day of the year, is a witness. -/
theorem C43_refuted (tp : ℝ) : ¬ ∀ (d : DateTime) (c : Civil), UtcFields d c →
    mean_earth_sun_distance (mathB tp) (.dt d)
      = .ok (num (1 - 0.0335 * sin (2 * π * ((yday c.date : ℝ) - 94) / 365))) := by
  intro hall
  have h := hall sampleDT sampleUTC sample_utc
  rw [C43_constant_partial tp _ _ sample_utc] at h
  have h := num_injective (Except.ok.inj h)
  have hs : sin (2 * π * ((yday sampleUTC.date : ℝ) - 94) / 365) = 0 := by
    norm_num at h
    linarith
  rw [sin_eq_zero_iff] at hs
  obtain ⟨k, hk⟩ := hs
  have e : (k : ℝ) * 365 = 2 * ((yday sampleUTC.date : ℝ) - 94) := by
    have := pi_pos.ne'
    field_simp at hk
    linarith
  have e' : k * 365 = 2 * (yday sampleUTC.date - 94) := by exact_mod_cast e
  have hy : yday sampleUTC.date = 49 := by decide
  omega

/-! ## A place with the sun high in the sky -/

theorem arcsin_cos_rad {x : ℝ} (h : |x| ≤ 180) : arcsin (cos (rad x)) = rad (90 - |x|) := by
  have hcosabs : cos (rad x) = cos (rad |x|) := by
    rcases abs_choice x with h | h <;> rw [h]
    rw [rad_neg, cos_neg]
  rw [hcosabs, ← sin_pi_div_two_sub, ← rad_90, ← rad_sub, arcsin_sin]
  · rw [← rad_90, ← rad_neg, rad_le_rad]; linarith
  · rw [← rad_90, rad_le_rad]; linarith [abs_nonneg x]

/-- On the equator at local noon the elevation angle is 90 degrees minus the declination. -/
theorem noon_elevation (tp : ℝ) {c : Civil} (h : c.Valid) :
    teaOf tp 0 (raOf tp c - astOf c) 0 c = 90 - |decOf c| := by
  have hd := decOf_bound h
  have hl : lhaOf tp (raOf tp c - astOf c) c = 0 := by
    unfold lhaOf
    rw [show astOf c + (raOf tp c - astOf c) - raOf tp c = 0 by ring]
    exact mod360_of_mem le_rfl (by norm_num)
  have ht : tanP tp (rad 0) = 0 := by
    rw [rad_zero, tanP_of_ne (by rw [cos_zero]; exact one_ne_zero), tan_zero]
  have hz : zetaOf tp 0 0 = 0 := by
    unfold zetaOf
    rw [ht, mul_zero, arctan_zero, sin_zero, zero_mul, zero_div, mul_zero, add_zero]
  have hr : rhoOf tp 0 0 = 1 := by
    unfold rhoOf
    rw [ht, mul_zero, arctan_zero, cos_zero, zero_mul, zero_div, add_zero]
  have hcd : 0.9 < cos (rad (decOf c)) := by
    have := one_sub_sq_div_two_le_cos (x := rad (decOf c))
    have hr : |rad (decOf c)| ≤ 0.43 := by
      have hp := pi_lt_d4
      have hp0 := pi_pos
      unfold rad
      rw [abs_div, abs_mul, abs_of_pos hp0, abs_of_pos (by norm_num : (0 : ℝ) < 180), div_le_iff₀ (by norm_num)]
      have h1 : |decOf c| * π ≤ 24.1 * 3.1416 := mul_le_mul hd (by norm_num at *; linarith) hp0.le (by norm_num)
      norm_num at *
      linarith
    have h2 : rad (decOf c) ^ 2 ≤ 0.43 ^ 2 := sq_le_sq' (abs_le.mp hr).1 (abs_le.mp hr).2
    norm_num at *
    linarith
  have hpar : sin (rad (parOf c)) < 0.5 := by
    have hb := sunDist_bounds (abs_jmeOf h)
    have hp0 := pi_pos
    have hp := pi_lt_d4
    have h0 : 0 < sunDist (jmeOf c) := by linarith [hb.1]
    have e : parOf c = 8.794 / 3600 * sunDist (jmeOf c) := by
      unfold parOf
      field_simp
    have h1 : 0 ≤ rad (parOf c) := by
      rw [e]; unfold rad; positivity
    refine (sin_le h1).trans_lt ?_
    rw [e]
    unfold rad
    have : 8.794 / 3600 * sunDist (jmeOf c) * π ≤ 8.794 / 3600 * 1.1 * 3.1416 := by
      apply mul_le_mul _ (by norm_num at *; linarith) hp0.le (by norm_num)
      apply mul_le_mul_of_nonneg_left _ (by norm_num)
      linarith [hb.2]
    norm_num at *
    linarith
  have hps : psraOf tp 0 (raOf tp c - astOf c) 0 c = 0 := by
    unfold psraOf
    rw [hl, hr, rad_zero, sin_zero, cos_zero, mul_zero, neg_zero]
    have : (⟨cos (rad (decOf c)) - 1 * sin (rad (parOf c)) * 1, 0⟩ : ℂ)
        = ((cos (rad (decOf c)) - 1 * sin (rad (parOf c)) * 1 : ℝ) : ℂ) := by
      apply Complex.ext <;> simp only [Complex.ofReal_re, Complex.ofReal_im]
    rw [this, Complex.arg_ofReal_of_nonneg, deg_zero]
    norm_num at *
    linarith
  have htd : topoDec tp 0 (raOf tp c - astOf c) 0 c = decOf c := by
    unfold topoDec
    rw [hl, hz, hps, rad_zero, cos_zero]
    simp only [zero_mul, sub_zero, mul_one]
    have : (⟨cos (rad (decOf c)), sin (rad (decOf c))⟩ : ℂ)
        = Complex.cos (rad (decOf c) : ℂ) + Complex.sin (rad (decOf c) : ℂ) * Complex.I := by
      apply Complex.ext <;> simp [Complex.cos_ofReal_re, Complex.sin_ofReal_re]
    rw [this, Complex.arg_cos_add_sin_mul_I, deg_rad]
    rw [abs_le] at hd
    constructor
    · rw [← rad_180, ← rad_neg, rad_lt_rad]; norm_num at *; linarith
    · rw [← rad_180, rad_le_rad]; norm_num at *; linarith
  have htH : topoH tp 0 (raOf tp c - astOf c) 0 c = 0 := by
    unfold topoH
    rw [hl, hps, sub_zero]
  unfold teaOf
  rw [htd, htH, ← up_eq]
  simp only [rad_zero, cos_zero, sin_zero, one_mul, mul_one, zero_mul, zero_add]
  rw [arcsin_cos_rad (by norm_num at *; linarith), deg_rad]

theorem noon_ge (tp : ℝ) {c : Civil} (h : c.Valid) :
    65.9 ≤ teaOf tp 0 (raOf tp c - astOf c) 0 c ∧ teaOf tp 0 (raOf tp c - astOf c) 0 c ≤ 90 := by
  have hd := decOf_bound h
  rw [noon_elevation tp h]
  have h0 := abs_nonneg (decOf c)
  refine ⟨?_, by linarith⟩
  norm_num at hd ⊢
  linarith

/-- Size of the refraction formula above the horizon. -/
theorem refr_abs_le {tp tea : ℝ} (htp : 1 ≤ |tp|) (h1 : -0.83337 ≤ tea) (h2 : tea ≤ 90) :
    0.02748 ≤ |tanP tp (refrArg tea)| := by
  have hs := sin_bennett h1 h2
  have hs0 : 0 < sin (refrArg tea) := lt_trans (by norm_num) hs
  unfold tanP
  split_ifs with hc
  · norm_num at *; linarith
  · rw [tan_eq_sin_div_cos, abs_div, abs_of_pos hs0, le_div_iff₀ (abs_pos.mpr hc)]
    have := abs_cos_le_one (refrArg tea)
    norm_num at *
    linarith

theorem noon_altitude {tp : ℝ} (htp : 1 ≤ |tp|) {d : DateTime} {c : Civil} (h : UtcFields d c) (T : ℝ)
    (hT : T ≠ 0) :
    ∃ tea k, 65.9 ≤ tea ∧ tea ≤ 90 ∧ k ≠ 0 ∧ |k| ≤ 0.0018 / |T| ∧ ∀ P,
      Solar.get_altitude (mathB tp) (num 0) (num (raOf tp c - astOf c)) (.dt d) (num 0) (num T) (num P)
        = .ok (num (tea + P * k)) := by
  obtain ⟨n1, n2⟩ := noon_ge tp h.1
  have hr := refr_abs_le htp (show -0.83337 ≤ teaOf tp 0 (raOf tp c - astOf c) 0 c by norm_num at *; linarith) n2
  have htan : tanP tp (refrArg (teaOf tp 0 (raOf tp c - astOf c) 0 c)) ≠ 0 := by
    intro h0
    rw [h0] at hr
    norm_num at hr
  refine ⟨teaOf tp 0 (raOf tp c - astOf c) 0 c,
    2.830 * 1.02 / (1010 * T * 60 * tanP tp (refrArg (teaOf tp 0 (raOf tp c - astOf c) 0 c))), n1, n2, ?_, ?_, ?_⟩
  · exact div_ne_zero (by norm_num) (mul_ne_zero (mul_ne_zero (mul_ne_zero (by norm_num) hT) (by norm_num)) htan)
  · have hT0 : 0 < |T| := abs_pos.mpr hT
    rw [abs_div, abs_mul (1010 * T * 60), abs_mul (1010 * T), abs_mul 1010, div_le_div_iff₀ (by positivity) hT0]
    have hm := mul_le_mul_of_nonneg_left hr hT0.le
    rw [abs_of_pos (by norm_num : (0 : ℝ) < 1010), abs_of_pos (by norm_num : (0 : ℝ) < 60),
      abs_of_pos (by norm_num : (0 : ℝ) < 2.830 * 1.02)]
    norm_num at hm ⊢
    linarith
  · intro P
    rw [altitude_eval h, refr_eval (by norm_num at *; intro h0; linarith) hT htan,
      if_pos (by norm_num at *; linarith)]
    change Except.ok (num _) = _
    congr 2
    ring

/-- At standard conditions the sun is more than 60 degrees high there. -/
theorem noon_standard {tp : ℝ} (htp : 1 ≤ |tp|) {d : DateTime} {c : Civil} (h : UtcFields d c) :
    ∃ a, 60 ≤ a ∧ Solar.get_altitude (mathB tp) (num 0) (num (raOf tp c - astOf c)) (.dt d) (num 0)
      (num standard_temperature) (num standard_pressure) = .ok (num a) := by
  obtain ⟨tea, k, h1, -, -, hk, ha⟩ := noon_altitude htp h (standard_temperature : ℝ)
    (by norm_num [standard_temperature])
  refine ⟨_, ?_, ha _⟩
  rw [abs_of_pos (by norm_num [standard_temperature] : (0 : ℝ) < standard_temperature), abs_le] at hk
  norm_num [standard_temperature, standard_pressure] at *
  linarith

/-! ## Evaluation of the irradiance functions -/

theorem declination_degree_eval {d : DateTime} {c : Civil} (h : UtcFields d c) :
    declination_degree (mathB tp) (.dt d) (num (TY_default : ℚ)) = .ok (num (decF (yday c.date))) := by
  have := C35_declination_degree tp d c h
  rw [decl_eval] at this
  exact this

theorem underclear_eval {d : DateTime} {c : Civil} (h : UtcFields d c) {lat lon AM TL elev T P a : ℝ}
    (ha : Solar.get_altitude (mathB tp) (num lat) (num lon) (.dt d) (num elev) (num T) (num P) = .ok (num a))
    (he : exp (-0.8662 * AM * TL * decF (yday c.date)) < 2 ^ 1024) :
    direct_underclear (mathB tp) (num lat) (num lon) (.dt d) (num (TY_default : ℚ)) (num AM) (num TL) (num elev)
      (num T) (num P) = .ok (num (1367 * exp (-0.8662 * AM * TL * decF (yday c.date)) * sin a)) := by
  simp only [direct_underclear, guard_denotes h.2, ok_bind, C43_constant_partial tp d c h,
    declination_degree_eval h, ha, m_sin, m_sci, m_ofNat, m_neg, m_mul, m_exp he, pure_eq_ok]
  norm_num

theorem diffuse_eval {d : DateTime} {c : Civil} (h : UtcFields d c) {lat lon TL elev T P a : ℝ}
    (ha : Solar.get_altitude (mathB tp) (num lat) (num lon) (.dt d) (num elev) (num T) (num P) = .ok (num a)) :
    diffuse_underclear (mathB tp) (num lat) (num lon) (.dt d) (num elev) (num T) (num P) (num TL)
      = .ok (num ((-21.657 + 41.752 * TL + 0.51905 * TL * TL) * a)) := by
  simp only [diffuse_underclear, guard_denotes h.2, ok_bind, C43_constant_partial tp d c h, ha, m_sci,
    m_neg, m_mul, m_add, pure_eq_ok]
  norm_num

/-! ## C44 -/

/-- C44, what holds (for every backend): the caller's `TY`, `AM`, `TL` and `elevation` reach the direct part,
`elevation` reaches the diffuse part.  Missing: the caller's temperature and pressure, which are replaced by
the standard values, and the turbidity of the diffuse part, which is the default. -/
theorem C44_value_partial (B : Backend) (lat lon : B.α) (d : DateTime) (t : ℤ) (h : Denotes d t)
    (TY AM TL elev T P : B.α) :
    global_irradiance_clear B lat lon (.dt d) TY AM TL elev T P = (do
      let DIRC ← direct_underclear B lat lon (.dt d) TY AM TL elev (B.lit standard_temperature)
        (B.lit standard_pressure)
      let DIFFC ← diffuse_underclear B lat lon (.dt d) elev (B.lit standard_temperature)
        (B.lit standard_pressure) (B.lit TL_default)
      return DIRC + DIFFC) := by
  rw [global_irradiance_clear, guard_denotes h]
  rfl

/-- C44 with the default atmosphere. -/
theorem C44_default_partial (B : Backend) (lat lon : B.α) (d : DateTime) (t : ℤ) (h : Denotes d t)
    (TY AM elev : B.α) :
    global_irradiance_clear B lat lon (.dt d) TY AM (B.lit TL_default) elev = (do
      let DIRC ← direct_underclear B lat lon (.dt d) TY AM (B.lit TL_default) elev
      let DIFFC ← diffuse_underclear B lat lon (.dt d) elev (TL := B.lit TL_default)
      return DIRC + DIFFC) :=
  C44_value_partial B lat lon d t h TY AM (B.lit TL_default) elev _ _

/-- What C44 claims. -/
def C44Claim (tp : ℝ) : Prop := ∀ (d : DateTime) (c : Civil), UtcFields d c →
  ∀ lat lon TY AM TL elev T P : ℝ,
    global_irradiance_clear (mathB tp) (num lat) (num lon) (.dt d) (num TY) (num AM) (num TL) (num elev) (num T)
        (num P) = (do
      let DIRC ← direct_underclear (mathB tp) (num lat) (num lon) (.dt d) (num TY) (num AM) (num TL) (num elev)
        (num T) (num P)
      let DIFFC ← diffuse_underclear (mathB tp) (num lat) (num lon) (.dt d) (num elev) (num T) (num P) (num TL)
      return DIRC + DIFFC)

theorem decF_exp {AM TL : ℝ} (h : |AM * TL| ≤ 4) (n : ℝ) : exp (-0.8662 * AM * TL * decF n) < 2 ^ 1024 := by
  apply exp_lt_two_pow
  have hd := decF_abs n
  have : |AM * TL| * |decF n| ≤ 4 * 23.45 := mul_le_mul h hd (abs_nonneg _) (by norm_num)
  rw [← abs_mul, abs_le] at this
  norm_num at *
  nlinarith

/-- C44 is false: on the equator at local noon, turbidity 2 and everything else at its default. -/
theorem C44_refuted (tp : ℝ) (htp : 1 ≤ |tp|) : ¬ C44Claim tp := by
  intro hall
  obtain ⟨a, ha60, ha⟩ := noon_standard htp sample_utc
  have h := hall sampleDT sampleUTC sample_utc 0 (raOf tp sampleUTC - astOf sampleUTC) (TY_default : ℚ)
    (AM_default : ℚ) 2 0 standard_temperature standard_pressure
  rw [C44_value_partial _ _ _ _ _ sample_utc.2] at h
  simp only [m_lit] at h
  rw [underclear_eval sample_utc ha (decF_exp (by norm_num [AM_default]) _), diffuse_eval sample_utc ha,
    diffuse_eval sample_utc ha] at h
  have h := num_injective (Except.ok.inj h)
  norm_num [TL_default] at h
  linarith

/-! ## C67 -/

/-- C67: the clear-sky and overcast diffuse irradiances are the same number. -/
theorem C67_same_diffuse (tp : ℝ) (d : DateTime) (c : Civil) (h : UtcFields d c)
    (lat lon elev T P TL : (mathB tp).α) :
    diffuse_underovercast (mathB tp) lat lon (.dt d) elev T P TL
      = diffuse_underclear (mathB tp) lat lon (.dt d) elev T P TL := by
  simp only [diffuse_underovercast, diffuse_underclear, guard_denotes h.2, ok_bind,
    C43_constant_partial tp d c h]

/-! ## C68, C69 -/

/-- Some pressure gives any desired altitude at noon on the equator. -/
theorem noon_any {tp : ℝ} (htp : 1 ≤ |tp|) {d : DateTime} {c : Civil} (h : UtcFields d c) (a : ℝ) :
    ∃ P, Solar.get_altitude (mathB tp) (num 0) (num (raOf tp c - astOf c)) (.dt d) (num 0)
      (num standard_temperature) (num P) = .ok (num a) := by
  obtain ⟨tea, k, -, -, hk, -, ha⟩ := noon_altitude htp h (standard_temperature : ℝ)
    (by norm_num [standard_temperature])
  refine ⟨(a - tea) / k, ?_⟩
  rw [ha, div_mul_cancel₀ _ hk, add_sub_cancel]

/-- 43 pi / 2 = 67.5...: a positive altitude in degrees whose value, read as radians, has sine -1. -/
theorem sin_weird : sin (43 * π / 2) = -1 ∧ 0 < 43 * π / 2 ∧ 43 * π / 2 < 90 := by
  have h1 := pi_gt_d4
  have h2 := pi_lt_d4
  refine ⟨?_, by positivity, by norm_num at *; linarith⟩
  rw [show 43 * π / 2 = -(π / 2) + (11 : ℤ) * (2 * π) by push_cast; ring, sin_add_int_mul_two_pi, sin_neg,
    sin_pi_div_two]

/-- C68, what holds: the value, with the altitude in degrees passed to the sine as if it were in radians.
Missing: the sine of the altitude angle, hence a non-negative value while the sun is up. -/
theorem C68_value_partial (tp : ℝ) (d : DateTime) (c : Civil) (h : UtcFields d c) (lat lon AM TL elev T P a : ℝ)
    (ha : Solar.get_altitude (mathB tp) (num lat) (num lon) (.dt d) (num elev) (num T) (num P) = .ok (num a))
    (hAM : |AM * TL| ≤ 4) :
    ∃ dec, declination_degree (mathB tp) (.dt d) = .ok (num dec) ∧
      direct_underclear (mathB tp) (num lat) (num lon) (.dt d) (num (TY_default : ℚ)) (num AM) (num TL) (num elev)
        (num T) (num P) = .ok (num (1367 * exp (-0.8662 * AM * TL * dec) * sin a)) :=
  ⟨_, declination_degree_eval h, underclear_eval h ha (decF_exp hAM _)⟩

/-- C68 is false: a negative clear-sky direct irradiance with the sun 67.5 degrees high. -/
theorem C68_refuted (tp : ℝ) (htp : 1 ≤ |tp|) : ¬ ∀ (d : DateTime) (c : Civil), UtcFields d c →
    ∀ lat lon T P a r : ℝ,
      Solar.get_altitude (mathB tp) (num lat) (num lon) (.dt d) (num 0) (num T) (num P) = .ok (num a) →
      0 ≤ a → a ≤ 90 →
      direct_underclear (mathB tp) (num lat) (num lon) (.dt d) (num (TY_default : ℚ)) (num (AM_default : ℚ))
        (num (TL_default : ℚ)) (num 0) (num T) (num P) = .ok (num r) → 0 ≤ r := by
  intro hall
  obtain ⟨P, hP⟩ := noon_any htp sample_utc (43 * π / 2)
  obtain ⟨hs, h0, h90⟩ := sin_weird
  obtain ⟨dec, -, hv⟩ := C68_value_partial tp _ _ sample_utc _ _ (AM_default : ℚ) (TL_default : ℚ) _ _ _ _ hP
    (by norm_num [AM_default, TL_default])
  have := hall _ _ sample_utc _ _ _ _ _ _ hP h0.le h90.le hv
  rw [hs] at this
  have he := exp_pos (-0.8662 * ((AM_default : ℚ) : ℝ) * ((TL_default : ℚ) : ℝ) * dec)
  linarith

/-- C69, what holds: the values, with the altitude in degrees passed to sine and cosine as if in radians.
Missing: the sine of the altitude angle. -/
theorem C69_value_partial (tp : ℝ) (d : DateTime) (c : Civil) (h : UtcFields d c) (lat lon elev T P a : ℝ)
    (ha : Solar.get_altitude (mathB tp) (num lat) (num lon) (.dt d) (num elev) (num T) (num P) = .ok (num a)) :
    solarelevation_function_clear (mathB tp) (num lat) (num lon) (.dt d) (num T) (num P) (num elev)
      = .ok (num (0.038175 + 1.5458 * sin a - 0.59980 * sin a ^ 2)) ∧
    solarelevation_function_overcast (mathB tp) (num lat) (num lon) (.dt d) (num elev) (num T) (num P)
      = .ok (num (-0.0067133 + 0.78600 * sin a + 0.22401 * sin a ^ 2)) := by
  have e : cos (2 * a) = 1 - 2 * sin a ^ 2 := by
    rw [cos_two_mul, cos_sq']; ring
  constructor
  · simp only [solarelevation_function_clear, guard_denotes h.2, ok_bind, ha, m_sin, m_ofNat, m_sci, m_mul, m_cos,
      m_sub, m_neg, m_add, pure_eq_ok]
    congr 2
    norm_num
    rw [e]
    ring
  · simp only [solarelevation_function_overcast, guard_denotes h.2, ok_bind, ha, m_sin, m_ofNat, m_sci, m_mul,
      m_cos, m_sub, m_neg, m_add, pure_eq_ok]
    congr 2
    norm_num
    rw [e]
    ring

/-- C69 is false. -/
theorem C69_refuted (tp : ℝ) (htp : 1 ≤ |tp|) : ¬ ∀ (d : DateTime) (c : Civil), UtcFields d c →
    ∀ lat lon elev T P a : ℝ,
      Solar.get_altitude (mathB tp) (num lat) (num lon) (.dt d) (num elev) (num T) (num P) = .ok (num a) →
      solarelevation_function_clear (mathB tp) (num lat) (num lon) (.dt d) (num T) (num P) (num elev)
        = .ok (num (0.038175 + 1.5458 * sin (rad a) - 0.59980 * sin (rad a) ^ 2)) := by
  intro hall
  obtain ⟨P, hP⟩ := noon_any htp sample_utc (43 * π / 2)
  obtain ⟨hs, h0, h90⟩ := sin_weird
  have h := hall _ _ sample_utc _ _ _ _ _ _ hP
  rw [(C69_value_partial tp _ _ sample_utc _ _ _ _ _ _ hP).1, hs] at h
  have h := num_injective (Except.ok.inj h)
  have hp := sin_rad_pos' h0 h90.le
  have hle := sin_le_one (rad (43 * π / 2))
  norm_num at h
  nlinarith

/-! ## C70 -/

/-- C70, what holds: mean sidereal time plus the nutation in longitude times the cosine of the number of degrees
of the obliquity read as radians.  Missing: the cosine of the obliquity angle. -/
theorem C70_value_partial (tp jd jme dpsi deps : ℝ) :
    ∃ m e, Solar.get_mean_sidereal_time (mathB tp) (num jd) = num m ∧
      Solar.get_true_ecliptic_obliquity (mathB tp) (num jme) ⟨num dpsi, num deps⟩ = num e ∧
      Solar.get_apparent_sidereal_time (mathB tp) (num jd) (num jme) ⟨num dpsi, num deps⟩
        = .ok (num (m + dpsi * cos e)) :=
  ⟨_, _, mst_eval jd, teo_eval jme dpsi deps, ast_eval jd jme dpsi deps⟩

/-- C70: the error made this way is at most twice the nutation in longitude (about 0.01 degrees). -/
theorem C70_error_partial (tp jd jme dpsi deps : ℝ) :
    ∃ m e s, Solar.get_mean_sidereal_time (mathB tp) (num jd) = num m ∧
      Solar.get_true_ecliptic_obliquity (mathB tp) (num jme) ⟨num dpsi, num deps⟩ = num e ∧
      Solar.get_apparent_sidereal_time (mathB tp) (num jd) (num jme) ⟨num dpsi, num deps⟩ = .ok (num s) ∧
      |s - (m + dpsi * cos (rad e))| ≤ 2 * |dpsi| := by
  obtain ⟨m, e, hm, he, hs⟩ := C70_value_partial tp jd jme dpsi deps
  refine ⟨m, e, _, hm, he, hs, ?_⟩
  rw [show m + dpsi * cos e - (m + dpsi * cos (rad e)) = dpsi * (cos e - cos (rad e)) by ring, abs_mul, mul_comm]
  apply mul_le_mul_of_nonneg_right _ (abs_nonneg _)
  have h1 := abs_le.mp (abs_cos_le_one e)
  have h2 := abs_le.mp (abs_cos_le_one (rad e))
  rw [abs_le]
  constructor <;> linarith

/-- C70 is false (J2000, nutation 1 degree in longitude, true obliquity pi degrees). -/
theorem C70_refuted (tp : ℝ) : ¬ ∀ jd jme dpsi deps m e : ℝ,
    Solar.get_mean_sidereal_time (mathB tp) (num jd) = num m →
    Solar.get_true_ecliptic_obliquity (mathB tp) (num jme) ⟨num dpsi, num deps⟩ = num e →
    Solar.get_apparent_sidereal_time (mathB tp) (num jd) (num jme) ⟨num dpsi, num deps⟩
      = .ok (num (m + dpsi * cos (rad e))) := by
  intro hall
  have h := hall 2451545 0 1 (π - meanObl (0 / 10) / 3600) _ _ (mst_eval _) (teo_eval ..)
  rw [ast_eval] at h
  have h := num_injective (Except.ok.inj h)
  rw [show meanObl (0 / 10) / 3600 + (π - meanObl (0 / 10) / 3600) = π by ring, cos_pi] at h
  have hp : 0 < cos (rad π) := cos_rad_pos (by linarith [pi_pos]) (by linarith [pi_lt_four])
  linarith

end Verif.Props
