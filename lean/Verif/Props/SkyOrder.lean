import Verif.Props.DirectExcess
import Verif.Props.FloatIrradiance

/-!
# C180, C181: hazy and overcast skies

A hazier sky lets less direct light through, and under clouds there is less light than under a clear sky. In the code the
declination stands for the thickness of the air and the altitude counts in degrees, so that neither holds.
-/

namespace Verif.Props

open Verif Verif.Spec Pysolar Pysolar.Util Pysolar.Numeric Real

/-- What C180 claims: with the sun up the direct irradiance does not rise with the turbidity. -/
def C180_claim (tp : ℝ) : Prop := ∀ (d : DateTime) (c : Civil), UtcFields d c → ∀ lat lon AM TL TL' elev T P a r r' : ℝ,
  0 < AM → 0 ≤ TL → TL < TL' → AM * TL' ≤ 4 →
  Solar.get_altitude (mathB tp) (num lat) (num lon) (.dt d) (num elev) (num T) (num P) = .ok (num a) → 0 ≤ a → a ≤ 90 →
  direct_underclear (mathB tp) (num lat) (num lon) (.dt d) (num 365) (num AM) (num TL) (num elev) (num T) (num P) = .ok (num r) →
  direct_underclear (mathB tp) (num lat) (num lon) (.dt d) (num 365) (num AM) (num TL') (num elev) (num T) (num P) = .ok (num r') →
  r' ≤ r

/-- C180, exactly when it holds: the direct irradiance falls with the turbidity if the sine of the altitude number and the sine of
the declination formula have the same sign, rises if they have opposite signs, and stays if one of them is 0. -/
theorem C180_exact_partial (tp : ℝ) (d : DateTime) (c : Civil) (h : UtcFields d c) (lat lon AM TL TL' elev T P a : ℝ)
    (hA : 0 < AM) (hT : 0 ≤ TL) (hT' : TL < TL') (hAT : AM * TL' ≤ 4)
    (ha : Solar.get_altitude (mathB tp) (num lat) (num lon) (.dt d) (num elev) (num T) (num P) = .ok (num a)) :
    ∃ r r', direct_underclear (mathB tp) (num lat) (num lon) (.dt d) (num 365) (num AM) (num TL) (num elev) (num T) (num P)
        = .ok (num r) ∧
      direct_underclear (mathB tp) (num lat) (num lon) (.dt d) (num 365) (num AM) (num TL') (num elev) (num T) (num P)
        = .ok (num r') ∧
      (r' < r ↔ 0 < sin a * sin (2 * π / 365 * (yday c.date - 81))) ∧
      (r < r' ↔ sin a * sin (2 * π / 365 * (yday c.date - 81)) < 0) := by
  have b0 : 0 ≤ AM * TL := mul_nonneg hA.le hT
  have b1 : AM * TL < AM * TL' := mul_lt_mul_of_pos_left hT' hA
  refine ⟨_, _, C81_direct tp d c h lat lon 365 AM TL elev T P a ha (by norm_num) (by rw [abs_of_nonneg b0]; linarith),
    C81_direct tp d c h lat lon 365 AM TL' elev T P a ha (by norm_num) (by rw [abs_of_nonneg (by linarith)]; linarith), ?_⟩
  generalize sin (2 * π / 365 * (yday c.date - 81)) = s
  generalize sin a = t
  have m : ∀ {s : ℝ}, 0 < s → exp (-0.8662 * AM * TL' * (23.45 * s)) < exp (-0.8662 * AM * TL * (23.45 * s)) := by
    intro s hs
    rw [exp_lt_exp]
    have := mul_lt_mul_of_pos_right b1 hs
    norm_num at *
    nlinarith
  have m' : ∀ {s : ℝ}, s < 0 → exp (-0.8662 * AM * TL * (23.45 * s)) < exp (-0.8662 * AM * TL' * (23.45 * s)) := by
    intro s hs
    rw [exp_lt_exp]
    have := mul_lt_mul_of_neg_right b1 hs
    norm_num at *
    nlinarith
  rcases lt_trichotomy s 0 with hs | hs | hs
  · have e := m' hs
    generalize exp (-0.8662 * AM * TL' * (23.45 * s)) = E' at *
    generalize exp (-0.8662 * AM * TL * (23.45 * s)) = E at *
    constructor
    · rw [show 0 < t * s ↔ t < 0 from ⟨fun k => by_contra fun hn => absurd (mul_nonpos_of_nonneg_of_nonpos (not_lt.1 hn) hs.le) (not_le.2 k),
        fun k => mul_pos_of_neg_of_neg k hs⟩]
      constructor <;> intro k <;> nlinarith
    · rw [show t * s < 0 ↔ 0 < t from ⟨fun k => by_contra fun hn => absurd (mul_nonneg_of_nonpos_of_nonpos (not_lt.1 hn) hs.le) (not_le.2 k),
        fun k => mul_neg_of_pos_of_neg k hs⟩]
      constructor <;> intro k <;> nlinarith
  · subst hs
    simp
  · have e := m hs
    generalize exp (-0.8662 * AM * TL' * (23.45 * s)) = E' at *
    generalize exp (-0.8662 * AM * TL * (23.45 * s)) = E at *
    constructor
    · rw [mul_pos_iff_of_pos_right hs]
      constructor <;> intro k <;> nlinarith
    · rw [show t * s < 0 ↔ t < 0 from ⟨fun k => by_contra fun hn => absurd (mul_nonneg (not_lt.1 hn) hs.le) (not_le.2 k),
        fun k => mul_neg_of_neg_of_pos k hs⟩]
      constructor <;> intro k <;> nlinarith

/-- C180 is false: the place of the documentation's examples on the morning of their date, turbidity 2 against 1. -/
theorem C180_refuted (tp : ℝ) : ¬ C180_claim tp := by
  intro hall
  obtain ⟨a, r, h1, h2, h3, h4, h5⟩ := C178_documented_partial tp
  obtain ⟨dec, -, k2⟩ := C68_value_partial tp _ _ (utcDT_fields docMorning_valid) ((42.206 : ℚ) : ℝ) ((-71.382 : ℚ) : ℝ)
    (AM_default : ℚ) (TL_default : ℚ) 0 _ _ a h1 (by norm_num [AM_default, TL_default])
  have e : (mathB tp).lit elevation_default = num 0 := by
    rw [m_lit]
    norm_num [elevation_default]
  have h4' : direct_underclear (mathB tp) ((mathB tp).lit 42.206) ((mathB tp).lit (-71.382)) (.dt (utcDT docMorning))
      ((mathB tp).lit TY_default) ((mathB tp).lit AM_default) ((mathB tp).lit TL_default) ((mathB tp).lit elevation_default)
      ((mathB tp).lit Constants.standard_temperature) ((mathB tp).lit Constants.standard_pressure) = .ok (num r) := h4
  rw [e] at h4'
  have hr := V.fin.inj (Except.ok.inj (h4'.symm.trans k2))
  have ht : 0 < sin a := by
    by_contra hn
    have p := exp_pos (-0.8662 * ((AM_default : ℚ) : ℝ) * ((TL_default : ℚ) : ℝ) * dec)
    have := mul_nonpos_of_nonneg_of_nonpos (by positivity : 0 ≤ 1367 * exp (-0.8662 * ((AM_default : ℚ) : ℝ) * ((TL_default : ℚ) : ℝ) * dec))
      (not_lt.1 hn)
    norm_num at h5
    linarith
  obtain ⟨r1, r2, j1, j2, -, j3⟩ := C180_exact_partial tp _ _ (utcDT_fields docMorning_valid) ((42.206 : ℚ) : ℝ) ((-71.382 : ℚ) : ℝ)
    2 1 2 0 (Constants.standard_temperature : ℚ) (Constants.standard_pressure : ℚ) a (by norm_num) (by norm_num) (by norm_num)
    (by norm_num) h1
  have y : yday docMorning.date = 49 := by decide
  have s := winter_sine (n := yday docMorning.date) (by rw [y]; norm_num) (by rw [y]; norm_num) (.inl (by rw [y]; norm_num))
  have := hall _ _ (utcDT_fields docMorning_valid) _ _ 2 1 2 _ _ _ a r1 r2 (by norm_num) (by norm_num) (by norm_num) (by norm_num) h1
    (by linarith) (by linarith) j1 j2
  exact absurd (j3.2 (mul_neg_of_pos_of_neg ht s)) (not_lt.2 this)

/-- What C181 claims: with the sun up and default arguments the overcast irradiance is at most that of a clear sky. -/
def C181_claim (tp : ℝ) : Prop := ∀ (d : DateTime) (c : Civil), UtcFields d c → ∀ lat lon elev a r r' : ℝ,
  Solar.get_altitude (mathB tp) (num lat) (num lon) (.dt d) (num elev) (num Constants.standard_temperature)
    (num Constants.standard_pressure) = .ok (num a) → 0 ≤ a → a ≤ 90 →
  global_irradiance_clear (mathB tp) (num lat) (num lon) (.dt d) (num 365) (num 2) (num 1) (num elev) = .ok (num r) →
  global_irradiance_overcast (mathB tp) (num lat) (num lon) (.dt d) (num elev) = .ok (num r') → r' ≤ r

/-- The irradiance under a clear and under an overcast sky. -/
theorem sky_eval (tp : ℝ) (d : DateTime) (c : Civil) (h : UtcFields d c) (lat lon elev a : ℝ)
    (ha : Solar.get_altitude (mathB tp) (num lat) (num lon) (.dt d) (num elev) (num Constants.standard_temperature)
      (num Constants.standard_pressure) = .ok (num a)) :
    global_irradiance_clear (mathB tp) (num lat) (num lon) (.dt d) (num 365) (num 2) (num 1) (num elev)
      = .ok (num (1367 * exp (-0.8662 * 2 * 1 * (23.45 * sin (2 * π / 365 * (yday c.date - 81)))) * sin a + 20.61405 * a)) ∧
    global_irradiance_overcast (mathB tp) (num lat) (num lon) (.dt d) (num elev) = .ok (num (572 * a)) := by
  constructor
  · rw [C44_value_partial _ _ _ _ _ h.2]
    have e1 := C81_direct tp d c h lat lon 365 2 1 elev _ _ a ha (by norm_num) (by norm_num)
    have e2 := (C81_diffuse_overcast tp d c h lat lon (TL_default : ℚ) elev _ _ a ha).1
    simp only [m_lit]
    rw [e1, e2]
    simp only [ok_bind, pure_eq_ok, m_add]
    congr 2
    norm_num [TL_default]
  · exact (C81_diffuse_overcast tp d c h lat lon 1 elev _ _ a ha).2.2

/-- C181, where it fails: from day 81 to day 263, at every place with the sun more than 2.48 degrees high, the overcast sky is the
brighter one. -/
theorem C181_summer_partial (tp : ℝ) (d : DateTime) (c : Civil) (h : UtcFields d c) (hd : 81 ≤ yday c.date) (hd' : yday c.date ≤ 263)
    (lat lon elev a : ℝ)
    (ha : Solar.get_altitude (mathB tp) (num lat) (num lon) (.dt d) (num elev) (num Constants.standard_temperature)
      (num Constants.standard_pressure) = .ok (num a)) (h2 : 2.48 < a) :
    ∃ r r', global_irradiance_clear (mathB tp) (num lat) (num lon) (.dt d) (num 365) (num 2) (num 1) (num elev) = .ok (num r) ∧
      global_irradiance_overcast (mathB tp) (num lat) (num lon) (.dt d) (num elev) = .ok (num r') ∧ r < r' := by
  obtain ⟨e1, e2⟩ := sky_eval tp d c h lat lon elev a ha
  refine ⟨_, _, e1, e2, ?_⟩
  have s := summer_sine hd hd'
  have e : exp (-0.8662 * 2 * 1 * (23.45 * sin (2 * π / 365 * (yday c.date - 81)))) ≤ 1 := by
    rw [exp_le_one_iff]
    norm_num
    exact s
  have p := exp_pos (-0.8662 * 2 * 1 * (23.45 * sin (2 * π / 365 * (yday c.date - 81))))
  have q := sin_le_one a
  generalize exp (-0.8662 * 2 * 1 * (23.45 * sin (2 * π / 365 * (yday c.date - 81)))) = E at *
  norm_num at *
  nlinarith

/-- C181, where it holds: on day 81 and on the days outside 81 to 263, with the sun up to 1.57 degrees high. Missing: higher suns,
and the other half of the year. -/
theorem C181_low_partial (tp : ℝ) (d : DateTime) (c : Civil) (h : UtcFields d c) (hd : yday c.date ≤ 81 ∨ 263 < yday c.date)
    (lat lon elev a : ℝ)
    (ha : Solar.get_altitude (mathB tp) (num lat) (num lon) (.dt d) (num elev) (num Constants.standard_temperature)
      (num Constants.standard_pressure) = .ok (num a)) (h0 : 0 ≤ a) (h2 : a ≤ 1.57) :
    ∃ r r', global_irradiance_clear (mathB tp) (num lat) (num lon) (.dt d) (num 365) (num 2) (num 1) (num elev) = .ok (num r) ∧
      global_irradiance_overcast (mathB tp) (num lat) (num lon) (.dt d) (num elev) = .ok (num r') ∧ r' ≤ r := by
  obtain ⟨e1, e2⟩ := sky_eval tp d c h lat lon elev a ha
  refine ⟨_, _, e1, e2, ?_⟩
  have hy := Chain.yday_le h.1
  have s : sin (2 * π / 365 * (yday c.date - 81)) ≤ 0 := by
    by_cases h81 : yday c.date = 81
    · rw [h81]; norm_num
    · exact (winter_sine hy.1 hy.2 (hd.imp_left fun k => lt_of_le_of_ne k h81)).le
  have e : 1 ≤ exp (-0.8662 * 2 * 1 * (23.45 * sin (2 * π / 365 * (yday c.date - 81)))) := by
    rw [one_le_exp_iff]
    norm_num
    linarith
  have p := pi_gt_d2
  have p4 := pi_lt_d2
  have q := mul_le_sin h0 (by norm_num at *; linarith)
  have q' : 0.6 * a ≤ sin a := by
    refine le_trans (mul_le_mul_of_nonneg_right ?_ h0) q
    rw [le_div_iff₀ pi_pos]
    norm_num at *
    linarith
  generalize exp (-0.8662 * 2 * 1 * (23.45 * sin (2 * π / 365 * (yday c.date - 81)))) = E at *
  have : sin a ≤ E * sin a := le_mul_of_one_le_left (by norm_num at *; linarith) e
  norm_num at *
  nlinarith

/-- Sunrise at the place and on the date of the documentation's examples. -/
def docSunrise : Civil := ⟨2007, 2, 18, 11, 41, 0, 0⟩

theorem docSunrise_valid : docSunrise.Valid := civil_valid_of_check (by decide)

set_option maxRecDepth 100000 in
theorem iv_sunrise_altitude : Iv.within (Solar.get_altitude ivB (ivB.lit 42.206) (ivB.lit (-71.382)) (.dt (utcDT docSunrise))
    (ivB.lit 0) (ivB.lit Constants.standard_temperature) (ivB.lit Constants.standard_pressure)) 0.01 1.57 = true := by
  decide +kernel

/-- The hypotheses of `C181_low_partial` are met shortly after sunrise at the place of the documentation's examples. -/
example (tp : ℝ) : ∃ r r' : ℝ, global_irradiance_clear (mathB tp) (num ((42.206 : ℚ) : ℝ)) (num ((-71.382 : ℚ) : ℝ))
      (.dt (utcDT docSunrise)) (num 365) (num 2) (num 1) (num 0) = .ok (num r) ∧
    global_irradiance_overcast (mathB tp) (num ((42.206 : ℚ) : ℝ)) (num ((-71.382 : ℚ) : ℝ)) (.dt (utcDT docSunrise)) (num 0)
      = .ok (num r') ∧ r' ≤ r := by
  obtain ⟨a, h1, h2, h3⟩ := iv_altitude_within tp (utcDT docSunrise) (iv_lit 42.206) (iv_lit (-71.382)) iv_sunrise_altitude
  have y : yday docSunrise.date = 49 := by decide
  refine C181_low_partial tp _ _ (utcDT_fields docSunrise_valid) (.inl (by rw [y]; norm_num)) _ _ 0 a h1 ?_ ?_
  · norm_num at h2
    linarith
  · norm_num at h3 ⊢
    linarith

/-- The time of `docMorning` four months later. -/
def docJune : Civil := ⟨2007, 6, 18, 14, 40, 0, 0⟩

theorem docJune_valid : docJune.Valid := civil_valid_of_check (by decide)

set_option maxRecDepth 100000 in
theorem iv_june_altitude : Iv.within (Solar.get_altitude ivB (ivB.lit 42.206) (ivB.lit (-71.382)) (.dt (utcDT docJune)) (ivB.lit 0)
    (ivB.lit Constants.standard_temperature) (ivB.lit Constants.standard_pressure)) 40 70 = true := by
  decide +kernel

/-- C181 is false: the place of the documentation's examples on a June morning. -/
theorem C181_refuted (tp : ℝ) : ¬ C181_claim tp := by
  intro hall
  have hu := utcDT_fields docJune_valid
  obtain ⟨a, h1, h2, h3⟩ := iv_altitude_within tp (utcDT docJune) (iv_lit 42.206) (iv_lit (-71.382)) iv_june_altitude
  have h2' : (40 : ℝ) ≤ a := by exact_mod_cast h2
  have h3' : a ≤ (70 : ℝ) := by exact_mod_cast h3
  have y : yday docJune.date = 169 := by decide
  obtain ⟨r, r', k1, k2, k3⟩ := C181_summer_partial tp _ _ hu (by rw [y]; norm_num) (by rw [y]; norm_num) ((42.206 : ℚ) : ℝ)
    ((-71.382 : ℚ) : ℝ) 0 a h1 (by norm_num; linarith)
  exact absurd (hall _ _ hu _ _ _ a r r' h1 (by linarith) (by linarith) k1 k2) (not_le.2 k3)

/-- C181, where it fails, in double precision: from day 81 to day 263, with the sun more than 2.5 degrees high, whenever the altitude
computed in double precision is within 2e-5 degrees of the exact one (C86). -/
theorem C181_double_partial (F : F64) (d : DateTime) (c : Civil) (h : UtcFields d c) (hd : 81 ≤ yday c.date) (hd' : yday c.date ≤ 263)
    (lat lon elev a' a : ℝ) (ha' : Solar.get_altitude (rndB F) (flt F lat) (flt F lon) (.dt d) (flt F elev) = .ok (flt F a'))
    (h2 : 2.5 < a) (ha : a ≤ 95) (haa : |a' - a| ≤ 2 / 10 ^ 5) :
    ∃ r r', global_irradiance_clear (rndB F) (flt F lat) (flt F lon) (.dt d) (flt F 365) (flt F 2) (flt F 1) (flt F elev)
        = .ok (flt F r) ∧
      global_irradiance_overcast (rndB F) (flt F lat) (flt F lon) (.dt d) (flt F elev) = .ok (flt F r') ∧ r < r' := by
  have a95 : |a| ≤ 95 := abs_le.2 ⟨by norm_num at h2; linarith, ha⟩
  obtain ⟨r, E, hE, g1, g2⟩ := C117_global F d c h lat lon elev (F.rnd (Constants.standard_temperature : ℚ))
    (F.rnd (Constants.standard_pressure : ℚ)) 365 2 1 a' a (by norm_num) (by norm_num) (by norm_num) (by norm_num) (by norm_num) ha' a95 haa
  obtain ⟨-, -, r', -, -, g3, -, -, g4⟩ := C117_elevation F d c h lat lon elev _ _ a' a ha' a95 haa
  refine ⟨r, r', g1, g3, ?_⟩
  have s := summer_sine hd hd'
  have e1 : E ≤ 1 := by
    rw [hE, exp_le_one_iff]
    norm_num
    exact s
  have e0 : 0 < E := hE ▸ exp_pos _
  have q := sin_le_one a
  have p : E * sin a ≤ 1 := by nlinarith
  rw [abs_le] at g2 g4
  norm_num at *
  linarith

end Verif.Props
