import Verif.Props.IrradianceFormulas
import Verif.Proofs.FloatFast
import Verif.Proofs.Interval
import Verif.Props.NightRadiation

/-!
# C178: clear-sky direct irradiance and the solar constant

The direct irradiance under a clear sky is part of the solar constant of 1367 W/m². `direct_underclear` takes the declination of
the sun for the thickness of the air in its exponent, so that the attenuation becomes an amplification from the autumn to the
spring equinox: in December more than 10^20 W/m² are returned.
-/

namespace Verif.Props

open Verif Verif.Spec Pysolar Pysolar.Util Pysolar.Numeric Real

/-- What C178 claims: for every non-negative air mass and turbidity with a product up to 4. -/
def C178_claim (tp : ℝ) : Prop := ∀ (d : DateTime) (c : Civil), UtcFields d c → ∀ lat lon AM TL elev T P a r : ℝ,
  0 ≤ AM → 0 ≤ TL → AM * TL ≤ 4 →
  Solar.get_altitude (mathB tp) (num lat) (num lon) (.dt d) (num elev) (num T) (num P) = .ok (num a) → 0 ≤ a → a ≤ 90 →
  direct_underclear (mathB tp) (num lat) (num lon) (.dt d) (num 365) (num AM) (num TL) (num elev) (num T) (num P) = .ok (num r) →
  r ≤ 1367

/-- The sine of the declination formula is not negative from day 81 to day 263. -/
theorem summer_sine {n : ℤ} (h0 : 81 ≤ n) (h1 : n ≤ 263) : 0 ≤ sin (2 * π / 365 * (n - 81)) := by
  have a0 : (81 : ℝ) ≤ n := by exact_mod_cast h0
  have a1 : (n : ℝ) ≤ 263 := by exact_mod_cast h1
  apply sin_nonneg_of_nonneg_of_le_pi
  · have := pi_pos
    have : 0 ≤ (n : ℝ) - 81 := by linarith
    positivity
  · have := pi_pos
    nlinarith

/-- It is negative on the other days. -/
theorem winter_sine {n : ℤ} (h0 : 1 ≤ n) (h1 : n ≤ 366) (h : n < 81 ∨ 263 < n) : sin (2 * π / 365 * (n - 81)) < 0 := by
  have p := pi_pos
  rcases h with h | h
  · have a0 : (1 : ℝ) ≤ n := by exact_mod_cast h0
    have a1 : (n : ℝ) ≤ 80 := by exact_mod_cast Int.le_sub_one_of_lt h
    apply sin_neg_of_neg_of_neg_pi_lt <;> nlinarith
  · have a0 : (264 : ℝ) ≤ n := by exact_mod_cast h
    have a1 : (n : ℝ) ≤ 366 := by exact_mod_cast h1
    have : 0 < sin (2 * π / 365 * (n - 81) - π) := sin_pos_of_pos_of_lt_pi (by nlinarith) (by nlinarith)
    rw [sin_sub_pi] at this
    linarith

/-- C178, what holds: from day 81 to day 263 the direct irradiance is within the solar constant, at every place and in every
atmosphere. Missing: the other half of the year. -/
theorem C178_summer_partial (tp : ℝ) (d : DateTime) (c : Civil) (h : UtcFields d c) (hd : 81 ≤ yday c.date) (hd' : yday c.date ≤ 263)
    (lat lon AM TL elev T P a : ℝ) (hA : 0 ≤ AM) (hT : 0 ≤ TL) (hAT : AM * TL ≤ 4)
    (ha : Solar.get_altitude (mathB tp) (num lat) (num lon) (.dt d) (num elev) (num T) (num P) = .ok (num a)) :
    ∃ r, direct_underclear (mathB tp) (num lat) (num lon) (.dt d) (num 365) (num AM) (num TL) (num elev) (num T) (num P)
      = .ok (num r) ∧ |r| ≤ 1367 := by
  refine ⟨_, C81_direct tp d c h lat lon 365 AM TL elev T P a ha (by norm_num) (by rwa [abs_of_nonneg (mul_nonneg hA hT)]), ?_⟩
  have s := summer_sine hd hd'
  have e : exp (-0.8662 * AM * TL * (23.45 * sin (2 * π / 365 * (yday c.date - 81)))) ≤ 1 := by
    rw [exp_le_one_iff]
    have : 0 ≤ AM * TL * sin (2 * π / 365 * (yday c.date - 81)) := mul_nonneg (mul_nonneg hA hT) s
    norm_num at *
    nlinarith
  have p := exp_pos (-0.8662 * AM * TL * (23.45 * sin (2 * π / 365 * (yday c.date - 81))))
  rw [abs_mul, abs_of_pos (by positivity)]
  have q := abs_sin_le_one a
  have := mul_le_mul e q (abs_nonneg _) (by norm_num)
  nlinarith

/-- C178, what happens otherwise: on each of the other days, in every atmosphere that weakens the light at all, the solar constant
is exceeded on the equator at noon, with the sun above the horizon, for some pressure. -/
theorem C178_winter_partial (tp : ℝ) (htp : 1 ≤ |tp|) (d : DateTime) (c : Civil) (h : UtcFields d c)
    (hd : yday c.date < 81 ∨ 263 < yday c.date) (AM TL : ℝ) (hAT : 0 < AM * TL) (hAT' : AM * TL ≤ 4) :
    ∃ lon P a r, Solar.get_altitude (mathB tp) (num 0) (num lon) (.dt d) (num 0) (num Constants.standard_temperature) (num P)
        = .ok (num a) ∧ 0 ≤ a ∧ a ≤ 90 ∧
      direct_underclear (mathB tp) (num 0) (num lon) (.dt d) (num 365) (num AM) (num TL) (num 0) (num Constants.standard_temperature)
        (num P) = .ok (num r) ∧
      r = 1367 * exp (20.31239 * (AM * TL) * -sin (2 * π / 365 * (yday c.date - 81))) ∧ 1367 < r := by
  obtain ⟨P, hP⟩ := noon_any htp h (π / 2)
  have hy := Chain.yday_le h.1
  have s := winter_sine hy.1 hy.2 hd
  have p := pi_lt_d2
  refine ⟨_, P, π / 2, _, hP, by positivity, by norm_num at *; linarith,
    C81_direct tp d c h _ _ 365 AM TL _ _ P _ hP (by norm_num) (by rwa [abs_of_pos hAT]), ?_, ?_⟩
  · rw [sin_pi_div_two, mul_one]
    congr 2
    norm_num
    ring
  · rw [sin_pi_div_two, mul_one]
    have : 1 < exp (-0.8662 * AM * TL * (23.45 * sin (2 * π / 365 * (yday c.date - 81)))) := by
      rw [one_lt_exp_iff]
      have : 0 < AM * TL * -sin (2 * π / 365 * (yday c.date - 81)) := mul_pos hAT (by linarith)
      norm_num at *
      nlinarith
    linarith

/-- With the default air mass 2 and turbidity 1, on 21 December (day 355), more than 10^20 W/m². -/
theorem C178_december_partial (tp : ℝ) (htp : 1 ≤ |tp|) (d : DateTime) (c : Civil) (h : UtcFields d c) (hd : yday c.date = 355) :
    ∃ lon P a r, Solar.get_altitude (mathB tp) (num 0) (num lon) (.dt d) (num 0) (num Constants.standard_temperature) (num P)
        = .ok (num a) ∧ 0 ≤ a ∧ a ≤ 90 ∧
      direct_underclear (mathB tp) (num 0) (num lon) (.dt d) (num 365) (num 2) (num 1) (num 0) (num Constants.standard_temperature)
        (num P) = .ok (num r) ∧ 10 ^ 20 < r := by
  obtain ⟨lon, P, a, r, h1, h2, h3, h4, h5, -⟩ := C178_winter_partial tp htp d c h (.inr (by rw [hd]; norm_num)) 2 1 (by norm_num)
    (by norm_num)
  refine ⟨lon, P, a, r, h1, h2, h3, h4, ?_⟩
  have e : sin (2 * π / 365 * ((yday c.date : ℝ) - 81)) = -cos (π / 730) := by
    rw [hd, show 2 * π / 365 * (((355 : ℤ) : ℝ) - 81) = π / 730 + π / 2 + π by push_cast; ring, sin_add_pi, sin_add_pi_div_two]
  have k : 0.999 ≤ cos (π / 730) := by
    have := one_sub_sq_div_two_le_cos (x := π / 730)
    have p0 := pi_pos
    have p := pi_lt_d2
    norm_num at *
    nlinarith
  have x : (40 : ℝ) ≤ 20.31239 * (2 * 1) * -sin (2 * π / 365 * ((yday c.date : ℝ) - 81)) := by
    rw [e]
    norm_num at *
    linarith
  have y : exp 40 = exp 1 ^ 40 := by rw [← exp_nat_mul]; norm_num
  have z : (2.718 : ℝ) ^ 40 ≤ exp 1 ^ 40 := pow_le_pow_left₀ (by norm_num) (by have := exp_one_gt_d9; norm_num at *; linarith) _
  have w := exp_le_exp.2 x
  rw [h5]
  generalize exp (20.31239 * (2 * 1) * -sin (2 * π / 365 * ((yday c.date : ℝ) - 81))) = E at *
  rw [← y] at z
  have q : (10 : ℝ) ^ 17 < 2.718 ^ 40 := by norm_num
  have := q.trans_le (z.trans w)
  norm_num at this ⊢
  linarith

/-- A winter morning at the place and on the date of the examples in the documentation (doc/index.rst:60-111), 14:40 UTC. -/
def docMorning : Civil := ⟨2007, 2, 18, 14, 40, 0, 0⟩

theorem docMorning_valid : docMorning.Valid := civil_valid_of_check (by decide)

set_option maxRecDepth 100000 in
theorem iv_doc_altitude : Iv.within (Solar.get_altitude ivB (ivB.lit 42.206) (ivB.lit (-71.382)) (.dt (utcDT docMorning)) (ivB.lit 0)
    (ivB.lit Constants.standard_temperature) (ivB.lit Constants.standard_pressure)) 26 28 = true := by
  decide +kernel

set_option maxRecDepth 100000 in
theorem iv_doc_sine : Iv.within (Solar.get_altitude ivB (ivB.lit 42.206) (ivB.lit (-71.382)) (.dt (utcDT docMorning)) (ivB.lit 0)
    (ivB.lit Constants.standard_temperature) (ivB.lit Constants.standard_pressure) >>= ivB.sin) 0.7 1 = true := by
  decide +kernel

theorem iv_doc_declination : Iv.within (declination_degree ivB (.dt (utcDT docMorning))) (-13) (-12) = true := by
  decide +kernel

/-- No unusual argument is needed: at the place of the documentation's examples, on the morning of the day they are for, with all
defaults, the sun stands 26 to 28 degrees high and more than 10^11 W/m² are returned. -/
theorem C178_documented_partial (tp : ℝ) :
    ∃ a r, Solar.get_altitude (mathB tp) ((mathB tp).lit 42.206) ((mathB tp).lit (-71.382)) (.dt (utcDT docMorning)) (num 0)
        ((mathB tp).lit Constants.standard_temperature) ((mathB tp).lit Constants.standard_pressure) = .ok (num a) ∧ 26 ≤ a ∧ a ≤ 28 ∧
      direct_underclear (mathB tp) ((mathB tp).lit 42.206) ((mathB tp).lit (-71.382)) (.dt (utcDT docMorning)) = .ok (num r) ∧
      10 ^ 11 ≤ r := by
  have hw : (ivSim tp).rW (.dt (utcDT docMorning)) (.dt (utcDT docMorning)) := ⟨_, rfl, rfl⟩
  have hl : ∀ q : ℚ, (ivSim tp).r (ivB.lit q) ((mathB tp).lit q) := fun q => iv_lit q
  obtain ⟨a, h1, h2, h3⟩ := iv_altitude_within tp (utcDT docMorning) (iv_lit 42.206) (iv_lit (-71.382)) iv_doc_altitude
  obtain ⟨dec, k1, -, k2⟩ := Iv.within_ok ((ivSim tp).declination_degree hw (hl TY_default)) iv_doc_declination
  obtain ⟨s, k3, k4, -⟩ := Iv.within_ok (RelM.bind (iv_altitude tp (utcDT docMorning) (iv_lit 42.206) (iv_lit (-71.382)) iv_lit0
    (iv_lit Constants.standard_temperature) (iv_lit Constants.standard_pressure)) fun _ _ h => (ivSim tp).sin h) iv_doc_sine
  obtain ⟨a', k5, k6⟩ := bind_ok_inv k3
  obtain rfl : num a = a' := Except.ok.inj (h1.symm.trans k5)
  obtain rfl : sin a = s := V.fin.inj (Except.ok.inj k6)
  obtain ⟨dec', k7, k8⟩ := C68_value_partial tp _ _ (utcDT_fields docMorning_valid) ((42.206 : ℚ) : ℝ) ((-71.382 : ℚ) : ℝ)
    (AM_default : ℚ) (TL_default : ℚ) 0 _ _ a h1 (by norm_num [AM_default, TL_default])
  obtain rfl : dec = dec' := V.fin.inj (Except.ok.inj (k1.symm.trans k7))
  refine ⟨a, 1367 * exp (-0.8662 * ((AM_default : ℚ) : ℝ) * ((TL_default : ℚ) : ℝ) * dec) * sin a, h1, by exact_mod_cast h2, by exact_mod_cast h3, ?_, ?_⟩
  · have e : (mathB tp).lit elevation_default = num 0 := by
      rw [m_lit]
      norm_num [elevation_default]
    show direct_underclear (mathB tp) _ _ _ _ _ _ ((mathB tp).lit elevation_default) _ _ = _
    rw [e]
    exact k8
  · have x : (20 : ℝ) ≤ -0.8662 * ((AM_default : ℚ) : ℝ) * ((TL_default : ℚ) : ℝ) * dec := by
      norm_num [AM_default, TL_default] at k2 ⊢
      linarith
    have y : exp 20 = exp 1 ^ 20 := by rw [← exp_nat_mul]; norm_num
    have z : (2.718 : ℝ) ^ 20 ≤ exp 1 ^ 20 := pow_le_pow_left₀ (by norm_num) (by have := exp_one_gt_d9; norm_num at *; linarith) _
    rw [← y] at z
    have w := z.trans (exp_le_exp.2 x)
    generalize exp (-0.8662 * ((AM_default : ℚ) : ℝ) * ((TL_default : ℚ) : ℝ) * dec) = E at *
    have q : (4 : ℝ) * 10 ^ 8 ≤ 2.718 ^ 20 := by norm_num
    have := q.trans w
    norm_num at this k4 ⊢
    nlinarith

/-- C178 is false: the place and date of the documentation's examples, all defaults. -/
theorem C178_refuted (tp : ℝ) : ¬ C178_claim tp := by
  intro hall
  obtain ⟨a, r, h1, h2, h3, h4, h5⟩ := C178_documented_partial tp
  have e0 : (mathB tp).lit elevation_default = num 0 := by
    rw [m_lit]
    norm_num [elevation_default]
  have e1 : (mathB tp).lit TY_default = num 365 := by
    rw [m_lit]
    norm_num [TY_default]
  have h4 : direct_underclear (mathB tp) ((mathB tp).lit 42.206) ((mathB tp).lit (-71.382)) (.dt (utcDT docMorning))
    ((mathB tp).lit TY_default) ((mathB tp).lit AM_default) ((mathB tp).lit TL_default) ((mathB tp).lit elevation_default)
    ((mathB tp).lit Constants.standard_temperature) ((mathB tp).lit Constants.standard_pressure) = .ok (num r) := h4
  rw [e0, e1] at h4
  have := hall _ _ (utcDT_fields docMorning_valid) ((42.206 : ℚ) : ℝ) ((-71.382 : ℚ) : ℝ) (AM_default : ℚ) (TL_default : ℚ) 0
    (Constants.standard_temperature : ℚ) (Constants.standard_pressure : ℚ) a r (by norm_num [AM_default]) (by norm_num [TL_default])
    (by norm_num [AM_default, TL_default]) h1 (by linarith) (by linarith) h4
  norm_num at h5
  linarith

/-- Noon UTC on 21 June 2020 and 21 December 2021. -/
def juneNoon : Civil := ⟨2020, 6, 21, 12, 0, 0, 0⟩
def decemberNoon : Civil := ⟨2021, 12, 21, 12, 0, 0, 0⟩

/-- Concrete cases: on the equator the irradiance stays within the solar constant on 21 June 2020 and exceeds 10^20 W/m² on
21 December 2021. -/
example (tp : ℝ) (htp : 1 ≤ |tp|) : ∃ lon P r, direct_underclear (mathB tp) (num 0) (num lon) (.dt (utcDT juneNoon)) (num 365) (num 2)
    (num 1) (num 0) (num Constants.standard_temperature) (num P) = .ok (num r) ∧ |r| ≤ 1367 := by
  have h := utcDT_fields (c := juneNoon) (civil_valid_of_check (by decide))
  have e : yday juneNoon.date = 173 := by decide
  obtain ⟨P, hP⟩ := noon_any htp h 80
  obtain ⟨r, h1, h2⟩ := C178_summer_partial tp _ _ h (by rw [e]; norm_num) (by rw [e]; norm_num) _ _ 2 1 _ _ P _ (by norm_num)
    (by norm_num) (by norm_num) hP
  exact ⟨_, P, r, h1, h2⟩

example (tp : ℝ) (htp : 1 ≤ |tp|) : ∃ lon P r, direct_underclear (mathB tp) (num 0) (num lon) (.dt (utcDT decemberNoon)) (num 365) (num 2)
    (num 1) (num 0) (num Constants.standard_temperature) (num P) = .ok (num r) ∧ 10 ^ 20 < r := by
  obtain ⟨lon, P, a, r, -, -, -, h1, h2⟩ := C178_december_partial tp htp _ _
    (utcDT_fields (c := decemberNoon) (civil_valid_of_check (by decide))) (by decide)
  exact ⟨lon, P, r, h1, h2⟩

end Verif.Props
