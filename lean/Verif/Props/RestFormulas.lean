import Verif.Props.Rest
import Verif.Spec.Rest2

/-!
# C79, C80: the REST functions and the REST2 formulas
-/

namespace Verif.Props

open Verif.Spec Pysolar Pysolar.Rest Real

variable {tp : ℝ}

theorem C79_rayleigh (tp m : ℝ) (h0 : 0 ≤ m) (h1 : m ≤ 95) :
    get_rayleigh_transmittance (mathB tp) "high-frequency" (num m) = .ok (num (Rest2.rayleigh1 m)) ∧
    get_rayleigh_transmittance (mathB tp) "low-frequency" (num m) = .ok (num (Rest2.rayleigh2 m)) := by
  constructor
  · simp only [get_rayleigh_transmittance, if_true, m_sci, m_one, m_pow, m_mul, m_add]
    exact m_div _ (by positivity)
  · simp only [get_rayleigh_transmittance, low_ne_high, if_false, m_sci, m_one, m_pow, m_mul, m_sub]
    exact m_div _ (by norm_num; nlinarith)

theorem C79_gas (tp m : ℝ) (h0 : 0 ≤ m) :
    get_gas_transmittance (mathB tp) "high-frequency" (num m) = .ok (num (Rest2.gas1 m)) ∧
    get_gas_transmittance (mathB tp) "low-frequency" (num m) = .ok (num (Rest2.gas2 m)) := by
  constructor
  · simp only [get_gas_transmittance, if_true, m_sci, m_one, m_pow, m_mul, m_add]
    exact m_div _ (by positivity)
  · simp only [get_gas_transmittance, low_ne_high, if_false, m_sci, m_one, m_pow, m_mul, m_sub, m_add]
    exact m_div _ (by positivity)

theorem C79_ozone (tp m u : ℝ) (h0 : 0 ≤ m) (hu : 0 ≤ u) (hu1 : u ≤ 1.9) :
    get_ozone_transmittance (mathB tp) "high-frequency" (num m) (num u) = .ok (num (Rest2.ozone1 u m)) ∧
    get_ozone_transmittance (mathB tp) "low-frequency" (num m) (num u) = .ok (num 1) := by
  have d1 : (0 : ℝ) < 1 + 2.0115 * u + 40.189 * u ^ 2 := by positivity
  have d2 : (0 : ℝ) < 1 - 2.4857 * u + 13.942 * u ^ 2 := by norm_num; nlinarith [sq_nonneg (u - 0.1)]
  have d3 : (0 : ℝ) < 1 + 1.6784 * u + 42.406 * u ^ 2 := by positivity
  have f3 : 0 ≤ u * (10.995 - 5.5001 * u) / (1 + 1.6784 * u + 42.406 * u ^ 2) := by
    apply div_nonneg (mul_nonneg hu _) d3.le
    norm_num at hu1 ⊢
    linarith
  constructor
  · simp only [get_ozone_transmittance, if_true, m_sci, m_one, m_pow, m_mul, m_add, m_sub, m_neg, m_div _ d1.ne',
      m_div _ d2.ne', m_div _ d3.ne', ok_bind]
    exact m_div _ (by positivity)
  · simp only [get_ozone_transmittance, low_ne_high, if_false, m_sci, pure_eq_ok]
    norm_num

/-- The amount of nitrogen dioxide is the constant 0.0003, whatever the argument. -/
theorem C79_nitrogen (tp m : ℝ) (h0 : 0 ≤ m) (n : (mathB tp).α) :
    get_nitrogen_transmittance (mathB tp) "high-frequency" (num m) n = .ok (num (Rest2.nitrogen1 0.0003 m)) ∧
    get_nitrogen_transmittance (mathB tp) "low-frequency" (num m) n = .ok (num 1) := by
  constructor
  · simp only [get_nitrogen_transmittance, if_true, m_sci, m_lit, m_one, m_pow, m_mul, m_add, m_sub, m_neg, un]
    rw [m_div _ (by norm_num), ok_bind, m_div _ (by norm_num), ok_bind, m_div _ (by norm_num), ok_bind]
    simp only [m_mul, m_add]
    rw [m_div _ (by norm_num; positivity), ok_bind]
    simp only [pyMin, m_lt, m_truth, ok_bind, decide_eq_true_eq, pure_eq_ok]
    have hc : ((0.0003 : ℚ) : ℝ) = 0.0003 := by norm_num
    rw [hc, ← apply_ite Except.ok, ← apply_ite num]
    unfold Rest2.nitrogen1
    congr 2
    norm_num only [min_def]
    split_ifs <;> linarith
  · simp only [get_nitrogen_transmittance, low_ne_high, if_false, m_sci, pure_eq_ok]
    norm_num

theorem C79_water (tp m w : ℝ) (h0 : 0 ≤ m) (hw : 0 ≤ w) :
    get_water_vapor_transmittance (mathB tp) "high-frequency" (num m) (num w) = .ok (num (Rest2.water1 w m)) ∧
    get_water_vapor_transmittance (mathB tp) "low-frequency" (num m) (num w) = .ok (num (Rest2.water2 w m)) := by
  have hm2 : 0 ≤ m ^ 2 := sq_nonneg m
  constructor
  · simp only [get_water_vapor_transmittance, get_water_vapor_transmittance_coefficients, if_true, m_sci, m_one,
      m_mul, m_add]
    have d1 : (0 : ℝ) < 1 + 1.2728 * w := by positivity
    have d2 : (0 : ℝ) < 1 + 1.2008 * w := by positivity
    rw [m_div _ d1.ne', ok_bind, m_div _ d2.ne', ok_bind]
    simp only [pyIndex, pure_eq_ok, ok_bind, List.getElem?_cons_zero, List.getElem?_cons_succ, m_mul, m_add]
    exact m_div _ (by positivity)
  · simp only [get_water_vapor_transmittance, get_water_vapor_transmittance_coefficients, low_ne_high, if_false, m_sci,
      m_one, m_mul, m_add, m_sub, m_pow]
    have d1 : (0 : ℝ) < 1 + 5.4248 * w + 1.6005 * w ^ 2 := by positivity
    have d2 : (0 : ℝ) < 1 + 1.1811 * w + 1.0699 * w ^ 2 := by positivity
    have d3 : (0 : ℝ) < 1 + 4.8318 * w + 1.412 * w ^ 2 := by positivity
    have d4 : (0 : ℝ) < 1 + 0.44907 * w + 0.75425 * w ^ 2 := by positivity
    rw [m_div _ d1.ne', ok_bind, m_div _ d2.ne', ok_bind, m_div _ d3.ne', ok_bind, m_div _ d4.ne', ok_bind]
    simp only [pyIndex, pure_eq_ok, ok_bind, List.getElem?_cons_zero, List.getElem?_cons_succ, m_mul, m_add]
    have n3 : 0 ≤ w * (21.286 - 0.39232 * w + 1.2692 * w ^ 2) / (1 + 4.8318 * w + 1.412 * w ^ 2) := by
      apply div_nonneg (mul_nonneg hw _) d3.le
      norm_num
      nlinarith [sq_nonneg (w - 1)]
    have n4 : 0 ≤ w * (0.70992 - 0.23155 * w + 0.096514 * w ^ 2) / (1 + 0.44907 * w + 0.75425 * w ^ 2) := by
      apply div_nonneg (mul_nonneg hw _) d4.le
      norm_num
      nlinarith [sq_nonneg (w - 1.2)]
    have k1 := mul_nonneg n3 h0
    have k2 := mul_nonneg n4 hm2
    exact m_div _ (by linarith)

/-- `albedo` is 0.92 and 0.84; other bands raise `KeyError`. -/
theorem C79_aerosol (tp m t : ℝ) (h : 0 ≤ m * t) (band : String) :
    get_aerosol_transmittance (mathB tp) band (num m) (num t) = .ok (num (exp (-(m * t)))) ∧
    get_aerosol_scattering_transmittance (mathB tp) "high-frequency" (num m) (num t)
      = .ok (num (exp (-(0.92 * m * t)))) ∧
    get_aerosol_scattering_transmittance (mathB tp) "low-frequency" (num m) (num t)
      = .ok (num (exp (-(0.84 * m * t)))) ∧
    (¬ IsBand band →
      get_aerosol_scattering_transmittance (mathB tp) band (num m) (num t) = .error .keyError) := by
  refine ⟨?_, ?_, ?_, ?_⟩
  · simp only [get_aerosol_transmittance, m_neg, m_mul]
    rw [m_exp (exp_small (by linarith)), neg_mul]
  · have e : pyLookup albedo "high-frequency" = .ok 0.92 := rfl
    simp only [get_aerosol_scattering_transmittance, e, ok_bind, m_lit, m_neg, m_mul]
    have e2 : -m * ((0.92 : ℚ) : ℝ) * t = -(0.92 * m * t) := by push_cast; ring
    rw [e2, m_exp (exp_small (by norm_num; nlinarith))]
  · have e : pyLookup albedo "low-frequency" = .ok 0.84 := rfl
    simp only [get_aerosol_scattering_transmittance, e, ok_bind, m_lit, m_neg, m_mul]
    have e2 : -m * ((0.84 : ℚ) : ℝ) * t = -(0.84 * m * t) := by push_cast; ring
    rw [e2, m_exp (exp_small (by norm_num; nlinarith))]
  · intro hb
    simp only [IsBand, not_or, ← ne_eq] at hb
    obtain ⟨h1, h2⟩ := hb
    rw [← beq_eq_false_iff_ne] at h1 h2
    have e : pyLookup albedo band = .error .keyError := by
      simp only [pyLookup, albedo, List.lookup, h1, h2]
    simp only [get_aerosol_scattering_transmittance, e, error_bind]

theorem C79_forward_scatterance (tp alt : ℝ) :
    get_aerosol_forward_scatterance_factor (mathB tp) (num alt)
      = .ok (num (1 - exp (-0.6931 - 1.8326 * cos (rad (90 - alt))))) := by
  have h90 : ((OfNat.ofNat 90 : ℕ) : ℝ) = 90 := by norm_num
  simp only [get_aerosol_forward_scatterance_factor, m_ofNat, h90, m_sub, m_radians, m_cos, ok_bind, m_sci, m_mul,
    m_neg, m_e, m_rpow (exp_pos 1), pure_eq_ok, exp_one_rpow]
  norm_num

theorem C79_optical_depth (tp b l a : ℝ) (hl : 0 < l) :
    get_aerosol_optical_depth (mathB tp) (num b) (num l) (num a) = .ok (num (b * l ^ (-a))) := by
  simp only [get_aerosol_optical_depth, m_neg, m_rpow hl, ok_bind, m_mul, pure_eq_ok]

theorem C79_scattering_correction (tp m t : ℝ) (h0 : 0 ≤ m)
    (h1 : 1 + (-0.052288 + 0.31902 * m + 0.17871 * m ^ 2) / (1 + 0.0069592 * m ^ 2) * t ≠ 0)
    (h2 : 1 + (0.8889 - 0.55063 * m + 0.50152 * m ^ 2) / (1 + 0.14865 * m ^ (1.5 : ℝ)) * t ≠ 0) :
    get_aerosol_scattering_correction_factor (mathB tp) "high-frequency" (num m) (num t)
      = .ok (num (Rest2.scatter1 m t)) ∧
    get_aerosol_scattering_correction_factor (mathB tp) "low-frequency" (num m) (num t)
      = .ok (num (Rest2.scatter2 m t)) := by
  constructor
  · simp only [get_aerosol_scattering_correction_factor, if_true, m_sci, m_one, m_pow, m_mul, m_add, m_sub, m_neg]
    rw [m_div _ (by positivity), ok_bind, m_div _ (by positivity), ok_bind, m_div _ (by positivity), ok_bind]
    simp only [m_mul, m_add]
    exact m_div _ h1
  · have hr := m_rpow_nonneg (tp := tp) h0 (show (0 : ℝ) ≤ 1.5 by norm_num)
    have hp : 0 ≤ m ^ (1.5 : ℝ) := rpow_nonneg h0 _
    simp only [get_aerosol_scattering_correction_factor, low_ne_high, if_false, m_sci, m_one, m_pow, m_mul, m_add,
      m_sub, hr, ok_bind]
    rw [m_div _ (by positivity), ok_bind, m_div _ (by positivity), ok_bind, m_div _ (by positivity), ok_bind]
    simp only [m_mul, m_add]
    exact m_div _ h2

theorem C79_forward_fraction (tp m : ℝ) :
    get_rayleigh_extinction_forward_scattering_fraction (mathB tp) "high-frequency" (num m)
      = num (0.5 * (0.89013 - 0.049558 * m + 0.000045721 * m ^ 2)) ∧
    get_rayleigh_extinction_forward_scattering_fraction (mathB tp) "low-frequency" (num m) = num 0.5 := by
  constructor
  · simp only [get_rayleigh_extinction_forward_scattering_fraction, if_true, m_sci, m_pow, m_mul, m_add, m_sub]
  · simp only [get_rayleigh_extinction_forward_scattering_fraction, low_ne_high, if_false, m_sci]

theorem C79_sky_albedo (tp a b : ℝ) (ha0 : 0 ≤ a) (ha1 : a ≤ 5) (hb0 : 0 ≤ b) :
    get_sky_albedo (mathB tp) "high-frequency" (num a) (num b) = .ok (num (Rest2.skyAlbedo1 a b)) ∧
    get_sky_albedo (mathB tp) "low-frequency" (num a) (num b) = .ok (num (Rest2.skyAlbedo2 a b)) := by
  constructor
  · simp only [get_sky_albedo, if_true, m_sci, m_one, m_mul, m_add, m_sub]
    have d1 : (0 : ℝ) < 1 - 0.10832 * a := by norm_num; linarith
    have d2 : (0 : ℝ) < 1 - 0.08158 * a := by norm_num; linarith
    rw [m_div _ d1.ne', ok_bind, m_div _ d2.ne', ok_bind]
    simp only [m_add]
    exact m_div _ (by positivity)
  · simp only [get_sky_albedo, low_ne_high, if_false, m_sci, m_one, m_mul, m_add, m_sub]
    have d1 : (0 : ℝ) < 1 - 0.19402 * a := by norm_num; linarith
    have d2 : (0 : ℝ) < 1 - 0.17586 * a := by norm_num; linarith
    rw [m_div _ d1.ne', ok_bind, m_div _ d2.ne', ok_bind]
    simp only [m_add]
    exact m_div _ (by positivity)

/-- The hypotheses of the theorems above are met by ordinary values: air mass 2, 0.35 atm cm of ozone, 1.4 cm of water,
turbidity 1.3 and 0.1. -/
example (tp : ℝ) :
    get_rayleigh_transmittance (mathB tp) "low-frequency" (num 2) = .ok (num (Rest2.rayleigh2 2)) ∧
    get_ozone_transmittance (mathB tp) "high-frequency" (num 2) (num 0.35) = .ok (num (Rest2.ozone1 0.35 2)) ∧
    get_water_vapor_transmittance (mathB tp) "low-frequency" (num 2) (num 1.4) = .ok (num (Rest2.water2 1.4 2)) ∧
    get_sky_albedo (mathB tp) "high-frequency" (num 1.3) (num 0.1) = .ok (num (Rest2.skyAlbedo1 1.3 0.1)) ∧
    get_aerosol_scattering_correction_factor (mathB tp) "high-frequency" (num 2) (num 0.1)
      = .ok (num (Rest2.scatter1 2 0.1)) ∧
    get_aerosol_optical_depth (mathB tp) (num 0.1) (num 0.7) (num 1.3) = .ok (num (0.1 * 0.7 ^ (-1.3 : ℝ))) :=
  ⟨(C79_rayleigh tp 2 (by norm_num) (by norm_num)).2,
    (C79_ozone tp 2 0.35 (by norm_num) (by norm_num) (by norm_num)).1,
    (C79_water tp 2 1.4 (by norm_num) (by norm_num)).2,
    (C79_sky_albedo tp 1.3 0.1 (by norm_num) (by norm_num) (by norm_num)).1,
    (C79_scattering_correction tp 2 0.1 (by norm_num) (by norm_num) (by
      have : (0 : ℝ) ≤ 2 ^ (1.5 : ℝ) := rpow_nonneg (by norm_num) _
      have : 0 ≤ (0.8889 - 0.55063 * 2 + 0.50152 * 2 ^ 2) / (1 + 0.14865 * (2 : ℝ) ^ (1.5 : ℝ)) * 0.1 := by
        apply mul_nonneg (div_nonneg (by norm_num) (by positivity)) (by norm_num)
      linarith)).1,
    C79_optical_depth tp 0.1 0.7 1.3 (by norm_num)⟩

/-- What the code computes instead of the published optical mass, with the zenith angle `z` in radians. -/
noncomputable def codeMass (a c p q z : ℝ) : ℝ := (p - z) ^ q / (cos z + a * z ^ c)

/-- The returned optical masses, for a sun between horizon and zenith (pressure in millibars). -/
theorem C80_optical_masses_partial (tp alt p : ℝ) (h0 : 0 ≤ alt) (h1 : alt ≤ 90) :
    get_optical_mass_rayleigh (mathB tp) (num alt) (num p)
      = .ok (num (p / 1013.25 * codeMass 0.48353 0.095846 96.741 1.754 (rad (90 - alt)))) ∧
    get_optical_mass_ozone (mathB tp) (num alt)
      = .ok (num (codeMass 1.0651 0.6379 101.8 2.2694 (rad (90 - alt)))) ∧
    get_optical_mass_water (mathB tp) (num alt)
      = .ok (num (codeMass 0.10648 0.11423 93.781 1.9203 (rad (90 - alt)))) ∧
    get_optical_mass_aerosol (mathB tp) (num alt)
      = .ok (num (codeMass 0.16851 0.18198 95.318 1.9542 (rad (90 - alt)))) := by
  obtain ⟨z0, z1⟩ := zenith_rad h0 h1
  have h90 : ((OfNat.ofNat 90 : ℕ) : ℝ) = 90 := by norm_num
  refine ⟨?_, ?_, ?_, ?_⟩
  · have hb : (0 : ℝ) < 96.741 - rad (90 - alt) := by norm_num at z1 ⊢; linarith
    have hm := mass_denominator (k := 0.48353) (c := 0.095846) h0 h1 (by norm_num)
    have hq := rpow_pos_of_pos hb 1.754
    have hs : ((standard_pressure_millibars : ℚ) : ℝ) = 1013.25 := by
      norm_num [standard_pressure_millibars, Constants.standard_pressure]
    simp only [get_optical_mass_rayleigh, m_ofNat, m_sub, m_radians, m_cos, ok_bind, m_sci, h90, m_divq, hs,
      m_rpow_nonneg z0 (show (0 : ℝ) ≤ 0.095846 by norm_num), m_mul, m_add, m_rpow hb, m_div _ hq.ne',
      m_div _ (div_pos hm hq).ne']
    unfold codeMass
    congr 2
    field_simp
  · have hb : (0 : ℝ) < 101.8 - rad (90 - alt) := by norm_num at z1 ⊢; linarith
    have hm := mass_denominator (k := 1.0651) (c := 0.6379) h0 h1 (by norm_num)
    have hq := rpow_pos_of_pos hb 2.2694
    simp only [get_optical_mass_ozone, m_ofNat, m_sub, m_radians, m_cos, ok_bind, m_sci, h90,
      m_rpow_nonneg z0 (show (0 : ℝ) ≤ 0.6379 by norm_num), m_mul, m_add, m_rpow hb, m_div _ hq.ne',
      m_div _ (div_pos hm hq).ne']
    unfold codeMass
    congr 2
    rw [Nat.cast_one, one_div_div]
  · have hb : (0 : ℝ) < 93.781 - rad (90 - alt) := by norm_num at z1 ⊢; linarith
    have hm := mass_denominator (k := 0.10648) (c := 0.11423) h0 h1 (by norm_num)
    have hq := rpow_pos_of_pos hb 1.9203
    simp only [get_optical_mass_water, m_ofNat, m_sub, m_radians, m_cos, ok_bind, m_sci, h90,
      m_rpow_nonneg z0 (show (0 : ℝ) ≤ 0.11423 by norm_num), m_mul, m_add, m_rpow hb, m_div _ hq.ne',
      m_div _ (div_pos hm hq).ne']
    unfold codeMass
    congr 2
    rw [Nat.cast_one, one_div_div]
  · have hb : (0 : ℝ) < 95.318 - rad (90 - alt) := by norm_num at z1 ⊢; linarith
    have hm := mass_denominator (k := 0.16851) (c := 0.18198) h0 h1 (by norm_num)
    have hq := rpow_pos_of_pos hb 1.9542
    simp only [get_optical_mass_aerosol, m_ofNat, m_sub, m_radians, m_cos, ok_bind, m_sci, h90,
      m_rpow_nonneg z0 (show (0 : ℝ) ≤ 0.18198 by norm_num), m_mul, m_add, m_rpow hb, m_div _ hq.ne',
      m_div _ (div_pos hm hq).ne']
    unfold codeMass
    congr 2
    rw [Nat.cast_one, one_div_div]

theorem codeMass_large {a c p q z : ℝ} (z0 : 0 ≤ z) (z1 : z ≤ 1.6) (ha1 : a ≤ 1.07)
    (hc : 0 < c) (hc1 : c ≤ 1) (hp : 93 ≤ p) (hq : 1.75 ≤ q) (hpos : 0 < cos z + a * z ^ c) :
    900 < codeMass a c p q z := by
  have hb : 90 ≤ p - z := by norm_num at z1; linarith
  have e1 : (2600 : ℝ) ≤ (p - z) ^ q := by
    have k1 : (90 : ℝ) ^ (1.75 : ℝ) ≤ (p - z) ^ q :=
      (rpow_le_rpow (by norm_num) hb (by norm_num)).trans (rpow_le_rpow_of_exponent_le (by linarith) hq)
    refine le_trans ?_ k1
    have k2 : (2600 : ℝ) = ((2600 : ℝ) ^ (4 : ℕ)) ^ ((4 : ℝ)⁻¹) := by
      rw [← rpow_natCast, ← rpow_mul (by norm_num)]; norm_num
    have k3 : (90 : ℝ) ^ (1.75 : ℝ) = ((90 : ℝ) ^ (7 : ℕ)) ^ ((4 : ℝ)⁻¹) := by
      rw [← rpow_natCast, ← rpow_mul (by norm_num)]; norm_num
    rw [k2, k3]
    exact rpow_le_rpow (by norm_num) (by norm_num) (by norm_num)
  have e2 : z ^ c ≤ 1.6 := by
    calc z ^ c ≤ (1.6 : ℝ) ^ c := rpow_le_rpow z0 z1 hc.le
      _ ≤ (1.6 : ℝ) ^ (1 : ℝ) := rpow_le_rpow_of_exponent_le (by norm_num) hc1
      _ = 1.6 := rpow_one _
  have e3 : 0 ≤ z ^ c := rpow_nonneg z0 _
  have e4 : cos z + a * z ^ c ≤ 2.8 := by
    have := cos_le_one z
    have : a * z ^ c ≤ 1.07 * 1.6 := mul_le_mul ha1 e2 e3 (by norm_num)
    norm_num at this ⊢; linarith
  unfold codeMass
  rw [lt_div_iff₀ hpos]
  norm_num at e4
  linarith

/-- The masses are more than 900 for every altitude from horizon to zenith, whereas the published ones are 1 for a sun
overhead. -/
theorem C80_masses_above_900_partial (tp alt : ℝ) (h0 : 0 ≤ alt) (h1 : alt ≤ 90) :
    ∃ mR mo mw ma : ℝ, 900 < mR ∧ 900 < mo ∧ 900 < mw ∧ 900 < ma ∧
      get_optical_mass_rayleigh (mathB tp) (num alt) (num 1013.25) = .ok (num mR) ∧
      get_optical_mass_ozone (mathB tp) (num alt) = .ok (num mo) ∧
      get_optical_mass_water (mathB tp) (num alt) = .ok (num mw) ∧
      get_optical_mass_aerosol (mathB tp) (num alt) = .ok (num ma) := by
  obtain ⟨z0, z1⟩ := zenith_rad h0 h1
  obtain ⟨e1, e2, e3, e4⟩ := C80_optical_masses_partial tp alt 1013.25 h0 h1
  refine ⟨_, _, _, _, ?_, ?_, ?_, ?_, e1, e2, e3, e4⟩
  · rw [div_self (by norm_num), one_mul]
    exact codeMass_large z0 z1 (by norm_num) (by norm_num) (by norm_num) (by norm_num) (by norm_num)
      (mass_denominator h0 h1 (by norm_num))
  · exact codeMass_large z0 z1 (by norm_num) (by norm_num) (by norm_num) (by norm_num) (by norm_num)
      (mass_denominator h0 h1 (by norm_num))
  · exact codeMass_large z0 z1 (by norm_num) (by norm_num) (by norm_num) (by norm_num) (by norm_num)
      (mass_denominator h0 h1 (by norm_num))
  · exact codeMass_large z0 z1 (by norm_num) (by norm_num) (by norm_num) (by norm_num) (by norm_num)
      (mass_denominator h0 h1 (by norm_num))

/-- The optical masses are not the published ones. -/
theorem C80_refuted (tp : ℝ) :
    ¬ (∀ alt : ℝ, 0 ≤ alt → alt ≤ 90 →
      get_optical_mass_water (mathB tp) (num alt)
        = .ok (num (Rest2.opticalMass 0.10648 0.11423 93.781 1.9203 (90 - alt)))) := by
  intro h
  have h1 := h 90 (by norm_num) le_rfl
  obtain ⟨_, _, mw, _, _, _, g, _, _, _, e, _⟩ := C80_masses_above_900_partial tp 90 (by norm_num) le_rfl
  rw [e] at h1
  have h2 : mw = Rest2.opticalMass 0.10648 0.11423 93.781 1.9203 (90 - 90) :=
    num_injective (Except.ok.inj h1)
  rw [sub_self, Rest2.opticalMass, zero_rpow (by norm_num), zero_mul, zero_div, cos_zero, zero_mul, zero_div,
    add_zero, div_one] at h2
  linarith

end Verif.Props
