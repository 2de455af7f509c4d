import Verif.Props.DiffuseDouble
import Verif.Props.SkyOrder

/-!
# C178, C179, C180 in double precision

The witnesses against C178, C179 and C180 are not artefacts of real arithmetic: at the place of the documentation's examples, on the
morning of their date, IEEE double precision gives the same picture.
-/

namespace Verif.Props

open Verif Verif.Spec Pysolar Pysolar.Util Pysolar.Numeric Real

/-- The sine of the exact altitude, and the declination formula. -/
theorem doc_sine {a : ℝ} (ha : Solar.get_altitude (mathB (10 ^ 6)) (num ((42.206 : ℚ) : ℝ)) (num ((-71.382 : ℚ) : ℝ))
      (.dt (utcDT docMorning)) (num 0) = .ok (num a)) :
    0.7 ≤ sin a ∧ 23.45 * sin (2 * π / 365 * (yday docMorning.date - 81)) ≤ -12 := by
  have hw : (ivSim (10 ^ 6)).rW (.dt (utcDT docMorning)) (.dt (utcDT docMorning)) := ⟨_, rfl, rfl⟩
  have hl : ∀ q : ℚ, (ivSim (10 ^ 6)).r (ivB.lit q) ((mathB (10 ^ 6)).lit q) := fun q => iv_lit q
  obtain ⟨dec, k1, -, k2⟩ := Iv.within_ok ((ivSim (10 ^ 6)).declination_degree hw (hl TY_default)) iv_doc_declination
  obtain ⟨s, k3, k4, -⟩ := Iv.within_ok (RelM.bind (iv_altitude (10 ^ 6) (utcDT docMorning) (iv_lit 42.206) (iv_lit (-71.382)) iv_lit0
    (iv_lit Constants.standard_temperature) (iv_lit Constants.standard_pressure)) fun _ _ h => (ivSim (10 ^ 6)).sin h) iv_doc_sine
  obtain ⟨a', k5, k6⟩ := bind_ok_inv k3
  obtain rfl : num a = a' := Except.ok.inj (ha.symm.trans k5)
  obtain rfl : sin a = s := V.fin.inj (Except.ok.inj k6)
  have e := C81_declination_degree (10 ^ 6) 365 _ _ (utcDT_fields docMorning_valid)
  rw [if_neg (by norm_num)] at e
  have ty : (mathB (10 ^ 6)).lit TY_default = num 365 := by rw [m_lit]; norm_num [TY_default]
  rw [ty] at k1
  obtain rfl := V.fin.inj (Except.ok.inj (k1.symm.trans e))
  constructor
  · norm_num at k4 ⊢
    exact k4
  · push_cast at k2
    exact k2

/-- More than 10^11 W/m² with turbidity 1, and more with turbidity 2. -/
theorem doc_direct64 : ∃ r r', direct_underclear (rndB binary64) (flt binary64 ((42.206 : ℚ) : ℝ))
      (flt binary64 ((-71.382 : ℚ) : ℝ)) (.dt (utcDT docMorning)) (flt binary64 365) (flt binary64 2) (flt binary64 1) (flt binary64 0)
      = .ok (flt binary64 r) ∧
    direct_underclear (rndB binary64) (flt binary64 ((42.206 : ℚ) : ℝ))
      (flt binary64 ((-71.382 : ℚ) : ℝ)) (.dt (utcDT docMorning)) (flt binary64 365) (flt binary64 2) (flt binary64 2) (flt binary64 0)
      = .ok (flt binary64 r') ∧ 10 ^ 11 ≤ r ∧ r < r' := by
  obtain ⟨a', a, n1, n2, -, -, n3⟩ := doc_altitude64
  obtain ⟨s, dec⟩ := doc_sine n2
  obtain ⟨r, E, hE, g1, g2⟩ := C117_direct binary64 _ _ (utcDT_fields docMorning_valid) _ _ _ _ _ 365 2 1 a' a (by norm_num) (by norm_num)
    (by norm_num) (by norm_num) (by norm_num) n1 n3
  obtain ⟨r', E', hE', g1', g2'⟩ := C117_direct binary64 _ _ (utcDT_fields docMorning_valid) _ _ _ _ _ 365 2 2 a' a (by norm_num) (by norm_num)
    (by norm_num) (by norm_num) (by norm_num) n1 n3
  refine ⟨r, r', g1, g1', ?_⟩
  generalize 23.45 * sin (2 * π / 365 * (yday docMorning.date - 81)) = D at *
  have x : exp 20 ≤ E := by
    rw [hE, exp_le_exp]
    norm_num
    linarith
  have sq : E' = E * E := by
    rw [hE, hE', ← exp_add]
    congr 1
    ring
  have y : exp 20 = exp 1 ^ 20 := by rw [← exp_nat_mul]; norm_num
  have z : (2.718 : ℝ) ^ 20 ≤ exp 1 ^ 20 := pow_le_pow_left₀ (by norm_num) (by have := exp_one_gt_d9; norm_num at *; linarith) _
  rw [← y] at z
  have w := z.trans x
  have big : (4.8e8 : ℝ) ≤ E := le_trans (by norm_num) w
  have s1 := sin_le_one a
  rw [abs_le] at g2 g2'
  rw [sq] at g2'
  norm_num at *
  have t : 7 / 10 * E ≤ sin a * E := mul_le_mul_of_nonneg_right s (by linarith)
  have t1 : sin a * E ≤ E := by nlinarith
  have u : 7 / 10 * (E * E) ≤ sin a * (E * E) := mul_le_mul_of_nonneg_right s (by positivity)
  have v : 480000000 * E ≤ E * E := mul_le_mul_of_nonneg_right big (by linarith)
  constructor <;> nlinarith

/-- C178 in double precision: more than 10^11 W/m². -/
theorem C178_double_partial : ∃ r, direct_underclear (rndB binary64) (flt binary64 ((42.206 : ℚ) : ℝ))
      (flt binary64 ((-71.382 : ℚ) : ℝ)) (.dt (utcDT docMorning)) (flt binary64 365) (flt binary64 2) (flt binary64 1) (flt binary64 0)
      = .ok (flt binary64 r) ∧ 10 ^ 11 ≤ r := by
  obtain ⟨r, -, h1, -, h2, -⟩ := doc_direct64
  exact ⟨r, h1, h2⟩

/-- C180 in double precision: more with turbidity 2 than with turbidity 1. -/
theorem C180_double_partial : ∃ r r', direct_underclear (rndB binary64) (flt binary64 ((42.206 : ℚ) : ℝ))
      (flt binary64 ((-71.382 : ℚ) : ℝ)) (.dt (utcDT docMorning)) (flt binary64 365) (flt binary64 2) (flt binary64 1) (flt binary64 0)
      = .ok (flt binary64 r) ∧
    direct_underclear (rndB binary64) (flt binary64 ((42.206 : ℚ) : ℝ))
      (flt binary64 ((-71.382 : ℚ) : ℝ)) (.dt (utcDT docMorning)) (flt binary64 365) (flt binary64 2) (flt binary64 2) (flt binary64 0)
      = .ok (flt binary64 r') ∧ r < r' := by
  obtain ⟨r, r', h1, h2, -, h3⟩ := doc_direct64
  exact ⟨r, r', h1, h2, h3⟩

/-- C179 in double precision: more than 25 times the value at the zenith. -/
theorem C179_double_partial : ∃ r z, diffuse_underclear (rndB binary64) (flt binary64 ((42.206 : ℚ) : ℝ))
      (flt binary64 ((-71.382 : ℚ) : ℝ)) (.dt (utcDT docMorning)) (flt binary64 0) (TL := flt binary64 1) = .ok (flt binary64 r) ∧
    diffuse_transmittance (rndB binary64) (flt binary64 1) = flt binary64 z ∧ 20 ≤ z ∧ 25 * z ≤ r := by
  obtain ⟨a', a, n1, n2, o2, o3, n3⟩ := doc_altitude64
  obtain ⟨r, q1, -, q3⟩ := C117_diffuse binary64 _ _ (utcDT_fields docMorning_valid) _ _ _ _ _ 1 a' a (by norm_num) (by norm_num) n1
    (abs_le.2 ⟨by linarith, by linarith⟩) n3
  obtain ⟨z, h1, -, h2, -⟩ := C183_value 1 (by norm_num) (by norm_num)
  rw [abs_le] at h2 q3
  norm_num at h2 q3
  exact ⟨r, z, q1, h1, by linarith, by linarith⟩

end Verif.Props
