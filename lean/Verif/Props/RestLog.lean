import Verif.Props.RestFormulas
import Verif.Proofs.FloatPos

/-!
# C119, C120: the REST functions once the missing names are bound

rest.py reads names that the package does not bind (C62). Here a program has bound `pysolar.numeric.log = math.log`.
-/

namespace Verif.Props

open Verif.Spec Pysolar Pysolar.Rest Real

/-- Python's `math.log`. -/
noncomputable def mathLog (tp : ℝ) (x : (mathB tp).α) : Py (mathB tp).α :=
  match (x : V) with
  | .fin x => if 0 < x then .ok (num (log x)) else .error .valueError
  | .pinf => .ok V.pinf
  | .ninf => .error .valueError
  | .nan => .ok V.nan

/-- `numeric.log` bound to `math.log`, nothing else. -/
noncomputable def logBound (tp : ℝ) : Globals (mathB tp) := { log := some (mathLog tp) }

theorem wavelength_eq {tp m a b : ℝ} (band : String) (h : 0 ≤ m * b) :
    get_effective_aerosol_wavelength (mathB tp) band (num m) (num a) (num b) (logBound tp)
      = effectiveWavelengthOf (mathB tp) band (num a) (num (log (1 + m * b))) := by
  have e : mathLog tp (1 + num m * num b) = .ok (num (log (1 + m * b))) := by
    rw [m_mul, m_one, m_add]
    exact if_pos (by linarith)
  exact bind_of_ok e rfl

/-! ## C119 -/

/-- C119: the effective wavelength is given by the published formulas (high band: never a zero divisor). -/
theorem C119_formula (tp m a b : ℝ) (h : 0 ≤ m * b) (a0 : 0 ≤ a) (a1 : a ≤ 2.5) :
    get_effective_aerosol_wavelength (mathB tp) "high-frequency" (num m) (num a) (num b) (logBound tp)
      = .ok (num (Rest2.wavelength1 a (log (1 + m * b)))) ∧
    (1 + Rest2.wavelength2e3 a * log (1 + m * b) ≠ 0 →
      get_effective_aerosol_wavelength (mathB tp) "low-frequency" (num m) (num a) (num b) (logBound tp)
        = .ok (num (Rest2.wavelength2 a (log (1 + m * b))))) ∧
    (1 + Rest2.wavelength2e3 a * log (1 + m * b) = 0 →
      get_effective_aerosol_wavelength (mathB tp) "low-frequency" (num m) (num a) (num b) (logBound tp)
        = .error .zeroDivision) := by
  norm_num at a1
  rw [wavelength_eq _ h, wavelength_eq _ h]
  refine ⟨?_, fun hd => ?_, fun hd => ?_⟩
  · simp only [effectiveWavelengthOf, if_true, m_sci, m_one, m_pow, m_mul,
      m_add, m_sub, m_neg]
    have d1 : (0 : ℝ) < 1 + 0.6418 * a := by positivity
    have d2 : (0 : ℝ) < 1 - 0.11651 * a := by norm_num; linarith
    have d3 : (0 : ℝ) < 1 - 0.90454 * a + 0.26167 * a ^ 2 := by norm_num; nlinarith [sq_nonneg (a - 1.7)]
    rw [m_div _ d1.ne', ok_bind, m_div _ d2.ne', ok_bind, m_div _ d3.ne', ok_bind]
    simp only [m_mul, m_add]
    have n3 : 0 ≤ a * (0.15232 - 0.087214 * a + 0.012664 * a ^ 2) / (1 - 0.90454 * a + 0.26167 * a ^ 2) := by
      apply div_nonneg (mul_nonneg a0 _) d3.le
      norm_num
      nlinarith [sq_nonneg (a - 3.4)]
    exact m_div _ (by positivity)
  all_goals
    simp only [effectiveWavelengthOf, low_ne_high, if_false, m_sci, m_one,
      m_pow, m_mul, m_add, m_sub, m_neg]
    have d1 : (0 : ℝ) < 1 + 0.11133 * a := by positivity
    have d2 : (0 : ℝ) < 1 + 1.6756 * a := by positivity
    have d3 : (0 : ℝ) < 1 + 11.168 * a := by positivity
    have d4 : (0 : ℝ) < 1 + 4.7665 * a := by positivity
    rw [m_div _ d1.ne', ok_bind, m_div _ d2.ne', ok_bind, m_div _ d3.ne', ok_bind, m_div _ d4.ne', ok_bind]
    simp only [m_mul, m_add]
  · exact m_div _ hd
  · exact if_pos hd

/-- What C119 claims: for every turbidity in the range of the published model the wavelength at the sun's altitude is
positive. -/
def C119Claim (tp : ℝ) : Prop := ∀ (band : String) (alt a b : ℝ), IsBand band → 0 ≤ alt → alt ≤ 90 → 0 ≤ a → a ≤ 2.5 →
  0 ≤ b → b ≤ 1.1 → ∃ m x : ℝ, get_optical_mass_aerosol (mathB tp) (num alt) = .ok (num m) ∧
    get_effective_aerosol_wavelength (mathB tp) band (num m) (num a) (num b) (logBound tp) = .ok (num x) ∧ 0 < x

/-- The aerosol mass computed for a sun on the horizon. -/
theorem horizon_mass : 26000 < codeMass 0.16851 0.18198 95.318 1.9542 (rad (90 - 0)) := by
  have hr : rad (90 - 0) = π / 2 := by rw [sub_zero, rad_90]
  have p1 := pi_gt_three
  have p2 := pi_lt_d2
  rw [hr, codeMass, cos_pi_div_two, zero_add]
  have e1 : (5000 : ℝ) ≤ (95.318 - π / 2) ^ (1.9542 : ℝ) := by
    have k1 : (93 : ℝ) ^ (1.9 : ℝ) ≤ (95.318 - π / 2) ^ (1.9542 : ℝ) :=
      (rpow_le_rpow (by norm_num) (by norm_num at p2 ⊢; linarith) (by norm_num)).trans
        (rpow_le_rpow_of_exponent_le (by norm_num at p2 ⊢; linarith) (by norm_num))
    refine le_trans ?_ k1
    have k2 : (5000 : ℝ) = ((5000 : ℝ) ^ (10 : ℕ)) ^ ((10 : ℝ)⁻¹) := by
      rw [← rpow_natCast, ← rpow_mul (by norm_num)]; norm_num
    have k3 : (93 : ℝ) ^ (1.9 : ℝ) = ((93 : ℝ) ^ (19 : ℕ)) ^ ((10 : ℝ)⁻¹) := by
      rw [← rpow_natCast, ← rpow_mul (by norm_num)]; norm_num
    rw [k2, k3]
    exact rpow_le_rpow (by norm_num) (by norm_num) (by norm_num)
  have e2 : (π / 2) ^ (0.18198 : ℝ) ≤ 1.1 := by
    have k1 : (π / 2) ^ (0.18198 : ℝ) ≤ (1.6 : ℝ) ^ (0.2 : ℝ) :=
      (rpow_le_rpow (by positivity) (by norm_num at p2 ⊢; linarith) (by norm_num)).trans
        (rpow_le_rpow_of_exponent_le (by norm_num) (by norm_num))
    refine k1.trans ?_
    have k2 : (1.1 : ℝ) = ((1.1 : ℝ) ^ (5 : ℕ)) ^ (0.2 : ℝ) := by
      rw [← rpow_natCast, ← rpow_mul (by norm_num)]; norm_num
    rw [k2]
    exact rpow_le_rpow (by norm_num) (by norm_num) (by norm_num)
  have e3 : 0 < (π / 2) ^ (0.18198 : ℝ) := rpow_pos_of_pos (by positivity) _
  rw [lt_div_iff₀ (by positivity)]
  norm_num at e1 e2 e3 ⊢
  linarith

theorem log_lower {x : ℝ} (h : 15601 ≤ x) : 9.6 ≤ log x := by
  rw [le_log_iff_exp_le (by linarith)]
  refine le_trans ?_ h
  have h1 : exp 9.6 ^ 5 ≤ (15601 : ℝ) ^ 5 := by
    rw [← exp_nat_mul, show ((5 : ℕ) : ℝ) * 9.6 = ((48 : ℕ) : ℝ) * 1 by norm_num, exp_nat_mul]
    refine (pow_le_pow_left₀ (exp_pos 1).le exp_one_lt_d9.le 48).trans (by norm_num)
  exact le_of_pow_le_pow_left₀ (by norm_num) (by norm_num) h1

/-- `wavelength2` at the default exponent 1.3. -/
theorem wavelength2_default (u : ℝ) :
    (9.6 ≤ u → 1 + Rest2.wavelength2e3 1.3 * u < 0 ∧ Rest2.wavelength2 1.3 u < 0) ∧
    (0 ≤ u → u ≤ 9.1 → 0 < 1 + Rest2.wavelength2e3 1.3 * u ∧ 0 < Rest2.wavelength2 1.3 u) := by
  have e3 : Rest2.wavelength2e3 1.3 ≤ -0.1092 ∧ -0.1093 ≤ Rest2.wavelength2e3 1.3 := by
    unfold Rest2.wavelength2e3
    norm_num
  have e0 : (1.03 : ℝ) ≤ (1.183 - 0.022989 * 1.3 + 0.020829 * 1.3 ^ 2) / (1 + 0.11133 * 1.3) := by norm_num
  have e1 : (-0.11 : ℝ) ≤ (-0.50003 - 0.18329 * 1.3 + 0.23835 * 1.3 ^ 2) / (1 + 1.6756 * 1.3) := by norm_num
  have e2 : (0.06 : ℝ) ≤ (-0.50001 + 1.1414 * 1.3 + 0.0083589 * 1.3 ^ 2) / (1 + 11.168 * 1.3) := by norm_num
  have hn : 0 ≤ u → 0 < (1.183 - 0.022989 * 1.3 + 0.020829 * 1.3 ^ 2) / (1 + 0.11133 * 1.3)
      + (-0.50003 - 0.18329 * 1.3 + 0.23835 * 1.3 ^ 2) / (1 + 1.6756 * 1.3) * u
      + (-0.50001 + 1.1414 * 1.3 + 0.0083589 * 1.3 ^ 2) / (1 + 11.168 * 1.3) * u ^ 2 := by
    intro hu
    have k1 := mul_le_mul_of_nonneg_right e1 hu
    have k2 := mul_le_mul_of_nonneg_right e2 (sq_nonneg u)
    norm_num at e0 k1 k2 ⊢
    nlinarith [sq_nonneg (u - 1)]
  refine ⟨fun h => ?_, fun h0 h1 => ?_⟩
  · have d : 1 + Rest2.wavelength2e3 1.3 * u < 0 := by
      norm_num at h e3
      nlinarith
    exact ⟨d, div_neg_of_pos_of_neg (hn (by norm_num at h; linarith)) d⟩
  · have d : 0 < 1 + Rest2.wavelength2e3 1.3 * u := by
      norm_num at h1 e3
      nlinarith
    exact ⟨d, div_pos (hn h0) d⟩

/-- C119 is false: with the default turbidity and the sun on the horizon the wavelength of the low band is negative. -/
theorem C119_refuted (tp : ℝ) : ¬ C119Claim tp := by
  intro h
  obtain ⟨m, x, h1, h2, h3⟩ := h "low-frequency" 0 1.3 0.6 (Or.inr rfl) le_rfl (by norm_num) (by norm_num) (by norm_num)
    (by norm_num) (by norm_num)
  have hm := horizon_mass
  rw [(C80_optical_masses_partial tp 0 1013.25 le_rfl (by norm_num)).2.2.2] at h1
  have e : _ = m := num_injective (Except.ok.inj h1)
  rw [e] at hm
  have hu : 9.6 ≤ log (1 + m * 0.6) := log_lower (by norm_num; linarith)
  have hw := (wavelength2_default _).1 hu
  rw [(C119_formula tp m 1.3 0.6 (by norm_num; linarith) (by norm_num) (by norm_num)).2.1 hw.1.ne] at h2
  have e2 : _ = x := num_injective (Except.ok.inj h2)
  linarith [hw.2]

/-- C119, what holds: the high band is positive for any mass, the low band for an optical mass of at most 38 (the largest
published one); exponents 0.6 to 2.5. -/
theorem C119_positive_partial (tp m a b : ℝ) (hm : 0 ≤ m) (a0 : 0.6 ≤ a) (a1 : a ≤ 2.5) (b0 : 0 ≤ b) :
    (∃ x, get_effective_aerosol_wavelength (mathB tp) "high-frequency" (num m) (num a) (num b) (logBound tp)
      = .ok (num x) ∧ 0 < x) ∧
    (m ≤ 38 → b ≤ 1.1 →
      ∃ x, get_effective_aerosol_wavelength (mathB tp) "low-frequency" (num m) (num a) (num b) (logBound tp)
        = .ok (num x) ∧ 0 < x) := by
  have hmb := mul_nonneg hm b0
  obtain ⟨f1, f2, -⟩ := C119_formula tp m a b hmb (by norm_num at a0; linarith) a1
  have hu : 0 ≤ log (1 + m * b) := log_nonneg (by linarith)
  norm_num at a0 a1
  refine ⟨⟨_, f1, ?_⟩, fun hm1 hb1 => ?_⟩
  · have hp : 0 ≤ (a - 0.6) * (2.5 - a) := mul_nonneg (by norm_num; linarith) (by norm_num; linarith)
    norm_num at hp
    have c1 : (0 : ℝ) < 1 + 0.6418 * a := by norm_num; linarith
    have c2 : (0 : ℝ) < 1 - 0.11651 * a := by norm_num; linarith
    have c3 : (0 : ℝ) < 1 - 0.90454 * a + 0.26167 * a ^ 2 := by norm_num; nlinarith [sq_nonneg (a - 1.7)]
    have d0 : (0.51 : ℝ) ≤ 0.57664 - 0.024743 * a := by norm_num; linarith
    have d1 : (-0.0063 : ℝ) ≤ (0.093942 - 0.2269 * a + 0.12848 * a ^ 2) / (1 + 0.6418 * a) := by
      rw [le_div_iff₀ c1]
      norm_num
      nlinarith [sq_nonneg (a - 0.87)]
    have d2 : (0.01 : ℝ) ≤ (-0.093819 + 0.36668 * a - 0.12775 * a ^ 2) / (1 - 0.11651 * a) := by
      rw [le_div_iff₀ c2]
      norm_num
      nlinarith
    have d3 : 0 ≤ a * (0.15232 - 0.087214 * a + 0.012664 * a ^ 2) / (1 - 0.90454 * a + 0.26167 * a ^ 2) := by
      apply div_nonneg (mul_nonneg (by linarith) _) c3.le
      norm_num
      nlinarith [sq_nonneg (a - 3.4)]
    have k1 := mul_le_mul_of_nonneg_right d1 hu
    have k2 := mul_le_mul_of_nonneg_right d2 (sq_nonneg (log (1 + m * b)))
    refine div_pos ?_ (by positivity)
    generalize log (1 + m * b) = u at *
    norm_num at d0 k1 k2 ⊢
    nlinarith [sq_nonneg (u - 0.3)]
  · have hmb1 : m * b ≤ 38 * 1.1 := mul_le_mul hm1 hb1 b0 (by norm_num)
    have hu1 : log (1 + m * b) ≤ 3.77 := by
      rw [log_le_iff_le_exp (by linarith)]
      have h1 : (42.8 : ℝ) ^ 25 ≤ exp 3.77 ^ 25 := by
        refine le_trans ?_ (pow_le_pow_left₀ (exp_pos _).le (exp_le_exp.mpr (show (3.76 : ℝ) ≤ 3.77 by norm_num)) 25)
        rw [← exp_nat_mul, show ((25 : ℕ) : ℝ) * 3.76 = ((94 : ℕ) : ℝ) * 1 by norm_num, exp_nat_mul]
        exact le_trans (by norm_num) (pow_le_pow_left₀ (by norm_num) exp_one_gt_d9.le 94)
      have h2 := le_of_pow_le_pow_left₀ (by norm_num) (exp_pos _).le h1
      norm_num at h2 hmb1 ⊢
      linarith
    have c0 : (0 : ℝ) < 1 + 0.11133 * a := by norm_num; linarith
    have c1 : (0 : ℝ) < 1 + 1.6756 * a := by norm_num; linarith
    have c2 : (0 : ℝ) < 1 + 11.168 * a := by norm_num; linarith
    have c3 : (0 : ℝ) < 1 + 4.7665 * a := by norm_num; linarith
    have e2 : 0 ≤ (-0.50001 + 1.1414 * a + 0.0083589 * a ^ 2) / (1 + 11.168 * a) := by
      apply div_nonneg _ c2.le
      norm_num
      nlinarith
    have e3 : -0.2478 ≤ Rest2.wavelength2e3 a := by
      unfold Rest2.wavelength2e3
      rw [le_div_iff₀ c3]
      norm_num
      nlinarith
    have k2 := mul_nonneg e2 (sq_nonneg (log (1 + m * b)))
    have k3 := mul_le_mul_of_nonneg_right e3 hu
    have hd : 0 < 1 + Rest2.wavelength2e3 a * log (1 + m * b) := by
      norm_num at k3 hu1
      linarith
    refine ⟨_, f2 hd.ne', div_pos ?_ hd⟩
    rcases le_total a 1 with h | h
    · have e0 : (1.03 : ℝ) ≤ (1.183 - 0.022989 * a + 0.020829 * a ^ 2) / (1 + 0.11133 * a) := by
        rw [le_div_iff₀ c0]
        norm_num
        nlinarith
      have e1 : (-0.27 : ℝ) ≤ (-0.50003 - 0.18329 * a + 0.23835 * a ^ 2) / (1 + 1.6756 * a) := by
        rw [le_div_iff₀ c1]
        norm_num
        nlinarith
      have k1 := mul_le_mul_of_nonneg_right e1 hu
      norm_num at e0 k1 k2 hu1 ⊢
      linarith
    · have e0 : (0.9 : ℝ) ≤ (1.183 - 0.022989 * a + 0.020829 * a ^ 2) / (1 + 0.11133 * a) := by
        rw [le_div_iff₀ c0]
        norm_num
        nlinarith [sq_nonneg (a - 2.5)]
      have e1 : (-0.17 : ℝ) ≤ (-0.50003 - 0.18329 * a + 0.23835 * a ^ 2) / (1 + 1.6756 * a) := by
        rw [le_div_iff₀ c1]
        norm_num
        nlinarith
      have k1 := mul_le_mul_of_nonneg_right e1 hu
      norm_num at e0 k1 k2 hu1 ⊢
      linarith

/-! ## C120 -/

/-- The optical masses the code computes for a sun at altitude `alt` (C80). -/
noncomputable def massR (alt : ℝ) : ℝ := codeMass 0.48353 0.095846 96.741 1.754 (rad (90 - alt))
noncomputable def massO (alt : ℝ) : ℝ := codeMass 1.0651 0.6379 101.8 2.2694 (rad (90 - alt))
noncomputable def massW (alt : ℝ) : ℝ := codeMass 0.10648 0.11423 93.781 1.9203 (rad (90 - alt))
noncomputable def massA (alt : ℝ) : ℝ := codeMass 0.16851 0.18198 95.318 1.9542 (rad (90 - alt))

theorem masses_large {alt : ℝ} (h0 : 0 ≤ alt) (h1 : alt ≤ 90) :
    900 < massR alt ∧ 900 < massO alt ∧ 900 < massW alt ∧ 900 < massA alt := by
  obtain ⟨z0, z1⟩ := zenith_rad h0 h1
  refine ⟨?_, ?_, ?_, ?_⟩
  all_goals
    exact codeMass_large z0 z1 (by norm_num) (by norm_num) (by norm_num) (by norm_num) (by norm_num)
      (mass_denominator h0 h1 (by norm_num))

/-- The Rayleigh transmittance of the low band for the large masses that the code computes. -/
theorem rayleigh_low (tp : ℝ) {m : ℝ} (h : 100 ≤ m) :
    get_rayleigh_transmittance (mathB tp) "low-frequency" (num m) = .ok (num (Rest2.rayleigh2 m)) := by
  simp only [get_rayleigh_transmittance, low_ne_high, if_false, m_sci, m_one, m_pow, m_mul, m_sub]
  exact m_div _ (by norm_num; nlinarith)

theorem rayleigh_high (tp : ℝ) {m : ℝ} (h : 0 ≤ m) :
    get_rayleigh_transmittance (mathB tp) "high-frequency" (num m) = .ok (num (Rest2.rayleigh1 m)) := by
  simp only [get_rayleigh_transmittance, if_true, m_sci, m_one, m_pow, m_mul, m_add]
  exact m_div _ (by positivity)

/-- C120: the direct irradiance of a band is the extraterrestrial irradiance of the band times the transmittances, taken
at the masses the code computes; the pressure enters twice. Pressure at least 400 millibars. In the low band this needs a
positive wavelength; with a negative one and an exponent that is not an integer the power is complex and the call fails. -/
theorem C120_formula_partial (tp alt p oz w a b : ℝ) (n : (mathB tp).α) (h0 : 0 ≤ alt) (h1 : alt ≤ 90) (hp : 400 ≤ p)
    (o0 : 0 ≤ oz) (o1 : oz ≤ 1.9) (w0 : 0 ≤ w) (a0 : 0.6 ≤ a) (a1 : a ≤ 2.5) (b0 : 0 ≤ b) :
    let m := (p / 1013.25) ^ 2 * massR alt
    let u := log (1 + massA alt * b)
    get_direct_normal_irradiance_by_band (mathB tp) "high-frequency" (num alt) (num p) (num oz) n (num w) (num a) (num b)
        (logBound tp)
      = .ok (num (635.4 * Rest2.rayleigh1 m * Rest2.gas1 m * Rest2.ozone1 oz (massO alt)
          * Rest2.nitrogen1 0.0003 (massW alt) * Rest2.water1 w (massW alt)
          * exp (-(massA alt * (b * Rest2.wavelength1 a u ^ (-a)))))) ∧
    (1 + Rest2.wavelength2e3 a * u ≠ 0 → 0 < Rest2.wavelength2 a u →
      get_direct_normal_irradiance_by_band (mathB tp) "low-frequency" (num alt) (num p) (num oz) n (num w) (num a) (num b)
          (logBound tp)
        = .ok (num (709.7 * Rest2.rayleigh2 m * Rest2.gas2 m * Rest2.water2 w (massW alt)
            * exp (-(massA alt * (b * Rest2.wavelength2 a u ^ (-a))))))) ∧
    (1 + Rest2.wavelength2e3 a * u ≠ 0 → Rest2.wavelength2 a u < 0 → (¬ ∃ k : ℤ, (k : ℝ) = -a) →
      get_direct_normal_irradiance_by_band (mathB tp) "low-frequency" (num alt) (num p) (num oz) n (num w) (num a) (num b)
          (logBound tp) = .error .complexResult) := by
  intro m u
  obtain ⟨g1, g2, g3, g4⟩ := C80_optical_masses_partial tp alt p h0 h1
  obtain ⟨l1, l2, l3, l4⟩ := masses_large h0 h1
  have hm : 100 ≤ m := by
    have hq : 0.39 ≤ p / 1013.25 := by rw [le_div_iff₀ (by norm_num)]; norm_num; linarith
    have hq2 : (0.15 : ℝ) ≤ (p / 1013.25) ^ 2 := le_trans (by norm_num) (pow_le_pow_left₀ (by norm_num) hq 2)
    show 100 ≤ (p / 1013.25) ^ 2 * massR alt
    norm_num at hq2 ⊢
    nlinarith
  have hmb : 0 ≤ massA alt * b := mul_nonneg (by linarith) b0
  obtain ⟨f1, f2, -⟩ := C119_formula tp (massA alt) a b hmb (by norm_num at a0; linarith) a1
  change _ = Except.ok (num (Rest2.wavelength1 a u)) at f1
  change 1 + Rest2.wavelength2e3 a * u ≠ 0 → _ = Except.ok (num (Rest2.wavelength2 a u)) at f2
  have hmp : p / 1013.25 * massR alt * p / ((standard_pressure_millibars : ℚ) : ℝ) = m := by
    have hs : ((standard_pressure_millibars : ℚ) : ℝ) = 1013.25 := by
      norm_num [standard_pressure_millibars, Constants.standard_pressure]
    rw [hs]
    show _ = (p / 1013.25) ^ 2 * massR alt
    ring
  change _ = Except.ok (num (p / 1013.25 * massR alt)) at g1
  change _ = Except.ok (num (massO alt)) at g2
  change _ = Except.ok (num (massW alt)) at g3
  change _ = Except.ok (num (massA alt)) at g4
  have lw : 0 ≤ massW alt := by linarith
  have E1 : pyLookup E0n "high-frequency" = .ok 635.4 := rfl
  have E2 : pyLookup E0n "low-frequency" = .ok 709.7 := rfl
  obtain ⟨⟨x, hx, hx0⟩, -⟩ := C119_positive_partial tp (massA alt) a b (by linarith) a0 a1 b0
  have ex : x = Rest2.wavelength1 a u := num_injective (Except.ok.inj (hx.symm.trans f1))
  refine ⟨?_, fun hd hw => ?_, fun hd hw ha => ?_⟩
  · have t0 : 0 ≤ massA alt * (b * Rest2.wavelength1 a u ^ (-a)) :=
      mul_nonneg (by linarith) (mul_nonneg b0 (rpow_nonneg (ex ▸ hx0.le) _))
    simp only [get_direct_normal_irradiance_by_band, g1, g2, g3, g4, ok_bind, m_divq, hmp, f1,
      C79_optical_depth tp b _ a (ex ▸ hx0), (rayleigh_high tp (by linarith : 0 ≤ m)), (C79_gas tp m (by linarith)).1,
      (C79_ozone tp (massO alt) oz (by linarith) o0 o1).1, (C79_nitrogen tp _ lw n).1, (C79_water tp _ w lw w0).1,
      (C79_aerosol tp _ _ t0 "high-frequency").1, E1, m_lit, m_mul, pure_eq_ok]
    have e : ((635.4 : ℚ) : ℝ) = 635.4 := by norm_num
    rw [e]
  · have t0 : 0 ≤ massA alt * (b * Rest2.wavelength2 a u ^ (-a)) :=
      mul_nonneg (by linarith) (mul_nonneg b0 (rpow_nonneg hw.le _))
    simp only [get_direct_normal_irradiance_by_band, g1, g2, g3, g4, ok_bind, m_divq, hmp, f2 hd,
      C79_optical_depth tp b _ a hw, rayleigh_low tp hm, (C79_gas tp m (by linarith)).2,
      (C79_ozone tp (massO alt) oz (by linarith) o0 o1).2, (C79_nitrogen tp _ lw n).2, (C79_water tp _ w lw w0).2,
      (C79_aerosol tp _ _ t0 "low-frequency").1, E2, m_lit, m_mul, pure_eq_ok, mul_one]
    have e : ((709.7 : ℚ) : ℝ) = 709.7 := by norm_num
    rw [e]
  · have hr : (mathB tp).rpow (num (Rest2.wavelength2 a u)) (num (-a)) = .error .complexResult :=
      (if_neg (not_lt.mpr hw.le)).trans ((if_neg hw.ne).trans (if_neg ha))
    simp only [get_direct_normal_irradiance_by_band, g1, g2, g3, g4, ok_bind, f2 hd, get_aerosol_optical_depth, m_neg,
      hr, error_bind]

/-- C120: at the pressures of inhabited places the low-band irradiance is negative whenever it is returned. -/
theorem C120_low_negative_partial (tp alt p oz w a b : ℝ) (n : (mathB tp).α) (h0 : 0 ≤ alt) (h1 : alt ≤ 90) (hp : 750 ≤ p)
    (o0 : 0 ≤ oz) (o1 : oz ≤ 1.9) (w0 : 0 ≤ w) (a0 : 0.6 ≤ a) (a1 : a ≤ 2.5) (b0 : 0 ≤ b)
    (hd : 1 + Rest2.wavelength2e3 a * log (1 + massA alt * b) ≠ 0)
    (hw : 0 < Rest2.wavelength2 a (log (1 + massA alt * b))) :
    ∃ E, get_direct_normal_irradiance_by_band (mathB tp) "low-frequency" (num alt) (num p) (num oz) n (num w) (num a)
      (num b) (logBound tp) = .ok (num E) ∧ E < 0 := by
  refine ⟨_, (C120_formula_partial tp alt p oz w a b n h0 h1 (by linarith) o0 o1 w0 a0 a1 b0).2.1 hd hw, ?_⟩
  obtain ⟨l1, l2, l3, l4⟩ := masses_large h0 h1
  have hm : 450 ≤ (p / 1013.25) ^ 2 * massR alt := by
    have hq : 0.74 ≤ p / 1013.25 := by rw [le_div_iff₀ (by norm_num)]; norm_num; linarith
    have hq2 : (0.54 : ℝ) ≤ (p / 1013.25) ^ 2 := le_trans (by norm_num) (pow_le_pow_left₀ (by norm_num) hq 2)
    norm_num at hq2 ⊢
    nlinarith
  generalize (p / 1013.25) ^ 2 * massR alt = m at *
  have r : 0 < Rest2.rayleigh2 m := by
    unfold Rest2.rayleigh2
    exact div_pos_of_neg_of_neg (by norm_num; linarith) (by norm_num; nlinarith)
  have g : Rest2.gas2 m < 0 := by
    unfold Rest2.gas2
    exact div_neg_of_neg_of_pos (by norm_num; nlinarith) (by positivity)
  obtain ⟨x, hx, x0, -⟩ := C61_water tp "low-frequency" (Or.inr rfl) (massW alt) w (by linarith) w0
  have ex : Rest2.water2 w (massW alt) = x :=
    num_injective (Except.ok.inj ((C79_water tp (massW alt) w (by linarith) w0).2.symm.trans hx))
  rw [ex]
  have k := mul_pos x0 (exp_pos (-(massA alt * (b * Rest2.wavelength2 a (log (1 + massA alt * b)) ^ (-a)))))
  have k2 : 709.7 * Rest2.rayleigh2 m * Rest2.gas2 m < 0 := mul_neg_of_pos_of_neg (by positivity) g
  rw [mul_assoc]
  exact mul_neg_of_neg_of_pos k2 k

/-- The broadband and beam functions add the bands and multiply by the cosine of the zenith angle. -/
theorem C120_sums_partial (tp alt p oz n w a b E1 E2 : ℝ) (g : Globals (mathB tp))
    (h1 : get_direct_normal_irradiance_by_band (mathB tp) "high-frequency" (num alt) (num p) (num oz) (num n) (num w)
      (num a) (num b) g = .ok (num E1))
    (h2 : get_direct_normal_irradiance_by_band (mathB tp) "low-frequency" (num alt) (num p) (num oz) (num n) (num w)
      (num a) (num b) g = .ok (num E2)) :
    get_broadband_direct_normal_irradiance (mathB tp) (num alt) (num p) (num oz) (num n) (num w) (num a) (num b) g
      = .ok (num (E1 + E2)) ∧
    get_beam_broadband_irradiance (mathB tp) (num alt) (num p) (num oz) (num n) (num w) (num a) (num b) g
      = .ok (num ((E1 + E2) * cos (rad (90 - alt)))) ∧
    get_beam_irradiance_by_band (mathB tp) "high-frequency" (num alt) (num p) (num oz) (num n) (num w) (num a) (num b) g
      = .ok (num (E1 * cos (rad (90 - alt)))) ∧
    get_beam_irradiance_by_band (mathB tp) "low-frequency" (num alt) (num p) (num oz) (num n) (num w) (num a) (num b) g
      = .ok (num (E2 * cos (rad (90 - alt)))) := by
  have h90 : ((OfNat.ofNat 90 : ℕ) : ℝ) = 90 := by norm_num
  have hs : get_broadband_direct_normal_irradiance (mathB tp) (num alt) (num p) (num oz) (num n) (num w) (num a) (num b) g
      = .ok (num (E1 + E2)) := by
    simp only [get_broadband_direct_normal_irradiance, h1, h2, ok_bind, m_add, pure_eq_ok]
  refine ⟨hs, ?_, ?_, ?_⟩
  · simp only [get_beam_broadband_irradiance, hs, ok_bind, m_ofNat, h90, m_sub, m_radians, m_cos, m_mul, pure_eq_ok]
  · simp only [get_beam_irradiance_by_band, h1, ok_bind, m_ofNat, h90, m_sub, m_radians, m_cos, m_mul, pure_eq_ok]
  · simp only [get_beam_irradiance_by_band, h2, ok_bind, m_ofNat, h90, m_sub, m_radians, m_cos, m_mul, pure_eq_ok]

theorem massA_overhead : massA 90 ≤ 9100 := by
  have h : massA 90 = (95.318 : ℝ) ^ (1.9542 : ℝ) := by
    rw [massA, codeMass, sub_self, show rad 0 = 0 by simp [rad], zero_rpow (by norm_num), mul_zero, cos_zero, add_zero,
      div_one, sub_zero]
  rw [h]
  refine (rpow_le_rpow_of_exponent_le (by norm_num) (show (1.9542 : ℝ) ≤ ((2 : ℕ) : ℝ) by norm_num)).trans ?_
  rw [rpow_natCast]
  norm_num

theorem log_overhead {m : ℝ} (h0 : 0 ≤ m) (h : m ≤ 9100) : 0 ≤ log (1 + m * 0.6) ∧ log (1 + m * 0.6) ≤ 9.1 := by
  refine ⟨log_nonneg (by norm_num; linarith), ?_⟩
  rw [log_le_iff_le_exp (by norm_num; linarith)]
  have h1 : (2.7182818283 : ℝ) ^ 9 ≤ exp 9.1 := by
    refine (pow_le_pow_left₀ (by norm_num) exp_one_gt_d9.le 9).trans ?_
    rw [← exp_nat_mul]
    exact exp_le_exp.mpr (by norm_num)
  norm_num at h1 ⊢
  linarith

/-- What C120 claims: with the sun overhead and every argument at its default the direct normal irradiance is at least
100 W/m2, and no band is negative. -/
def C120Claim (tp : ℝ) : Prop :=
  (∃ E, get_broadband_direct_normal_irradiance (mathB tp) (num 90) (g := logBound tp) = .ok (num E) ∧ 100 ≤ E) ∧
  (∃ E, get_direct_normal_irradiance_by_band (mathB tp) "low-frequency" (num 90) (g := logBound tp) = .ok (num E) ∧ 0 ≤ E)

theorem defaults_eq (tp : ℝ) (band : String) (x : (mathB tp).α) :
    get_direct_normal_irradiance_by_band (mathB tp) band x (g := logBound tp)
      = get_direct_normal_irradiance_by_band (mathB tp) band x (num 1013.25) (num 0.35) (num 0.0002) (num 5) (num 1.3)
        (num 0.6) (logBound tp) := by
  have h : (mathB tp).lit standard_pressure_millibars = num 1013.25 := by
    rw [m_lit]
    norm_num [standard_pressure_millibars, Constants.standard_pressure]
  rw [h, m_sci, m_sci, m_sci, m_sci, m_sci]
  norm_num

/-- C120 is false: overhead, with the defaults, the low band is negative. -/
theorem C120_refuted (tp : ℝ) : ¬ C120Claim tp := by
  rintro ⟨-, E, h, h0⟩
  obtain ⟨l1, l2, l3, l4⟩ := masses_large (alt := 90) (by norm_num) le_rfl
  obtain ⟨u0, u1⟩ := log_overhead (by linarith) massA_overhead
  obtain ⟨d, w⟩ := (wavelength2_default _).2 u0 u1
  obtain ⟨E', h', k⟩ := C120_low_negative_partial tp 90 1013.25 0.35 5 1.3 0.6 (num 0.0002) (by norm_num) le_rfl
    (by norm_num) (by norm_num) (by norm_num) (by norm_num) (by norm_num) (by norm_num) (by norm_num) d.ne' w
  rw [defaults_eq, h'] at h
  have e : E' = E := num_injective (Except.ok.inj h)
  linarith

theorem massO_overhead : massO 90 ≤ 1100000 := by
  have h : massO 90 = (101.8 : ℝ) ^ (2.2694 : ℝ) := by
    rw [massO, codeMass, sub_self, show rad 0 = 0 by simp [rad], zero_rpow (by norm_num), mul_zero, cos_zero, add_zero,
      div_one, sub_zero]
  rw [h]
  refine (rpow_le_rpow_of_exponent_le (by norm_num) (show (2.2694 : ℝ) ≤ ((3 : ℕ) : ℝ) by norm_num)).trans ?_
  rw [rpow_natCast]
  norm_num

theorem massW_overhead : massW 90 ≤ 1100000 := by
  have h : massW 90 = (93.781 : ℝ) ^ (1.9203 : ℝ) := by
    rw [massW, codeMass, sub_self, show rad 0 = 0 by simp [rad], zero_rpow (by norm_num), mul_zero, cos_zero, add_zero,
      div_one, sub_zero]
  rw [h]
  refine (rpow_le_rpow_of_exponent_le (by norm_num) (show (1.9203 : ℝ) ≤ ((2 : ℕ) : ℝ) by norm_num)).trans ?_
  rw [rpow_natCast]
  norm_num

theorem ozone_size {m : ℝ} (h0 : 0 ≤ m) (h1 : m ≤ 1100000) : |Rest2.ozone1 0.35 m| ≤ 10 ^ 14 := by
  unfold Rest2.ozone1
  have hm : m ^ 2 ≤ 1100000 ^ 2 := pow_le_pow_left₀ h0 h1 2
  norm_num at hm ⊢
  rw [abs_div, div_le_iff₀ (abs_pos.mpr (by positivity)), abs_of_pos (a := 1 + _ * m) (by positivity), abs_le]
  have := sq_nonneg m
  constructor <;> nlinarith

theorem nitrogen_size {m : ℝ} (h0 : 0 ≤ m) (h1 : m ≤ 1100000) : |Rest2.nitrogen1 0.0003 m| ≤ 10 ^ 14 := by
  unfold Rest2.nitrogen1
  have hm : m ^ 2 ≤ 1100000 ^ 2 := pow_le_pow_left₀ h0 h1 2
  rw [abs_le]
  refine ⟨le_min (by norm_num) ?_, (min_le_left _ _).trans (by norm_num)⟩
  norm_num at hm ⊢
  rw [le_div_iff₀ (by positivity)]
  have := sq_nonneg m
  nlinarith

/-- Overhead, with the defaults, less than 1 W/m2 is returned. -/
theorem C120_overhead_partial (tp : ℝ) :
    ∃ E, get_broadband_direct_normal_irradiance (mathB tp) (num 90) (g := logBound tp) = .ok (num E) ∧ E < 1 := by
  obtain ⟨l1, l2, l3, l4⟩ := masses_large (alt := 90) (by norm_num) le_rfl
  obtain ⟨u0, u1⟩ := log_overhead (by linarith) massA_overhead
  obtain ⟨d, w⟩ := (wavelength2_default _).2 u0 u1
  obtain ⟨E2, h2, k⟩ := C120_low_negative_partial tp 90 1013.25 0.35 5 1.3 0.6 (num 0.0002) (by norm_num) le_rfl
    (by norm_num) (by norm_num) (by norm_num) (by norm_num) (by norm_num) (by norm_num) (by norm_num) d.ne' w
  have h1 := (C120_formula_partial tp 90 1013.25 0.35 5 1.3 0.6 (num 0.0002) (by norm_num) le_rfl (by norm_num)
    (by norm_num) (by norm_num) (by norm_num) (by norm_num) (by norm_num) (by norm_num)).1
  have hs := (C120_sums_partial tp 90 1013.25 0.35 0.0002 5 1.3 0.6 _ E2 (logBound tp) h1 h2).1
  have hb : get_broadband_direct_normal_irradiance (mathB tp) (num 90) (g := logBound tp)
      = get_broadband_direct_normal_irradiance (mathB tp) (num 90) (num 1013.25) (num 0.35) (num 0.0002) (num 5) (num 1.3)
        (num 0.6) (logBound tp) := by
    have h : (mathB tp).lit standard_pressure_millibars = num 1013.25 := by
      rw [m_lit]
      norm_num [standard_pressure_millibars, Constants.standard_pressure]
    rw [h, m_sci, m_sci, m_sci, m_sci, m_sci]
    norm_num
  refine ⟨_, hb.trans hs, ?_⟩
  suffices H : |635.4 * Rest2.rayleigh1 ((1013.25 / 1013.25) ^ 2 * massR 90) * Rest2.gas1 ((1013.25 / 1013.25) ^ 2 * massR 90)
      * Rest2.ozone1 0.35 (massO 90) * Rest2.nitrogen1 0.0003 (massW 90) * Rest2.water1 5 (massW 90)
      * exp (-(massA 90 * (0.6 * Rest2.wavelength1 1.3 (log (1 + massA 90 * 0.6)) ^ (-1.3 : ℝ))))| < 1 by
    linarith [(abs_lt.mp H).2]
  rw [div_self (by norm_num), one_pow, one_mul]
  have t1 : |Rest2.rayleigh1 (massR 90)| ≤ 1 := by
    unfold Rest2.rayleigh1
    rw [abs_of_pos (by positivity), div_le_one (by positivity)]
    norm_num
    nlinarith
  have t2 : |Rest2.gas1 (massR 90)| ≤ 1 := by
    unfold Rest2.gas1
    rw [abs_of_pos (by positivity), div_le_one (by positivity)]
    norm_num
    nlinarith
  have t3 := ozone_size (by linarith) massO_overhead
  have t4 := nitrogen_size (by linarith) massW_overhead
  have t5 : |Rest2.water1 5 (massW 90)| ≤ 1 := by
    unfold Rest2.water1
    norm_num
    rw [abs_of_pos (by positivity), div_le_one (by positivity)]
    linarith
  have t6 : |exp (-(massA 90 * (0.6 * Rest2.wavelength1 1.3 (log (1 + massA 90 * 0.6)) ^ (-1.3 : ℝ))))| ≤ 1 / 10 ^ 40 := by
    obtain ⟨⟨x, hx, hx0⟩, -⟩ := C119_positive_partial tp (massA 90) 1.3 0.6 (by linarith) (by norm_num) (by norm_num)
      (by norm_num)
    have ex := num_injective (Except.ok.inj (hx.symm.trans
      (C119_formula tp (massA 90) 1.3 0.6 (by norm_num; linarith) (by norm_num) (by norm_num)).1))
    rw [ex] at hx0
    have lam : Rest2.wavelength1 1.3 (log (1 + massA 90 * 0.6)) ≤ 1 := by
      unfold Rest2.wavelength1
      generalize log (1 + massA 90 * 0.6) = u at *
      norm_num
      rw [div_le_one (by positivity)]
      nlinarith [sq_nonneg (u - 1)]
    have hp : 1 ≤ Rest2.wavelength1 1.3 (log (1 + massA 90 * 0.6)) ^ (-1.3 : ℝ) :=
      one_le_rpow_of_pos_of_le_one_of_nonpos hx0 lam (by norm_num)
    rw [abs_of_pos (exp_pos _)]
    have : exp (-(massA 90 * (0.6 * Rest2.wavelength1 1.3 (log (1 + massA 90 * 0.6)) ^ (-1.3 : ℝ)))) ≤ exp (-100) := by
      apply exp_le_exp.mpr
      norm_num at hp ⊢
      nlinarith
    refine this.trans ?_
    rw [exp_neg, inv_eq_one_div]
    apply one_div_le_one_div_of_le (by positivity)
    rw [show (100 : ℝ) = ((100 : ℕ) : ℝ) * 1 by norm_num, exp_nat_mul]
    exact le_trans (by norm_num) (pow_le_pow_left₀ (by norm_num) exp_one_gt_d9.le 100)
  simp only [abs_mul]
  have p0 : |(635.4 : ℝ)| ≤ 635.4 := by norm_num
  have p1 : |635.4| * |Rest2.rayleigh1 (massR 90)| * |Rest2.gas1 (massR 90)| * |Rest2.ozone1 0.35 (massO 90)| * |Rest2.nitrogen1 0.0003 (massW 90)|
      * |Rest2.water1 5 (massW 90)| * |exp (-(massA 90 * (0.6 * Rest2.wavelength1 1.3 (log (1 + massA 90 * 0.6)) ^ (-1.3 : ℝ))))|
      ≤ 635.4 * 1 * 1 * 10 ^ 14 * 10 ^ 14 * 1 * (1 / 10 ^ 40) := by
    gcongr
  exact p1.trans_lt (by norm_num)

/-- With the sun on the horizon and the defaults the computation fails on a complex power. -/
theorem C120_horizon_partial (tp : ℝ) :
    get_direct_normal_irradiance_by_band (mathB tp) "low-frequency" (num 0) (g := logBound tp) = .error .complexResult := by
  have hm : 26000 < massA 0 := horizon_mass
  have hw := (wavelength2_default _).1 (log_lower (x := 1 + massA 0 * 0.6) (by norm_num; linarith))
  rw [defaults_eq]
  refine (C120_formula_partial tp 0 1013.25 0.35 5 1.3 0.6 (num 0.0002) le_rfl (by norm_num) (by norm_num) (by norm_num)
    (by norm_num) (by norm_num) (by norm_num) (by norm_num) (by norm_num)).2.2 hw.1.ne hw.2 ?_
  rintro ⟨k, hk⟩
  have h1 : (10 * k : ℤ) = -13 := by
    have : (10 * (k : ℝ)) = -13 := by rw [hk]; norm_num
    exact_mod_cast this
  omega

end Verif.Props
