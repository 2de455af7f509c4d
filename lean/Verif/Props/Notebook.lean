import Verif.Model.Notebook
import Verif.Props.RestLog

/-!
# C144 the validation notebook

Once a program has bound `numeric.log`, the notebook plots aerosol masses of at least 900, where the published ones are
between 1 and 40, and effective wavelengths that grow with the mass.
-/

namespace Verif.Props

open Verif.Spec Pysolar Pysolar.Rest Pysolar.Notebook Real

/-- What C144 claims: the cells of the notebook run. -/
def C144Claim (B : Backend) : Prop :=
  (∃ l, aerosol_mass_plot B = .ok l) ∧ (∃ l, wavelength_plot B "high-frequency" = .ok l) ∧
    ∃ l, wavelength_plot B "low-frequency" = .ok l

/-- C144 is false, with math and with numpy: each of the three cells raises an exception, the last two
`AttributeError`. -/
theorem C144_refuted (B : Backend) : ¬ C144Claim B ∧ (∀ l, aerosol_mass_plot B ≠ .ok l) ∧
    ∀ band, wavelength_plot B band = .error .attributeError := by
  have h1 : ∀ l, aerosol_mass_plot B ≠ .ok l := by
    intro l
    unfold aerosol_mass_plot
    cases h : get_broadband_direct_normal_irradiance B 45.0 with
    | error e => exact nofun
    | ok y => exact absurd h (C62_direct_broadband B _ _ _ _ _ _ _ _)
  exact ⟨fun h => h1 _ h.1.choose_spec, h1, fun band => rfl⟩

/-- With math the first of the three raises `AttributeError` too. -/
theorem C144_attribute_error (tp : ℝ) : aerosol_mass_plot (mathB tp) = .error .attributeError := by
  have h45 : (45.0 : (mathB tp).α) = num 45 := by rw [m_sci]; norm_num
  have hp : (mathB tp).lit standard_pressure_millibars = num 1013.25 := by
    rw [m_lit]
    norm_num [standard_pressure_millibars, Constants.standard_pressure]
  unfold aerosol_mass_plot
  rw [h45, hp, (C62_exceptions_partial tp 45 1013.25 (by norm_num) (by norm_num) (by norm_num) "" _ _ _ _ _).2.1]
  rfl

theorem mapM_ok {α β : Type} {f : α → Py β} {g : α → β} (l : List α) (h : ∀ x ∈ l, f x = .ok (g x)) :
    l.mapM f = .ok (l.map g) := by
  induction l with
  | nil => rfl
  | cons a l ih =>
    rw [List.mapM_cons, h a List.mem_cons_self, ok_bind, ih fun x hx => h x (List.mem_cons_of_mem _ hx)]
    rfl

theorem linspace_mass : linspace 1 15 15 = (List.range 15).map fun k : ℕ => (1 + k : ℚ) := by
  unfold linspace
  refine List.map_congr_left fun k _ => ?_
  norm_num

/-- The two wavelength formulas grow with `u` at the exponent 1.3. -/
theorem wavelengths_grow {u v : ℝ} (h0 : 0 ≤ u) (h : u < v) (h1 : v ≤ 2.4) :
    Rest2.wavelength1 1.3 u < Rest2.wavelength1 1.3 v ∧ Rest2.wavelength2 1.3 u < Rest2.wavelength2 1.3 v := by
  norm_num at h1
  have hv : 0 < v := by linarith
  constructor
  · obtain ⟨d0, e0⟩ : ∃ d, d = (0.57664 - 0.024743 * 1.3 : ℝ) := ⟨_, rfl⟩
    obtain ⟨d1, e1⟩ : ∃ d, d = ((0.093942 - 0.2269 * 1.3 + 0.12848 * 1.3 ^ 2) / (1 + 0.6418 * 1.3) : ℝ) := ⟨_, rfl⟩
    obtain ⟨d2, e2⟩ : ∃ d, d = ((-0.093819 + 0.36668 * 1.3 - 0.12775 * 1.3 ^ 2) / (1 - 0.11651 * 1.3) : ℝ) := ⟨_, rfl⟩
    obtain ⟨d3, e3⟩ : ∃ d, d = (1.3 * (0.15232 - 0.087214 * 1.3 + 0.012664 * 1.3 ^ 2) / (1 - 0.90454 * 1.3 + 0.26167 * 1.3 ^ 2) : ℝ) := ⟨_, rfl⟩
    have k1 : 0.008 ≤ d1 ∧ d1 ≤ 0.009 := by rw [e1]; norm_num
    have k2 : 0.036 ≤ d2 - d0 * d3 := by rw [e2, e0, e3]; norm_num
    have k3 : 0.29 ≤ d3 ∧ d3 ≤ 0.3 := by rw [e3]; norm_num
    have e : ∀ u, Rest2.wavelength1 1.3 u = (d0 + d1 * u + d2 * u ^ 2) / (1 + d3 * u ^ 2) := by
      intro u
      rw [e0, e1, e2, e3]
      rfl
    rw [e, e]
    clear e e0 e1 e2 e3
    norm_num at k1 k2 k3
    have p3 : 0 < d3 := by linarith
    rw [div_lt_div_iff₀ (by positivity) (by positivity)]
    have huv : u * v ≤ 2.4 * v := by norm_num; nlinarith
    have q : 0 < d1 * (1 - d3 * (u * v)) + (d2 - d0 * d3) * (u + v) := by
      have q1 : d1 * d3 ≤ 0.0027 := by norm_num; nlinarith
      have q2 : d1 * d3 * (u * v) ≤ 0.0027 * (2.4 * v) :=
        mul_le_mul q1 huv (by positivity) (by norm_num)
      have q3 : 0.036 * (u + v) ≤ (d2 - d0 * d3) * (u + v) := mul_le_mul_of_nonneg_right (by norm_num; linarith) (by linarith)
      norm_num at q2 q3
      nlinarith
    nlinarith [mul_pos (sub_pos.mpr h) q]
  · obtain ⟨f0, e0⟩ : ∃ d, d = ((1.183 - 0.022989 * 1.3 + 0.020829 * 1.3 ^ 2) / (1 + 0.11133 * 1.3) : ℝ) := ⟨_, rfl⟩
    obtain ⟨f1, e1⟩ : ∃ d, d = ((-0.50003 - 0.18329 * 1.3 + 0.23835 * 1.3 ^ 2) / (1 + 1.6756 * 1.3) : ℝ) := ⟨_, rfl⟩
    obtain ⟨f2, e2⟩ : ∃ d, d = ((-0.50001 + 1.1414 * 1.3 + 0.0083589 * 1.3 ^ 2) / (1 + 11.168 * 1.3) : ℝ) := ⟨_, rfl⟩
    obtain ⟨f3, e3⟩ : ∃ d, d = Rest2.wavelength2e3 1.3 := ⟨_, rfl⟩
    have k3 : -0.11 ≤ f3 ∧ f3 ≤ -0.1 := by rw [e3]; unfold Rest2.wavelength2e3; norm_num
    have k1 : 0 ≤ f1 - f0 * f3 := by rw [e1, e0, e3]; unfold Rest2.wavelength2e3; norm_num
    have k2 : 0 < f2 := by rw [e2]; norm_num
    have e : ∀ u, Rest2.wavelength2 1.3 u = (f0 + f1 * u + f2 * u ^ 2) / (1 + f3 * u) := by
      intro u
      rw [e0, e1, e2, e3]
      rfl
    rw [e, e]
    clear e e0 e1 e2 e3
    norm_num at k3
    rw [div_lt_div_iff₀ (by nlinarith) (by nlinarith)]
    have huv : u * v ≤ 2.4 * v := by norm_num; nlinarith
    have q1 : 0 < u + v + f3 * (u * v) := by
      have : -0.11 * (u * v) ≤ f3 * (u * v) := mul_le_mul_of_nonneg_right (by norm_num; linarith) (by positivity)
      norm_num at this huv
      linarith
    have q : 0 < (f1 - f0 * f3) + f2 * (u + v + f3 * (u * v)) := by
      have := mul_pos k2 q1
      linarith
    nlinarith [mul_pos (sub_pos.mpr h) q]

theorem log_mass {m : ℝ} (h0 : 1 ≤ m) (h1 : m ≤ 15) : 0 ≤ log (1 + m * 0.6) ∧ log (1 + m * 0.6) < 2.4 := by
  refine ⟨log_nonneg (by norm_num; linarith), ?_⟩
  rw [log_lt_iff_lt_exp (by norm_num; linarith)]
  have h2 : (10.5 : ℝ) ^ 5 ≤ exp 2.4 ^ 5 := by
    rw [← exp_nat_mul, show ((5 : ℕ) : ℝ) * 2.4 = ((12 : ℕ) : ℝ) * 1 by norm_num, exp_nat_mul]
    exact le_trans (by norm_num) (pow_le_pow_left₀ (by norm_num) exp_one_gt_d9.le 12)
  have h3 := le_of_pow_le_pow_left₀ (by norm_num) (exp_pos _).le h2
  norm_num at h3 ⊢
  linarith

/-- C144, what holds: with `numeric.log` bound the notebook plots wavelengths that grow with the mass, from 0.54 to 0.64
micrometres in the high band and from 1.03 to 1.57 in the low band. -/
theorem C144_wavelengths_partial (tp : ℝ) : ∃ w1 w2 : ℕ → ℝ,
    wavelength_plot (mathB tp) "high-frequency" (logBound tp) = .ok ((List.range 15).map fun k => num (w1 k)) ∧
    wavelength_plot (mathB tp) "low-frequency" (logBound tp) = .ok ((List.range 15).map fun k => num (w2 k)) ∧
    (∀ k < 15, 0.54 < w1 k ∧ w1 k < 0.64 ∧ 1.03 < w2 k ∧ w2 k < 1.57) ∧
    ∀ k l, k < l → l < 15 → w1 k < w1 l ∧ w2 k < w2 l := by
  have hr : ∀ k : ℕ, k < 15 → 0 ≤ log (1 + (1 + (k : ℝ)) * 0.6) ∧ log (1 + (1 + (k : ℝ)) * 0.6) < 2.4 := by
    intro k hk
    have : (k : ℝ) ≤ 14 := by exact_mod_cast Nat.le_of_lt_succ hk
    have h0 : (0 : ℝ) ≤ k := k.cast_nonneg
    exact log_mass (by linarith) (by linarith)
  refine ⟨fun k => Rest2.wavelength1 1.3 (log (1 + (1 + (k : ℝ)) * 0.6)),
    fun k => Rest2.wavelength2 1.3 (log (1 + (1 + (k : ℝ)) * 0.6)), ?_, ?_, fun k hk => ?_, fun k l hkl hl => ?_⟩
  · unfold wavelength_plot
    rw [linspace_mass, List.mapM_map]
    refine mapM_ok _ fun k hk => ?_
    have h0 : (0 : ℝ) ≤ k := k.cast_nonneg
    simp only [Function.comp_apply, m_lit, m_sci]
    push_cast
    exact (C119_formula tp (1 + k) 1.3 0.6 (by positivity) (by norm_num) (by norm_num)).1
  · unfold wavelength_plot
    rw [linspace_mass, List.mapM_map]
    refine mapM_ok _ fun k hk => ?_
    have h0 : (0 : ℝ) ≤ k := k.cast_nonneg
    obtain ⟨u0, u1⟩ := hr k (List.mem_range.mp hk)
    simp only [Function.comp_apply, m_lit, m_sci]
    push_cast
    refine (C119_formula tp (1 + k) 1.3 0.6 (by positivity) (by norm_num) (by norm_num)).2.1 ?_
    exact ((wavelength2_default _).2 u0 (by norm_num at u1 ⊢; linarith)).1.ne'
  · obtain ⟨u0, u1⟩ := hr k hk
    obtain ⟨g1, g2⟩ := wavelengths_grow u0 u1 le_rfl
    have a1 : 0.54 < Rest2.wavelength1 1.3 0 := by norm_num [Rest2.wavelength1]
    have a2 : 1.03 < Rest2.wavelength2 1.3 0 := by norm_num [Rest2.wavelength2]
    have b1 : Rest2.wavelength1 1.3 2.4 < 0.64 := by norm_num [Rest2.wavelength1]
    have b2 : Rest2.wavelength2 1.3 2.4 < 1.57 := by norm_num [Rest2.wavelength2, Rest2.wavelength2e3]
    have lo : Rest2.wavelength1 1.3 0 ≤ Rest2.wavelength1 1.3 (log (1 + (1 + (k : ℝ)) * 0.6)) ∧
        Rest2.wavelength2 1.3 0 ≤ Rest2.wavelength2 1.3 (log (1 + (1 + (k : ℝ)) * 0.6)) := by
      rcases u0.eq_or_lt with e | e
      · rw [← e]
        exact ⟨le_rfl, le_rfl⟩
      · exact ⟨(wavelengths_grow le_rfl e u1.le).1.le, (wavelengths_grow le_rfl e u1.le).2.le⟩
    exact ⟨a1.trans_le lo.1, g1.trans b1, a2.trans_le lo.2, g2.trans b2⟩
  · have hk : (k : ℝ) < l := by exact_mod_cast hkl
    have h0 : (0 : ℝ) ≤ k := k.cast_nonneg
    exact wavelengths_grow (hr k (hkl.trans hl)).1 (log_lt_log (by norm_num; positivity) (by norm_num; linarith)) (hr l hl).2.le

/-- C144: with `numeric.log` bound the cell that plots the aerosol mass runs too, and every mass it plots is greater
than 900, where the published ones are between 1 and 40. -/
theorem C144_masses_partial (tp : ℝ) : ∃ m : ℕ → ℝ,
    aerosol_mass_plot (mathB tp) (logBound tp) = .ok ((List.range 90).map fun k => num (m k)) ∧ ∀ k < 90, 900 < m k := by
  have h45 : (45.0 : (mathB tp).α) = num 45 := by rw [m_sci]; norm_num
  obtain ⟨l1, l2, l3, l4⟩ := masses_large (alt := 45) (by norm_num) (by norm_num)
  have hA : massA 45 ≤ 13000 := by
    have z : rad (90 - 45) = π / 4 := by unfold rad; ring
    have p1 := pi_gt_three
    have p2 := pi_lt_d2
    unfold massA codeMass
    rw [z, cos_pi_div_four]
    have s2 : (1.4 : ℝ) ≤ √2 := by
      refine le_sqrt_of_sq_le ?_
      norm_num
    have e1 : (95.318 - π / 4) ^ (1.9542 : ℝ) ≤ 9100 := by
      refine (rpow_le_rpow (by norm_num at p2 ⊢; linarith) (show 95.318 - π / 4 ≤ 95.318 by linarith) (by norm_num)).trans ?_
      refine (rpow_le_rpow_of_exponent_le (by norm_num) (show (1.9542 : ℝ) ≤ ((2 : ℕ) : ℝ) by norm_num)).trans ?_
      rw [rpow_natCast]
      norm_num
    have e2 : 0 ≤ (π / 4) ^ (0.18198 : ℝ) := rpow_nonneg (by positivity) _
    rw [div_le_iff₀ (by positivity)]
    norm_num at s2 e1 e2 ⊢
    linarith
  have hu : 0 ≤ log (1 + massA 45 * 0.6) ∧ log (1 + massA 45 * 0.6) ≤ 9.1 := by
    refine ⟨log_nonneg (by norm_num; linarith), ?_⟩
    rw [log_le_iff_le_exp (by norm_num; linarith)]
    have h1 : (2.7182818283 : ℝ) ^ 9 ≤ exp 9.1 := by
      refine (pow_le_pow_left₀ (by norm_num) exp_one_gt_d9.le 9).trans ?_
      rw [← exp_nat_mul]
      exact exp_le_exp.mpr (by norm_num)
    norm_num at h1 ⊢
    linarith
  obtain ⟨d, w⟩ := (wavelength2_default _).2 hu.1 hu.2
  obtain ⟨f1, f2, -⟩ := C120_formula_partial tp 45 1013.25 0.35 5 1.3 0.6 (num 0.0002) (by norm_num) (by norm_num)
    (by norm_num) (by norm_num) (by norm_num) (by norm_num) (by norm_num) (by norm_num) (by norm_num)
  refine ⟨fun k => massA (90 / 89 * k), ?_, fun k hk => ?_⟩
  · unfold aerosol_mass_plot get_broadband_direct_normal_irradiance
    have b1 := (defaults_eq tp "high-frequency" (num 45)).trans f1
    have b2 := (defaults_eq tp "low-frequency" (num 45)).trans (f2 d.ne' w)
    rw [h45, b1, ok_bind, b2, ok_bind, pure_eq_ok, ok_bind]
    unfold linspace
    rw [List.mapM_map]
    refine mapM_ok _ fun k hk => ?_
    have hk' : (k : ℝ) ≤ 89 := by exact_mod_cast Nat.le_of_lt_succ (List.mem_range.mp hk)
    have h0 : (0 : ℝ) ≤ k := k.cast_nonneg
    rw [Function.comp_apply, m_lit]
    have e : (((0 : ℚ) + k * ((90 - 0) / (((90 : ℕ) : ℚ) - 1)) : ℚ) : ℝ) = 90 / 89 * k := by
      push_cast
      ring
    rw [e]
    exact (C80_optical_masses_partial tp (90 / 89 * k) 0 (by positivity) (by linarith)).2.2.2
  · have hk' : (k : ℝ) ≤ 89 := by exact_mod_cast Nat.le_of_lt_succ hk
    have h0 : (0 : ℝ) ≤ k := k.cast_nonneg
    exact (masses_large (alt := 90 / 89 * k) (by positivity) (by linarith)).2.2.2

end Verif.Props
