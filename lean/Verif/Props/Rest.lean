import Verif.Model.Rest
import Verif.Props.Radiation
import Verif.Props.Switch
import Mathlib.Tactic.Positivity

/-!
# C61, C62, C63: the REST model (rest.py)
-/

namespace Verif.Props

open Verif.Spec Pysolar Pysolar.Rest Real

variable {tp : ℝ}

/-- The two bands. -/
def IsBand (band : String) : Prop := band = "high-frequency" ∨ band = "low-frequency"

/-- A transmittance: a real number in (0, 1]. -/
def IsFraction (r : Py (mathB tp).α) : Prop := ∃ x : ℝ, r = .ok (num x) ∧ 0 < x ∧ x ≤ 1

theorem fraction_div {a b : ℝ} (ha : 0 < a) (h : a ≤ b) :
    IsFraction (tp := tp) ((mathB tp).div (num a) (num b)) := by
  have hb : 0 < b := by linarith
  exact ⟨a / b, m_div _ hb.ne', div_pos ha hb, (div_le_one hb).mpr h⟩

theorem low_ne_high : ("low-frequency" = "high-frequency") = False := by simp

/-! ## C61 -/

/-- C61: Rayleigh transmittance, optical mass at most 94. -/
theorem C61_rayleigh (tp : ℝ) (band : String) (hb : IsBand band) (m : ℝ) (h0 : 0 ≤ m) (h1 : m ≤ 94) :
    IsFraction (get_rayleigh_transmittance (mathB tp) band (num m)) := by
  rcases hb with rfl | rfl
  · simp only [get_rayleigh_transmittance, if_true, m_sci, m_one, m_pow, m_mul, m_add]
    apply fraction_div
    · positivity
    · norm_num
      nlinarith [mul_nonneg h0 h0]
  · simp only [get_rayleigh_transmittance, low_ne_high, if_false, m_sci, m_one, m_pow, m_mul, m_sub]
    apply fraction_div
    · norm_num
      linarith
    · norm_num
      nlinarith

/-- C61: gas transmittance. -/
theorem C61_gas (tp : ℝ) (band : String) (hb : IsBand band) (m : ℝ) (h0 : 0 ≤ m) (h1 : m ≤ 94) :
    IsFraction (get_gas_transmittance (mathB tp) band (num m)) := by
  rcases hb with rfl | rfl
  · simp only [get_gas_transmittance, if_true, m_sci, m_one, m_pow, m_mul, m_add]
    apply fraction_div
    · positivity
    · norm_num
      nlinarith [mul_nonneg h0 h0]
  · simp only [get_gas_transmittance, low_ne_high, if_false, m_sci, m_one, m_pow, m_mul, m_sub, m_add]
    apply fraction_div
    · norm_num
      nlinarith
    · norm_num
      nlinarith [mul_nonneg h0 h0]

/-- C61: nitrogen dioxide transmittance. -/
theorem C61_nitrogen (tp : ℝ) (band : String) (hb : IsBand band) (m : ℝ) (h0 : 0 ≤ m) (h1 : m ≤ 94)
    (nitrogen : (mathB tp).α) :
    IsFraction (get_nitrogen_transmittance (mathB tp) band (num m) nitrogen) := by
  rcases hb with rfl | rfl
  · simp only [get_nitrogen_transmittance, if_true, m_sci, m_lit, m_one, m_pow, m_mul, m_add, m_sub, m_neg, un]
    rw [m_div _ (by norm_num), ok_bind, m_div _ (by norm_num), ok_bind, m_div _ (by norm_num), ok_bind]
    simp only [m_mul, m_add]
    rw [m_div _ (by norm_num; positivity), ok_bind]
    simp only [pyMin, m_lt, m_truth, ok_bind, decide_eq_true_eq]
    split_ifs with hlt
    · refine ⟨_, rfl, ?_, hlt.le⟩
      apply div_pos
      · norm_num
        nlinarith
      · norm_num
        positivity
    · exact ⟨1, rfl, one_pos, le_rfl⟩
  · refine ⟨1, ?_, one_pos, le_rfl⟩
    simp only [get_nitrogen_transmittance, low_ne_high, if_false, m_sci, pure_eq_ok]
    norm_num

/-- C61: water-vapour transmittance, for any non-negative optical mass and amount of water. -/
theorem C61_water (tp : ℝ) (band : String) (hb : IsBand band) (m w : ℝ) (h0 : 0 ≤ m) (hw : 0 ≤ w) :
    IsFraction (get_water_vapor_transmittance (mathB tp) band (num m) (num w)) := by
  have hm2 : 0 ≤ m ^ 2 := sq_nonneg m
  rcases hb with rfl | rfl
  · simp only [get_water_vapor_transmittance, get_water_vapor_transmittance_coefficients, if_true, m_sci, m_one,
      m_mul, m_add]
    have d1 : (0 : ℝ) < 1 + 1.2728 * w := by positivity
    have d2 : (0 : ℝ) < 1 + 1.2008 * w := by positivity
    rw [m_div _ d1.ne', ok_bind, m_div _ d2.ne', ok_bind]
    simp only [pyIndex, pure_eq_ok, ok_bind, List.getElem?_cons_zero, List.getElem?_cons_succ, m_mul, m_add]
    apply fraction_div
    · positivity
    · have : w * (0.065445 + 0.00029901 * w) / (1 + 1.2728 * w) ≤ w * (0.065687 + 0.0013218 * w) / (1 + 1.2008 * w) := by
        apply div_le_div₀ (by positivity) _ d2 (by nlinarith)
        apply mul_le_mul_of_nonneg_left _ hw
        norm_num
        linarith
      have := mul_le_mul_of_nonneg_right this h0
      linarith
  · simp only [get_water_vapor_transmittance, get_water_vapor_transmittance_coefficients, low_ne_high, if_false, m_sci,
      m_one, m_mul, m_add, m_sub, m_pow]
    have d1 : (0 : ℝ) < 1 + 5.4248 * w + 1.6005 * w ^ 2 := by positivity
    have d2 : (0 : ℝ) < 1 + 1.1811 * w + 1.0699 * w ^ 2 := by positivity
    have d3 : (0 : ℝ) < 1 + 4.8318 * w + 1.412 * w ^ 2 := by positivity
    have d4 : (0 : ℝ) < 1 + 0.44907 * w + 0.75425 * w ^ 2 := by positivity
    rw [m_div _ d1.ne', ok_bind, m_div _ d2.ne', ok_bind, m_div _ d3.ne', ok_bind, m_div _ d4.ne', ok_bind]
    simp only [pyIndex, pure_eq_ok, ok_bind, List.getElem?_cons_zero, List.getElem?_cons_succ, m_mul, m_add]
    have w2 : 0 ≤ w ^ 2 := sq_nonneg w
    have w3 : 0 ≤ w ^ 3 := by positivity
    have w4 : 0 ≤ w ^ 4 := by positivity
    have n1 : 0 ≤ w * (19.566 - 1.6506 * w + 1.0672 * w ^ 2) / (1 + 5.4248 * w + 1.6005 * w ^ 2) := by
      apply div_nonneg (mul_nonneg hw _) d1.le
      norm_num
      nlinarith [sq_nonneg (w - 1)]
    have n2 : 0 ≤ w * (0.50158 - 0.14732 * w + 0.047584 * w ^ 2) / (1 + 1.1811 * w + 1.0699 * w ^ 2) := by
      apply div_nonneg (mul_nonneg hw _) d2.le
      norm_num
      nlinarith [sq_nonneg (w - 1.5)]
    have l1 : w * (19.566 - 1.6506 * w + 1.0672 * w ^ 2) / (1 + 5.4248 * w + 1.6005 * w ^ 2)
        ≤ w * (21.286 - 0.39232 * w + 1.2692 * w ^ 2) / (1 + 4.8318 * w + 1.412 * w ^ 2) := by
      rw [mul_div_assoc, mul_div_assoc]
      apply mul_le_mul_of_nonneg_left _ hw
      rw [div_le_div_iff₀ d1 d3]
      norm_num
      nlinarith
    have l2 : w * (0.50158 - 0.14732 * w + 0.047584 * w ^ 2) / (1 + 1.1811 * w + 1.0699 * w ^ 2)
        ≤ w * (0.70992 - 0.23155 * w + 0.096514 * w ^ 2) / (1 + 0.44907 * w + 0.75425 * w ^ 2) := by
      rw [mul_div_assoc, mul_div_assoc]
      apply mul_le_mul_of_nonneg_left _ hw
      rw [div_le_div_iff₀ d2 d4]
      norm_num
      nlinarith [mul_nonneg w2 (sq_nonneg (w - 1))]
    have k1 := mul_le_mul_of_nonneg_right l1 h0
    have k2 := mul_le_mul_of_nonneg_right l2 hm2
    apply fraction_div
    · have := mul_nonneg n1 h0
      have := mul_nonneg n2 hm2
      linarith
    · linarith

theorem exp_fraction {x : ℝ} (h : x ≤ 0) : IsFraction (tp := tp) ((mathB tp).exp (num x)) :=
  ⟨exp x, m_exp (exp_small h), exp_pos x, exp_le_one_iff.mpr h⟩

/-- C61: aerosol transmittance. -/
theorem C61_aerosol (tp : ℝ) (band : String) (m t : ℝ) (h0 : 0 ≤ m) (ht : 0 ≤ t) :
    IsFraction (get_aerosol_transmittance (mathB tp) band (num m) (num t)) := by
  simp only [get_aerosol_transmittance, m_neg, m_mul]
  apply exp_fraction
  nlinarith [mul_nonneg h0 ht]

/-- C61: aerosol scattering transmittance. -/
theorem C61_aerosol_scattering (tp : ℝ) (band : String) (hb : IsBand band) (m t : ℝ) (h0 : 0 ≤ m) (ht : 0 ≤ t) :
    IsFraction (get_aerosol_scattering_transmittance (mathB tp) band (num m) (num t)) := by
  have := mul_nonneg h0 ht
  rcases hb with rfl | rfl
  · have e : pyLookup albedo "high-frequency" = .ok 0.92 := rfl
    simp only [get_aerosol_scattering_transmittance, e, ok_bind, m_lit, m_neg, m_mul]
    apply exp_fraction
    norm_num
    nlinarith
  · have e : pyLookup albedo "low-frequency" = .ok 0.84 := rfl
    simp only [get_aerosol_scattering_transmittance, e, ok_bind, m_lit, m_neg, m_mul]
    apply exp_fraction
    norm_num
    nlinarith

/-- At optical mass 95.5 the low-frequency Rayleigh formula is negative: the range in C61 is needed. -/
theorem C61_rayleigh_range (tp : ℝ) :
    ∃ x, get_rayleigh_transmittance (mathB tp) "low-frequency" (num 95.5) = .ok (num x) ∧ x < 0 := by
  simp only [get_rayleigh_transmittance, low_ne_high, if_false, m_sci, m_one, m_pow, m_mul, m_sub]
  rw [m_div _ (by norm_num)]
  exact ⟨_, rfl, by norm_num⟩

example : IsBand "high-frequency" ∧ IsBand "low-frequency" := ⟨Or.inl rfl, Or.inr rfl⟩
example (tp : ℝ) : get_gas_transmittance (mathB tp) "low-frequency" (num 2) = .ok (num (1.54313204 / 1.60612)) := by
  simp only [get_gas_transmittance, low_ne_high, if_false, m_sci, m_one, m_pow, m_mul, m_sub, m_add]
  rw [m_div _ (by norm_num)]
  congr 2
  norm_num

/-! ## C63 -/

/-- C63: the sky albedo is in (0, 1). -/
theorem C63_sky_albedo (tp : ℝ) (band : String) (hb : IsBand band) (a b : ℝ) (ha0 : 0 ≤ a) (ha1 : a ≤ 2.5)
    (hb0 : 0 ≤ b) :
    ∃ r, get_sky_albedo (mathB tp) band (num a) (num b) = .ok (num r) ∧ 0 < r ∧ r < 1 := by
  norm_num at ha1
  rcases hb with rfl | rfl
  · simp only [get_sky_albedo, if_true, m_sci, m_one, m_mul, m_add, m_sub]
    have d1 : (0 : ℝ) < 1 - 0.10832 * a := by norm_num; linarith
    have d2 : (0 : ℝ) < 1 - 0.08158 * a := by norm_num; linarith
    have q0 : 0 ≤ b * (0.84057 + 0.68683 * a) / (1 - 0.08158 * a) := by positivity
    have p0 : 0 ≤ b * (0.37567 + 0.22946 * a) / (1 - 0.10832 * a) := by positivity
    have pq : b * (0.37567 + 0.22946 * a) / (1 - 0.10832 * a) ≤ b * (0.84057 + 0.68683 * a) / (1 - 0.08158 * a) := by
      rw [mul_div_assoc, mul_div_assoc]
      apply mul_le_mul_of_nonneg_left _ hb0
      rw [div_le_div_iff₀ d1 d2]
      norm_num
      nlinarith
    rw [m_div _ d1.ne', ok_bind, m_div _ d2.ne', ok_bind, m_add, m_add, m_div _ (by linarith)]
    refine ⟨_, rfl, div_pos (by positivity) (by linarith), (div_lt_one (by linarith)).mpr ?_⟩
    norm_num at pq ⊢
    linarith
  · simp only [get_sky_albedo, low_ne_high, if_false, m_sci, m_one, m_mul, m_add, m_sub]
    have d1 : (0 : ℝ) < 1 - 0.19402 * a := by norm_num; linarith
    have d2 : (0 : ℝ) < 1 - 0.17586 * a := by norm_num; linarith
    have q0 : 0 ≤ b * (0.58101 + 0.17426 * a) / (1 - 0.17586 * a) := by positivity
    have p0 : 0 ≤ b * (0.14618 + 0.062758 * a) / (1 - 0.19402 * a) := by positivity
    have pq : b * (0.14618 + 0.062758 * a) / (1 - 0.19402 * a) ≤ b * (0.58101 + 0.17426 * a) / (1 - 0.17586 * a) := by
      rw [mul_div_assoc, mul_div_assoc]
      apply mul_le_mul_of_nonneg_left _ hb0
      rw [div_le_div_iff₀ d1 d2]
      norm_num
      nlinarith
    rw [m_div _ d1.ne', ok_bind, m_div _ d2.ne', ok_bind, m_add, m_add, m_div _ (by linarith)]
    refine ⟨_, rfl, div_pos (by positivity) (by linarith), (div_lt_one (by linarith)).mpr ?_⟩
    norm_num at pq ⊢
    linarith

/-- C63: the backscattered irradiance is `k * (Ebi + Edpi)` with a factor `0 < k < 0.18` that depends only on the band
and the turbidity: returned without exception, non-negative for non-negative input, zero for zero, linear. -/
theorem C63_backscatter (tp : ℝ) (band : String) (hb : IsBand band) (a b : ℝ) (ha0 : 0 ≤ a) (ha1 : a ≤ 2.5)
    (hb0 : 0 ≤ b) :
    ∃ k r : ℝ, get_sky_albedo (mathB tp) band (num a) (num b) = .ok (num r) ∧
      get_ground_albedo (mathB tp) band = num 0.15 ∧ k = 0.15 * r / (1 - 0.15 * r) ∧ 0 < k ∧ k < 0.18 ∧
      ∀ Eb Ed : ℝ, get_backscattered_diffuse_irradiance_by_band (mathB tp) band (num Eb) (num Ed) (num a) (num b)
        = .ok (num (k * (Eb + Ed))) := by
  obtain ⟨r, hr, r0, r1⟩ := C63_sky_albedo tp band hb a b ha0 ha1 hb0
  have hg : get_ground_albedo (mathB tp) band = num 0.15 := by
    simp only [get_ground_albedo, m_sci]
    norm_num
  have hd : (0 : ℝ) < 1 - 0.15 * r := by norm_num; linarith
  refine ⟨0.15 * r / (1 - 0.15 * r), r, hr, hg, rfl, by positivity, ?_, fun Eb Ed => ?_⟩
  · rw [div_lt_iff₀ hd]
    norm_num
    linarith
  · simp only [get_backscattered_diffuse_irradiance_by_band, hr, ok_bind, hg, m_mul, m_add, m_one, m_sub]
    rw [m_div _ hd.ne']
    congr 2
    ring

example (tp : ℝ) : ∃ r, get_sky_albedo (mathB tp) "high-frequency" (num 1.3) (num 0.6) = .ok (num r) ∧ 0 < r ∧ r < 1 :=
  C63_sky_albedo tp _ (Or.inl rfl) _ _ (by norm_num) (by norm_num) (by norm_num)

/-! ## C62 -/

/-- The attribute `log` that rest.py:158 looks up is never bound in `numeric`, whatever the history of backend
switches. -/
theorem C62_no_log (np : Bool) (ops : List Numeric.Op) : (Numeric.run np ops).g "log" = none := by
  induction ops using List.reverseRecOn with
  | nil => cases np <;> decide
  | append_singleton ops o ih =>
    rw [run_append]
    cases np <;> cases o
    · exact ih
    · exact ih
    · exact ih
    · exact ih

section

variable (B : Backend)

/-- C62, for every backend and all arguments: none of the entry points ever returns a value. -/
theorem C62_effective_wavelength (band : String) (ma a b : B.α) :
    get_effective_aerosol_wavelength B band ma a b = .error .attributeError := rfl

theorem bind_ne_ok {α β : Type} {m : Py α} {f : α → Py β} (h : ∀ a b, f a ≠ .ok b) (b : β) : (m >>= f) ≠ .ok b := by
  cases m with
  | error e => intro h; cases h
  | ok a => exact h a b

theorem C62_direct_by_band (band : String) (alt p oz ni w a b x : B.α) :
    get_direct_normal_irradiance_by_band B band alt p oz ni w a b ≠ .ok x := by
  unfold get_direct_normal_irradiance_by_band
  refine bind_ne_ok (fun ma => bind_ne_ok fun mo => bind_ne_ok fun mR => bind_ne_ok fun mw x => ?_) x
  rw [C62_effective_wavelength]
  intro h
  cases h

theorem C62_direct_broadband (alt p oz ni w a b x : B.α) :
    get_broadband_direct_normal_irradiance B alt p oz ni w a b ≠ .ok x := by
  unfold get_broadband_direct_normal_irradiance
  cases h : get_direct_normal_irradiance_by_band B "high-frequency" alt p oz ni w a b with
  | error e => intro h; cases h
  | ok y => exact absurd h (C62_direct_by_band _ _ _ _ _ _ _ _ _ _)

theorem C62_beam_broadband (alt p oz ni w a b x : B.α) :
    get_beam_broadband_irradiance B alt p oz ni w a b ≠ .ok x := by
  unfold get_beam_broadband_irradiance
  cases h : get_broadband_direct_normal_irradiance B alt p oz ni w a b with
  | error e => intro h'; cases h'
  | ok y => exact absurd h (C62_direct_broadband _ _ _ _ _ _ _ _ _)

theorem C62_beam_by_band (band : String) (alt p oz ni w a b x : B.α) :
    get_beam_irradiance_by_band B band alt p oz ni w a b ≠ .ok x := by
  unfold get_beam_irradiance_by_band
  cases h : get_direct_normal_irradiance_by_band B band alt p oz ni w a b with
  | error e => intro h'; cases h'
  | ok y => exact absurd h (C62_direct_by_band _ _ _ _ _ _ _ _ _ _)

theorem C62_diffuse_by_band (band : String) (am a b : B.α) :
    get_diffuse_irradiance_by_band B band am a b = .error .nameError := rfl

theorem C62_diffuse_broadband (am a b : B.α) :
    get_diffuse_broadband_irradiance B am a b = .error .nameError := rfl

theorem C62_backscattered_broadband (band : String) (a b : B.α) :
    get_backscattered_diffuse_broadband_irradiance B band a b = .error .nameError := rfl

theorem C62_global (alt p oz ni w a b x : B.α) :
    get_global_broadband_irradiance B alt p oz ni w a b ≠ .ok x := by
  unfold get_global_broadband_irradiance
  cases h : get_beam_irradiance_by_band B "high-frequency" alt p oz ni w a b with
  | error e => intro h; cases h
  | ok y => exact absurd h (C62_beam_by_band _ _ _ _ _ _ _ _ _ _)

/-- Nor do the diffuse and global functions when a program binds any of the missing names `log`, `altitude_deg`,
`air_mass` to whatever it likes: the diffuse one then calls `get_effective_aerosol_wavelength` with two arguments. -/
theorem C62_diffuse_any_globals (g : Globals B) (band : String) (am a b x : B.α) :
    get_diffuse_irradiance_by_band B band am a b g ≠ .ok x ∧ get_diffuse_broadband_irradiance B am a b g ≠ .ok x ∧
    (g.altitude_deg ≠ none → get_diffuse_irradiance_by_band B band am a b g = .error .typeError) := by
  unfold get_diffuse_broadband_irradiance get_diffuse_irradiance_by_band
  cases g.altitude_deg with
  | none => exact ⟨nofun, nofun, fun h => absurd rfl h⟩
  | some _ => exact ⟨nofun, nofun, fun _ => rfl⟩

theorem C62_global_any_globals (g : Globals B) (alt p oz ni w a b x : B.α) :
    get_global_broadband_irradiance B alt p oz ni w a b g ≠ .ok x := by
  unfold get_global_broadband_irradiance
  refine bind_ne_ok (fun e1 => bind_ne_ok fun e2 y => ?_) x
  cases g.air_mass with
  | none => exact nofun
  | some am =>
    cases h : get_diffuse_irradiance_by_band B "high-frequency" am a b g with
    | error e => simp only [h]; exact nofun
    | ok z => exact absurd h (C62_diffuse_any_globals B g _ am a b z).1

end

/-- What C62 claims of the broadband entry points. -/
def C62Claim (tp : ℝ) : Prop := ∀ alt : ℝ, 0 < alt → alt ≤ 90 →
  (∃ x, get_broadband_direct_normal_irradiance (mathB tp) (num alt) = .ok x) ∧
  (∃ x, get_beam_broadband_irradiance (mathB tp) (num alt) = .ok x) ∧
  (∃ x, get_diffuse_broadband_irradiance (mathB tp) = .ok x) ∧
  (∃ x, get_global_broadband_irradiance (mathB tp) (num alt) = .ok x)

/-- C62 is false: none of them returns, e.g. at altitude 45. -/
theorem C62_refuted (tp : ℝ) : ¬ C62Claim tp := by
  intro h
  obtain ⟨⟨x, hx⟩, -⟩ := h 45 (by norm_num) (by norm_num)
  exact C62_direct_broadband _ _ _ _ _ _ _ _ _ hx

theorem m_rpow_nonneg {a b : ℝ} (ha : 0 ≤ a) (hb : 0 ≤ b) :
    (mathB tp).rpow (num a) (num b) = .ok (num (a ^ b)) := by
  rcases ha.eq_or_lt with rfl | h
  · exact (if_neg (lt_irrefl _)).trans ((if_pos rfl).trans (if_neg (not_lt.mpr hb)))
  · exact m_rpow h b

theorem zenith_rad {alt : ℝ} (h0 : 0 ≤ alt) (h1 : alt ≤ 90) : 0 ≤ rad (90 - alt) ∧ rad (90 - alt) ≤ 1.6 := by
  have hp := pi_pos
  have hp2 := pi_lt_d4
  unfold rad
  constructor
  · exact div_nonneg (mul_nonneg (by linarith) hp.le) (by norm_num)
  · rw [div_le_iff₀ (by norm_num)]
    have : (90 - alt) * π ≤ 90 * 3.1416 := mul_le_mul (by linarith) (by norm_num at *; linarith) hp.le (by norm_num)
    norm_num at *
    linarith

theorem mass_denominator {alt k c : ℝ} (h0 : 0 ≤ alt) (h1 : alt ≤ 90) (hk : 0 < k) :
    0 < cos (rad (90 - alt)) + k * rad (90 - alt) ^ c := by
  obtain ⟨z0, z1⟩ := zenith_rad h0 h1
  have hc : 0 ≤ cos (rad (90 - alt)) := by
    rw [rad_sub, rad_90, cos_pi_div_two_sub]
    exact sin_nonneg_of_nonneg_of_le_pi (by unfold rad; have := pi_pos; positivity)
      (by rw [← rad_180, rad_le_rad]; linarith)
  rcases z0.eq_or_lt with h | h
  · rw [← h, cos_zero]
    have : (0 : ℝ) ≤ 0 ^ c := rpow_nonneg le_rfl c
    have := mul_nonneg hk.le this
    linarith
  · have := mul_pos hk (rpow_pos_of_pos h c)
    linarith

/-- C62, what holds: for altitudes from 0 to 90 the optical masses are positive numbers (the Rayleigh one if the
pressure is positive). -/
theorem C62_masses_partial (tp alt p : ℝ) (h0 : 0 ≤ alt) (h1 : alt ≤ 90) (hp : 0 < p) :
    (∃ x, get_optical_mass_aerosol (mathB tp) (num alt) = .ok (num x) ∧ 0 < x) ∧
    (∃ x, get_optical_mass_ozone (mathB tp) (num alt) = .ok (num x) ∧ 0 < x) ∧
    (∃ x, get_optical_mass_rayleigh (mathB tp) (num alt) (num p) = .ok (num x) ∧ 0 < x) ∧
    (∃ x, get_optical_mass_water (mathB tp) (num alt) = .ok (num x) ∧ 0 < x) := by
  obtain ⟨z0, z1⟩ := zenith_rad h0 h1
  have h90 : ((OfNat.ofNat 90 : ℕ) : ℝ) = 90 := by norm_num
  refine ⟨?_, ?_, ?_, ?_⟩
  · have hb : (0 : ℝ) < 95.318 - rad (90 - alt) := by norm_num at z1 ⊢; linarith
    have hm := mass_denominator (k := 0.16851) (c := 0.18198) h0 h1 (by norm_num)
    have hq := rpow_pos_of_pos hb 1.9542
    simp only [get_optical_mass_aerosol, m_ofNat, m_sub, m_radians, m_cos, ok_bind, m_sci, h90,
      m_rpow_nonneg z0 (show (0 : ℝ) ≤ 0.18198 by norm_num), m_mul, m_add, m_rpow hb, m_div _ hq.ne',
      m_div _ (div_pos hm hq).ne']
    exact ⟨_, rfl, by positivity⟩
  · have hb : (0 : ℝ) < 101.8 - rad (90 - alt) := by norm_num at z1 ⊢; linarith
    have hm := mass_denominator (k := 1.0651) (c := 0.6379) h0 h1 (by norm_num)
    have hq := rpow_pos_of_pos hb 2.2694
    simp only [get_optical_mass_ozone, m_ofNat, m_sub, m_radians, m_cos, ok_bind, m_sci, h90,
      m_rpow_nonneg z0 (show (0 : ℝ) ≤ 0.6379 by norm_num), m_mul, m_add, m_rpow hb, m_div _ hq.ne',
      m_div _ (div_pos hm hq).ne']
    exact ⟨_, rfl, by positivity⟩
  · have hb : (0 : ℝ) < 96.741 - rad (90 - alt) := by norm_num at z1 ⊢; linarith
    have hm := mass_denominator (k := 0.48353) (c := 0.095846) h0 h1 (by norm_num)
    have hq := rpow_pos_of_pos hb 1.754
    simp only [get_optical_mass_rayleigh, m_ofNat, m_sub, m_radians, m_cos, ok_bind, m_sci, h90, m_divq,
      m_rpow_nonneg z0 (show (0 : ℝ) ≤ 0.095846 by norm_num), m_mul, m_add, m_rpow hb, m_div _ hq.ne',
      m_div _ (div_pos hm hq).ne']
    refine ⟨_, rfl, div_pos (div_pos hp ?_) (div_pos hm hq)⟩
    norm_num [standard_pressure_millibars, Constants.standard_pressure]
  · have hb : (0 : ℝ) < 93.781 - rad (90 - alt) := by norm_num at z1 ⊢; linarith
    have hm := mass_denominator (k := 0.10648) (c := 0.11423) h0 h1 (by norm_num)
    have hq := rpow_pos_of_pos hb 1.9203
    simp only [get_optical_mass_water, m_ofNat, m_sub, m_radians, m_cos, ok_bind, m_sci, h90,
      m_rpow_nonneg z0 (show (0 : ℝ) ≤ 0.11423 by norm_num), m_mul, m_add, m_rpow hb, m_div _ hq.ne',
      m_div _ (div_pos hm hq).ne']
    exact ⟨_, rfl, by positivity⟩

/-- C62: the exceptions raised for altitudes from 0 to 90 and any positive pressure: `AttributeError` (for `math.log`)
from the direct, beam and global irradiances. -/
theorem C62_exceptions_partial (tp alt p : ℝ) (h0 : 0 ≤ alt) (h1 : alt ≤ 90) (hp : 0 < p) (band : String)
    (oz ni w a b : (mathB tp).α) :
    get_direct_normal_irradiance_by_band (mathB tp) band (num alt) (num p) oz ni w a b = .error .attributeError ∧
    get_broadband_direct_normal_irradiance (mathB tp) (num alt) (num p) oz ni w a b = .error .attributeError ∧
    get_beam_irradiance_by_band (mathB tp) band (num alt) (num p) oz ni w a b = .error .attributeError ∧
    get_beam_broadband_irradiance (mathB tp) (num alt) (num p) oz ni w a b = .error .attributeError ∧
    get_global_broadband_irradiance (mathB tp) (num alt) (num p) oz ni w a b = .error .attributeError := by
  obtain ⟨⟨x1, e1, -⟩, ⟨x2, e2, -⟩, ⟨x3, e3, -⟩, ⟨x4, e4, -⟩⟩ := C62_masses_partial tp alt p h0 h1 hp
  have key : ∀ band, get_direct_normal_irradiance_by_band (mathB tp) band (num alt) (num p) oz ni w a b
      = .error .attributeError := by
    intro band
    simp only [get_direct_normal_irradiance_by_band, e1, e2, e3, e4, ok_bind, C62_effective_wavelength, error_bind]
  refine ⟨key band, ?_, ?_, ?_, ?_⟩
  · simp only [get_broadband_direct_normal_irradiance, key, error_bind]
  · simp only [get_beam_irradiance_by_band, key, error_bind]
  · simp only [get_beam_broadband_irradiance, get_broadband_direct_normal_irradiance, key, error_bind]
  · simp only [get_global_broadband_irradiance, get_beam_irradiance_by_band, key, error_bind]

end Verif.Props
