import Verif.Proofs.Eval

/-!
# C46, C47: the barometric formula
-/

namespace Verif.Props

open Verif.Spec Pysolar Pysolar.Elevation Pysolar.Constants Real

variable {tp : ℝ}

open scoped Classical in
theorem pressure_eval {h Ps Ts Tl Hb R g M : ℝ} (hR : R * Tl ≠ 0) (hT : 0 < Ts) (hpos : 0 < Ts + Tl * (h - Hb)) :
    get_pressure_with_elevation_warn (mathB tp) (num h) (num Ps) (num Ts) (num Tl) (num Hb) (num R) (num g)
        (num M)
      = .ok (num (Ps * (Ts / (Ts + Tl * (h - Hb))) ^ (g * M / (R * Tl))), decide (11000 < h)) := by
  have e : (11000.0 : ℝ) = 11000 := by norm_num
  simp only [get_pressure_with_elevation_warn, m_sci, m_lt, m_truth, ok_bind, m_sub, m_mul, m_add,
    m_div _ hpos.ne', m_div _ hR, m_rpow (div_pos hT hpos), pure_eq_ok, e]

theorem ratio_rpow {Ts T k : ℝ} (hT : 0 < Ts) (h : 0 < T) : (Ts / T) ^ k = (T / Ts) ^ (-k) := by
  rw [rpow_neg (div_pos h hT).le, ← inv_rpow (div_pos h hT).le, inv_div]

open scoped Classical in
/-- C46: below the ceiling the function returns `Ps (T/Ts)^(-gM/(R Tl))` with `T` from
`get_temperature_with_elevation`, positive, equal to `Ps` at the base height, and it warns exactly above
11000 m. -/
theorem C46_value (tp h Ps Ts Tl Hb R g M : ℝ) (hPs : 0 < Ps) (hTs : 0 < Ts) (hTl : Tl ≠ 0) (hR : R ≠ 0)
    (hpos : 0 < Ts + Tl * (h - Hb)) :
    ∃ P T, get_pressure_with_elevation (mathB tp) (num h) (num Ps) (num Ts) (num Tl) (num Hb) (num R) (num g)
        (num M) = .ok (num P) ∧
      get_temperature_with_elevation (mathB tp) (num (h - Hb)) (num Ts) (num Tl) = num T ∧
      get_pressure_with_elevation_warn (mathB tp) (num h) (num Ps) (num Ts) (num Tl) (num Hb) (num R) (num g)
        (num M) = .ok (num P, decide (11000 < h)) ∧
      P = Ps * (T / Ts) ^ (-(g * M / (R * Tl))) ∧ 0 < P ∧ (h = Hb → P = Ps) := by
  have he := pressure_eval (tp := tp) (Ps := Ps) (g := g) (M := M) (mul_ne_zero hR hTl) hTs hpos
  refine ⟨_, Ts + (h - Hb) * Tl, ?_, rfl, he, ?_, ?_, ?_⟩
  · rw [get_pressure_with_elevation, he]
    rfl
  · rw [ratio_rpow hTs hpos, mul_comm (h - Hb)]
  · exact mul_pos hPs (rpow_pos_of_pos (div_pos hTs hpos) _)
  · rintro rfl
    rw [sub_self, mul_zero, add_zero, div_self hTs.ne', one_rpow, mul_one]

/-- C46: strictly decreasing with height (for either sign of the lapse rate). -/
theorem C46_decreasing (tp h h' Ps Ts Tl Hb R g M : ℝ) (hPs : 0 < Ps) (hTs : 0 < Ts) (hTl : Tl ≠ 0) (hR : 0 < R)
    (hg : 0 < g) (hM : 0 < M) (hh : h < h') (hpos : 0 < Ts + Tl * (h - Hb)) (hpos' : 0 < Ts + Tl * (h' - Hb)) :
    ∃ P P', get_pressure_with_elevation (mathB tp) (num h) (num Ps) (num Ts) (num Tl) (num Hb) (num R) (num g)
        (num M) = .ok (num P) ∧
      get_pressure_with_elevation (mathB tp) (num h') (num Ps) (num Ts) (num Tl) (num Hb) (num R) (num g)
        (num M) = .ok (num P') ∧ P' < P := by
  obtain ⟨P, T, hP, hT, -, eP, -⟩ := C46_value tp h Ps Ts Tl Hb R g M hPs hTs hTl hR.ne' hpos
  obtain ⟨P', T', hP', hT', -, eP', -⟩ := C46_value tp h' Ps Ts Tl Hb R g M hPs hTs hTl hR.ne' hpos'
  refine ⟨P, P', hP, hP', ?_⟩
  have eT : Ts + (h - Hb) * Tl = T := num_injective hT
  have eT' : Ts + (h' - Hb) * Tl = T' := num_injective hT'
  have hT0 : 0 < T := by rw [← eT, mul_comm]; exact hpos
  have hT0' : 0 < T' := by rw [← eT', mul_comm]; exact hpos'
  rw [eP, eP']
  apply mul_lt_mul_of_pos_left _ hPs
  rcases lt_or_gt_of_ne hTl with hn | hp
  · have hk : 0 < -(g * M / (R * Tl)) := by
      rw [neg_pos]
      exact div_neg_of_pos_of_neg (mul_pos hg hM) (mul_neg_of_pos_of_neg hR hn)
    apply rpow_lt_rpow (div_pos hT0' hTs).le _ hk
    apply div_lt_div_of_pos_right _ hTs
    rw [← eT, ← eT']
    nlinarith
  · have hk : -(g * M / (R * Tl)) < 0 := by
      rw [neg_lt_zero]
      positivity
    apply rpow_lt_rpow_of_neg (div_pos hT0 hTs) _ hk
    apply div_lt_div_of_pos_right _ hTs
    rw [← eT, ← eT']
    nlinarith

/-- Non-vacuity, with the default constants: 1000 m is below 8849 m in height and above it in pressure. -/
example : ∃ P P', get_pressure_with_elevation (mathB 0) (num 1000) = .ok (num P) ∧
    get_pressure_with_elevation (mathB 0) (num 8849) = .ok (num P') ∧ P' < P := by
  have := C46_decreasing 0 1000 8849 standard_pressure standard_temperature earth_temperature_lapse_rate 0.0
    air_gas_constant earth_gravity earth_atmosphere_molar_mass (by norm_num [standard_pressure])
    (by norm_num [standard_temperature]) (by norm_num [earth_temperature_lapse_rate])
    (by norm_num [air_gas_constant]) (by norm_num [earth_gravity]) (by norm_num [earth_atmosphere_molar_mass])
    (by norm_num) (by norm_num [standard_temperature, earth_temperature_lapse_rate])
    (by norm_num [standard_temperature, earth_temperature_lapse_rate])
  simpa only [get_pressure_with_elevation, get_pressure_with_elevation_warn, m_sci, m_lit] using this

/-- C47: at the ceiling. -/
theorem C47_at_ceiling (tp h Ps Ts Tl Hb R g M : ℝ) (h0 : Ts + Tl * (h - Hb) = 0) :
    get_pressure_with_elevation (mathB tp) (num h) (num Ps) (num Ts) (num Tl) (num Hb) (num R) (num g)
      (num M) = .error .zeroDivision := by
  simp only [get_pressure_with_elevation, get_pressure_with_elevation_warn, m_sci, m_lt, m_truth, ok_bind, m_sub,
    m_mul, m_add, h0, m_div_zero, error_bind]

/-- C47: the default exponent is not an integer. -/
theorem default_exponent_not_int (n : ℤ) :
    (n : ℝ) ≠ (earth_gravity : ℝ) * earth_atmosphere_molar_mass / (air_gas_constant * earth_temperature_lapse_rate) := by
  intro h
  have h1 : (n : ℝ) < -5 := by
    rw [h]; norm_num [earth_gravity, earth_atmosphere_molar_mass, air_gas_constant, earth_temperature_lapse_rate]
  have h2 : (-6 : ℝ) < n := by
    rw [h]; norm_num [earth_gravity, earth_atmosphere_molar_mass, air_gas_constant, earth_temperature_lapse_rate]
  have h1' : n < -5 := by exact_mod_cast h1
  have h2' : -6 < n := by exact_mod_cast h2
  omega

/-- C47: above the ceiling, with the default constants, the result is a complex number. -/
theorem C47_above_ceiling (tp h : ℝ) (h0 : (standard_temperature : ℝ) + earth_temperature_lapse_rate * h < 0) :
    get_pressure_with_elevation (mathB tp) (num h) = .error .complexResult := by
  have hne : (standard_temperature : ℝ) + earth_temperature_lapse_rate * (h - 0.0) ≠ 0 := by
    norm_num at *; exact h0.ne
  have hR : (air_gas_constant : ℝ) * earth_temperature_lapse_rate ≠ 0 := by
    norm_num [air_gas_constant, earth_temperature_lapse_rate]
  have hT : (0 : ℝ) < standard_temperature := by norm_num [standard_temperature]
  have hq : (standard_temperature : ℝ) / (standard_temperature + earth_temperature_lapse_rate * (h - 0.0)) < 0 := by
    apply div_neg_of_pos_of_neg hT
    norm_num at *; exact h0
  have hpow : (mathB tp).rpow
      (num ((standard_temperature : ℝ) / (standard_temperature + earth_temperature_lapse_rate * (h - 0.0))))
      (num ((earth_gravity : ℝ) * earth_atmosphere_molar_mass / (air_gas_constant * earth_temperature_lapse_rate)))
      = .error .complexResult := by
    refine (if_neg (not_lt.mpr hq.le)).trans ((if_neg hq.ne).trans (if_neg ?_))
    rintro ⟨n, hn⟩
    exact default_exponent_not_int n hn
  simp only [get_pressure_with_elevation, get_pressure_with_elevation_warn, m_sci, m_lit, m_lt, m_truth, ok_bind,
    m_sub, m_mul, m_add, m_div _ hne, m_div _ hR, hpow, error_bind]

/-- Non-vacuity: the ceiling is at about 44331 m; 50 km is above it. -/
example : get_pressure_with_elevation (mathB 0) (num 50000) = .error .complexResult :=
  C47_above_ceiling 0 50000 (by norm_num [standard_temperature, earth_temperature_lapse_rate])

end Verif.Props
