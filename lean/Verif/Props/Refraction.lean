import Verif.Proofs.Position
import Verif.Props.Time

/-!
# C30, C31, C66: refraction, and where `get_altitude` fails
-/

namespace Verif.Props

open Verif.Spec Pysolar Pysolar.Solar Pysolar.Constants Real

/-! ## The argument of the tangent -/

/-- Degrees form of the argument of the tangent in Bennett's formula. -/
noncomputable def bennett (tea : ℝ) : ℝ := tea + 10.3 / (tea + 5.11)

theorem bennett_lt {a b : ℝ} (ha : -0.83337 ≤ a) (hab : a < b) : bennett a < bennett b := by
  have h1 : (4.2 : ℝ) < a + 5.11 := by norm_num at *; linarith
  have h2 : (4.2 : ℝ) < b + 5.11 := by linarith
  have h0 : (0 : ℝ) < (a + 5.11) * (b + 5.11) := by nlinarith
  have e : bennett b - bennett a = (b - a) * (1 - 10.3 / ((a + 5.11) * (b + 5.11))) := by
    unfold bennett
    have : a + 5.11 ≠ 0 := by linarith
    have : b + 5.11 ≠ 0 := by linarith
    field_simp
    ring
  have : 10.3 / ((a + 5.11) * (b + 5.11)) < 1 := by
    rw [div_lt_one h0]
    nlinarith
  have := mul_pos (sub_pos.mpr hab) (sub_pos.mpr this)
  linarith

theorem bennett_sub_le {a b : ℝ} (ha : -0.83337 ≤ a) (hab : a ≤ b) : bennett b - bennett a ≤ b - a := by
  have h1 : (4.2 : ℝ) < a + 5.11 := by norm_num at *; linarith
  have h2 : (4.2 : ℝ) < b + 5.11 := by linarith
  have : 10.3 / (b + 5.11) ≤ 10.3 / (a + 5.11) := by
    apply div_le_div_of_nonneg_left <;> linarith
  unfold bennett
  linarith

theorem bennett_lower {a : ℝ} (ha : -0.83337 ≤ a) : 1.575 < bennett a := by
  have h : (1.575 : ℝ) < bennett (-0.83337) := by
    unfold bennett
    norm_num
  rcases ha.eq_or_lt with h' | h'
  · rw [← h']; exact h
  · exact h.trans (bennett_lt le_rfl h')

theorem bennett_upper {a : ℝ} (ha : -0.83337 ≤ a) (ha' : a ≤ 90) : bennett a < 91 := by
  have h : bennett 90 < 91 := by
    unfold bennett
    norm_num
  rcases ha'.eq_or_lt with h' | h'
  · rw [h']; exact h
  · exact (bennett_lt ha h').trans h

theorem refrArg_eq (tea : ℝ) : refrArg tea = rad (bennett tea) := rfl

/-- The sine of the argument is at least 0.02748. -/
theorem sin_bennett {a : ℝ} (ha : -0.83337 ≤ a) (ha' : a ≤ 90) : 0.02748 < sin (refrArg a) := by
  have h1 := bennett_lower ha
  have h2 := bennett_upper ha ha'
  have p1 := pi_gt_d4
  have p2 := pi_lt_d4
  have hs : (0.02748 : ℝ) < sin (rad 1.575) := by
    have e : rad 1.575 = 0.00875 * π := by unfold rad; norm_num; ring
    rw [e]
    have hx0 : 0 < 0.00875 * π := by positivity
    have := sin_gt_sub_cube hx0
    refine lt_of_lt_of_le ?_ this.le
    have hx1 : 0.027488 < 0.00875 * π := by norm_num at *; linarith
    have hx2 : 0.00875 * π < 0.0275 := by norm_num at *; linarith
    generalize 0.00875 * π = x at *
    have : x ^ 3 ≤ 0.0275 ^ 3 := pow_le_pow_left₀ hx0.le hx2.le 3
    norm_num at *
    linarith
  refine hs.trans_le ?_
  rw [refrArg_eq]
  by_cases h90 : bennett a ≤ 90
  · apply sin_le_sin_of_le_of_le_pi_div_two
    · rw [← rad_90, ← rad_neg, rad_le_rad]; norm_num
    · rw [← rad_90, rad_le_rad]; exact h90
    · rw [rad_le_rad]; exact h1.le
  · rw [← sin_pi_sub (rad (bennett a)), ← rad_180, ← rad_sub]
    apply sin_le_sin_of_le_of_le_pi_div_two
    · rw [← rad_90, ← rad_neg, rad_le_rad]; norm_num
    · rw [← rad_90, rad_le_rad]; linarith
    · rw [rad_le_rad]; norm_num at *; linarith

theorem tanP_ne_of_sin {tp x : ℝ} (htp : tp ≠ 0) (h : sin x ≠ 0) : tanP tp x ≠ 0 := by
  unfold tanP
  split_ifs with hc
  · exact htp
  · rw [tan_eq_sin_div_cos]
    exact div_ne_zero h hc

/-- The refraction formula, in terms of the cotangent. -/
theorem refr_value {tp P T tea : ℝ} (htp : tp ≠ 0) (hT : T ≠ 0) (h1 : -0.83337 ≤ tea) (h2 : tea ≤ 90)
    (hc : cos (refrArg tea) ≠ 0) :
    get_refraction_correction (mathB tp) (num P) (num T) (num tea)
      = .ok (num (P * 2.830 * 1.02 / (1010 * T * 60) * (cos (refrArg tea) / sin (refrArg tea)))) := by
  have hs := sin_bennett h1 h2
  have hs0 : sin (refrArg tea) ≠ 0 := by norm_num at hs ⊢; intro h; rw [h] at hs; norm_num at hs
  rw [refr_eval (by norm_num at h1 ⊢; intro h; rw [h] at h1; norm_num at h1) hT (tanP_ne_of_sin htp hs0), if_pos h1, tanP_of_ne hc,
    tan_eq_sin_div_cos]
  congr 2
  field_simp

/-! ## C30 -/

/-- C30: below -0.83337 degrees the correction is 0, whenever the function returns. -/
theorem C30_zero_below (tp P T tea : ℝ) (h : tea < -0.83337) (r : (mathB tp).α)
    (hr : get_refraction_correction (mathB tp) (num P) (num T) (num tea) = .ok r) : r = num 0 := by
  by_cases hx : tea = -5.11 ∨ T = 0 ∨ tanP tp (refrArg tea) = 0
  · rw [refr_err hx] at hr
    simp at hr
  · push Not at hx
    rw [refr_eval hx.1 hx.2.1 hx.2.2, if_neg (not_le.mpr h)] at hr
    exact (Except.ok.inj hr).symm

/-- C30: from -0.83337 degrees up to the zenith zero of the formula (where `tea + 10.3/(tea + 5.11)` is 90
degrees) the correction exists and is positive; past it, it is negative. -/
theorem C30_sign (tp P T tea : ℝ) (htp : tp ≠ 0) (hP : 0 < P) (hT : 0 < T) (h1 : -0.83337 ≤ tea)
    (h2 : tea ≤ 90) (hz : tea + 10.3 / (tea + 5.11) ≠ 90) :
    ∃ r, get_refraction_correction (mathB tp) (num P) (num T) (num tea) = .ok (num r) ∧
      (tea + 10.3 / (tea + 5.11) < 90 → 0 < r) ∧ (90 < tea + 10.3 / (tea + 5.11) → r < 0) := by
  have hb1 := bennett_lower h1
  have hb2 := bennett_upper h1 h2
  have hs : 0 < sin (refrArg tea) := lt_trans (by norm_num) (sin_bennett h1 h2)
  have hK : 0 < P * 2.830 * 1.02 / (1010 * T * 60) := by positivity
  have hpos : bennett tea < 90 → 0 < cos (refrArg tea) := fun h => cos_rad_pos (by change -90 < bennett tea; linarith) h
  have hneg : 90 < bennett tea → cos (refrArg tea) < 0 := fun h => by
    rw [refrArg_eq, ← neg_pos, ← cos_pi_sub, ← rad_180, ← rad_sub]
    exact cos_rad_pos (by linarith) (by linarith)
  have hc : cos (refrArg tea) ≠ 0 := by
    rcases lt_or_gt_of_ne hz with h | h
    · exact (hpos h).ne'
    · exact (hneg h).ne
  exact ⟨_, refr_value htp hT.ne' h1 h2 hc, fun h => mul_pos hK (div_pos (hpos h) hs),
    fun h => mul_neg_of_pos_of_neg hK (div_neg_of_neg_of_pos (hneg h) hs)⟩

/-- The zenith zero is just below 89.892 degrees. -/
theorem C30_zenith_zero (tea : ℝ) (h1 : -0.83337 ≤ tea) :
    (tea ≤ 89.891 → tea + 10.3 / (tea + 5.11) < 90) ∧ (89.892 ≤ tea → 90 < tea + 10.3 / (tea + 5.11)) := by
  constructor
  · intro h
    have e : bennett 89.891 < 90 := by unfold bennett; norm_num
    rcases h.eq_or_lt with h' | h'
    · rw [h']; exact e
    · exact (bennett_lt h1 h').trans e
  · intro h
    have e : 90 < bennett 89.892 := by unfold bennett; norm_num
    rcases h.eq_or_lt with h' | h'
    · rw [← h']; exact e
    · exact e.trans (bennett_lt (by norm_num) h')

/-- C30: at standard conditions the correction is never above 0.61 degrees.  (`tp`, the value of the tangent
at its pole, only has to be at least 1 in size: the float tangent is about 1.6e16 there.) -/
theorem C30_bound (tp tea r : ℝ) (htp : 1 ≤ |tp|) (h2 : tea ≤ 90)
    (hr : get_refraction_correction (mathB tp) (num standard_pressure) (num standard_temperature) (num tea)
      = .ok (num r)) : r ≤ 0.61 := by
  have htp0 : tp ≠ 0 := by rintro rfl; norm_num at htp
  rcases lt_or_ge tea (-0.83337) with h1 | h1
  · have := num_injective (C30_zero_below _ _ _ _ h1 _ hr)
    rw [this]
    norm_num
  · have hT : ((standard_temperature : ℚ) : ℝ) ≠ 0 := by norm_num [standard_temperature]
    have hs := sin_bennett h1 h2
    have hs0 : 0 < sin (refrArg tea) := lt_trans (by norm_num) hs
    by_cases hc : cos (refrArg tea) = 0
    · rw [refr_eval (by norm_num at h1 ⊢; intro h; rw [h] at h1; norm_num at h1) hT
        (tanP_ne_of_sin htp0 hs0.ne'), if_pos h1, tanP, if_pos hc] at hr
      rw [← num_injective (Except.ok.inj hr), div_mul_eq_div_div]
      set K : ℝ := (standard_pressure : ℝ) * 2.830 * 1.02 / (1010 * (standard_temperature : ℝ) * 60) with hKd
      have hK : K ≤ 0.61 := by
        rw [hKd]; norm_num [standard_temperature, standard_pressure]
      have hK0 : 0 ≤ K := by
        rw [hKd]; norm_num [standard_temperature, standard_pressure]
      have h3 : tp⁻¹ ≤ 1 := (le_abs_self _).trans (by rw [abs_inv]; exact inv_le_one_of_one_le₀ htp)
      rw [div_eq_mul_inv]
      nlinarith
    · rw [refr_value htp0 hT h1 h2 hc] at hr
      rw [← num_injective (Except.ok.inj hr)]
      set K : ℝ := (standard_pressure : ℝ) * 2.830 * 1.02 / (1010 * (standard_temperature : ℝ) * 60) with hKd
      have hK : K ≤ 0.016752 := by
        rw [hKd]; norm_num [standard_temperature, standard_pressure]
      have hK0 : 0 ≤ K := by
        rw [hKd]; norm_num [standard_temperature, standard_pressure]
      have hcot : cos (refrArg tea) / sin (refrArg tea) ≤ 36.4 := by
        rw [div_le_iff₀ hs0]
        have := cos_le_one (refrArg tea)
        norm_num at *
        linarith
      norm_num at *
      nlinarith

/-- C30: linear in the pressure, inverse in the temperature (for every elevation angle, also for exceptions). -/
theorem C30_scaling (tp P T tea k : ℝ) (hk : k ≠ 0) :
    (∀ r, get_refraction_correction (mathB tp) (num P) (num T) (num tea) = .ok (num r) →
      get_refraction_correction (mathB tp) (num (k * P)) (num T) (num tea) = .ok (num (k * r)) ∧
      get_refraction_correction (mathB tp) (num P) (num (k * T)) (num tea) = .ok (num (r / k))) ∧
    (∀ e, get_refraction_correction (mathB tp) (num P) (num T) (num tea) = .error e →
      get_refraction_correction (mathB tp) (num (k * P)) (num T) (num tea) = .error e ∧
      get_refraction_correction (mathB tp) (num P) (num (k * T)) (num tea) = .error e) := by
  by_cases hx : tea = -5.11 ∨ T = 0 ∨ tanP tp (refrArg tea) = 0
  · have hx' : tea = -5.11 ∨ k * T = 0 ∨ tanP tp (refrArg tea) = 0 := by
      rcases hx with h | h | h
      · exact .inl h
      · exact .inr (.inl (by rw [h, mul_zero]))
      · exact .inr (.inr h)
    rw [refr_err hx, refr_err hx, refr_err hx']
    refine ⟨fun r h => by simp at h, fun e h => ?_⟩
    rw [Except.error.inj h]
    exact ⟨rfl, rfl⟩
  · push Not at hx
    rw [refr_eval hx.1 hx.2.1 hx.2.2, refr_eval hx.1 hx.2.1 hx.2.2,
      refr_eval hx.1 (mul_ne_zero hk hx.2.1) hx.2.2]
    refine ⟨fun r h => ?_, fun e h => by simp at h⟩
    have := num_injective (Except.ok.inj h)
    rw [← this]
    have := hx.2.1
    have := hx.2.2
    constructor <;> congr 2 <;> split_ifs
    · field_simp
    · simp
    · field_simp
    · simp

/-- Non-vacuity: 20 degrees above the horizon, standard conditions. -/
example : ∃ r, get_refraction_correction (mathB 1) (num standard_pressure) (num standard_temperature) (num 20)
    = .ok (num r) ∧ 0 < r := by
  obtain ⟨r, h1, h2, -⟩ := C30_sign 1 standard_pressure standard_temperature 20 (by norm_num)
    (by norm_num [standard_pressure]) (by norm_num [standard_temperature]) (by norm_num) (by norm_num)
    (by norm_num)
  exact ⟨r, h1, h2 (by norm_num)⟩

/-! ## C66 -/

/-- C66: at standard conditions refraction preserves the order of elevation angles: if both corrections
exist (and neither argument is exactly the pole of the tangent), the higher sun appears higher. -/
theorem C66_order (tp a b r s : ℝ) (htp : tp ≠ 0) (hab : a < b) (hb : b ≤ 90)
    (ha90 : a + 10.3 / (a + 5.11) ≠ 90) (hb90 : b + 10.3 / (b + 5.11) ≠ 90)
    (hr : get_refraction_correction (mathB tp) (num standard_pressure) (num standard_temperature) (num a)
      = .ok (num r))
    (hs : get_refraction_correction (mathB tp) (num standard_pressure) (num standard_temperature) (num b)
      = .ok (num s)) : a + r < b + s := by
  have hT : ((standard_temperature : ℚ) : ℝ) ≠ 0 := by norm_num [standard_temperature]
  have hcos : ∀ x, -0.83337 ≤ x → x ≤ 90 → x + 10.3 / (x + 5.11) ≠ 90 → cos (refrArg x) ≠ 0 := by
    intro x h1 h2 h3
    have hb1 := bennett_lower h1
    have hb2 := bennett_upper h1 h2
    rcases lt_or_gt_of_ne h3 with h | h
    · exact (cos_rad_pos (by change -90 < bennett x; linarith) h).ne'
    · have : 0 < cos (π - refrArg x) := by
        rw [refrArg_eq, ← rad_180, ← rad_sub]
        exact cos_rad_pos (by linarith) (by change 90 < bennett x at h; linarith)
      rw [cos_pi_sub] at this
      linarith
  set K : ℝ := (standard_pressure : ℝ) * 2.830 * 1.02 / (1010 * (standard_temperature : ℝ) * 60) with hKd
  have hK : K ≤ 0.016752 := by
    rw [hKd]; norm_num [standard_temperature, standard_pressure]
  have hK0 : 0 < K := by
    rw [hKd]; norm_num [standard_temperature, standard_pressure]
  rcases lt_or_ge a (-0.83337) with h1 | h1
  · rw [num_injective (C30_zero_below _ _ _ _ h1 _ hr)]
    rcases lt_or_ge b (-0.83337) with h2 | h2
    · rw [num_injective (C30_zero_below _ _ _ _ h2 _ hs)]
      linarith
    · have hsv := refr_value (P := standard_pressure) htp hT h2 hb (hcos b h2 hb hb90)
      rw [hs] at hsv
      rw [num_injective (Except.ok.inj hsv), ← hKd]
      -- the correction is at least -K / 0.02748 * 0.02 > -0.013; below that only if b > 89
      have hsb := sin_bennett h2 hb
      by_cases hb' : bennett b < 90
      · have : 0 < cos (refrArg b) / sin (refrArg b) :=
          div_pos (cos_rad_pos (by have := bennett_lower h2; change -90 < bennett b; linarith) hb') (lt_trans (by norm_num) hsb)
        nlinarith [mul_pos hK0 this]
      · have hbb : 80 < b := by
          by_contra hn
          have := (C30_zenith_zero b h2).1 (by norm_num at *; linarith)
          exact hb' this
        have : -37 ≤ cos (refrArg b) / sin (refrArg b) := by
          rw [le_div_iff₀ (lt_trans (by norm_num) hsb)]
          have := neg_one_le_cos (refrArg b)
          norm_num at *
          nlinarith
        norm_num at *
        nlinarith
  · have h2 : -0.83337 ≤ b := h1.trans hab.le
    have ha : a ≤ 90 := hab.le.trans hb
    have hrv := refr_value (P := standard_pressure) htp hT h1 ha (hcos a h1 ha ha90)
    have hsv := refr_value (P := standard_pressure) htp hT h2 hb (hcos b h2 hb hb90)
    rw [hr] at hrv
    rw [hs] at hsv
    rw [num_injective (Except.ok.inj hsv), num_injective (Except.ok.inj hrv), ← hKd]
    have hsa := sin_bennett h1 ha
    have hsb := sin_bennett h2 hb
    have hsa0 : 0 < sin (refrArg a) := lt_trans (by norm_num) hsa
    have hsb0 : 0 < sin (refrArg b) := lt_trans (by norm_num) hsb
    have hcot : cos (refrArg a) / sin (refrArg a) - cos (refrArg b) / sin (refrArg b)
        = sin (refrArg b - refrArg a) / (sin (refrArg a) * sin (refrArg b)) := by
      rw [sin_sub]
      field_simp
    have hd := bennett_sub_le h1 hab.le
    have hd0 := bennett_lt h1 hab
    have hx : refrArg b - refrArg a = rad (bennett b - bennett a) := by
      rw [refrArg_eq, refrArg_eq, rad_sub]
    have hx0 : 0 < rad (bennett b - bennett a) := by
      rw [← rad_zero, rad_lt_rad]; linarith
    have hxle : rad (bennett b - bennett a) ≤ 0.0175 * (b - a) := by
      have := pi_lt_d4
      unfold rad
      have : (bennett b - bennett a) * π / 180 ≤ (b - a) * 3.1416 / 180 := by
        apply div_le_div_of_nonneg_right _ (by norm_num)
        apply mul_le_mul hd (by norm_num at *; linarith) pi_pos.le (by linarith)
      refine this.trans ?_
      norm_num at *
      linarith
    have hprod : 0.00075 ≤ sin (refrArg a) * sin (refrArg b) := by
      have : (0.02748 : ℝ) * 0.02748 ≤ sin (refrArg a) * sin (refrArg b) :=
        mul_le_mul hsa.le hsb.le (by norm_num) hsa0.le
      norm_num at *
      linarith
    have hlt : K * (sin (refrArg b - refrArg a) / (sin (refrArg a) * sin (refrArg b))) < b - a := by
      have hp0 : 0 < sin (refrArg a) * sin (refrArg b) := mul_pos hsa0 hsb0
      rw [← mul_div_assoc, div_lt_iff₀ hp0, hx]
      have h3 := (sin_lt hx0).le.trans hxle
      have h4 : 0 < b - a := sub_pos.mpr hab
      have h5 : K * sin (rad (bennett b - bennett a)) ≤ K * (0.0175 * (b - a)) :=
        mul_le_mul_of_nonneg_left h3 hK0.le
      have h6 : K * (0.0175 * (b - a)) ≤ 0.016752 * (0.0175 * (b - a)) :=
        mul_le_mul_of_nonneg_right hK (by positivity)
      have h7 : (b - a) * 0.00075 ≤ (b - a) * (sin (refrArg a) * sin (refrArg b)) :=
        mul_le_mul_of_nonneg_left hprod h4.le
      norm_num at *
      linarith
    rw [← hcot] at hlt
    linarith

/-! ## C31 -/

/-- C31. `tea` is the elevation angle computed from the topocentric position. -/
theorem C31_exceptions (tp : ℝ) (d : DateTime) (c : Civil) (h : UtcFields d c) (lat lon elev T P : ℝ) :
    ∃ dec H tea,
      get_topocentric_position (mathB tp) (num lat) (num lon) (.dt d) (num elev) = .ok (num dec, num H) ∧
      get_topocentric_elevation_angle (mathB tp) (num lat) (num dec) (num H) = .ok (num tea) ∧
      (get_altitude (mathB tp) (num lat) (num lon) (.dt d) (num elev) (num T) (num P) = .error .zeroDivision ↔
        T = 0 ∨ tea = -5.11 ∨ tanP tp (rad (tea + 10.3 / (tea + 5.11))) = 0) ∧
      (¬ (T = 0 ∨ tea = -5.11 ∨ tanP tp (rad (tea + 10.3 / (tea + 5.11))) = 0) →
        ∃ r, get_refraction_correction (mathB tp) (num P) (num T) (num tea) = .ok (num r) ∧
          get_altitude (mathB tp) (num lat) (num lon) (.dt d) (num elev) (num T) (num P)
            = .ok (num (tea + r))) := by
  refine ⟨_, _, teaOf tp lat lon elev c, topo_eval h lat lon elev, tea_eval .., ?_, ?_⟩
  · rw [altitude_eval h]
    constructor
    · intro he
      by_contra hx
      push Not at hx
      rw [refr_eval hx.2.1 hx.1 hx.2.2] at he
      simp at he
    · intro hx
      rw [refr_err]
      · rfl
      · rcases hx with h | h | h
        · exact .inr (.inl h)
        · exact .inl h
        · exact .inr (.inr h)
  · intro hx
    push Not at hx
    refine ⟨_, refr_eval hx.2.1 hx.1 hx.2.2, ?_⟩
    rw [altitude_eval h, refr_eval hx.2.1 hx.1 hx.2.2]
    rfl

/-- C31: `get_position` fails exactly when `get_altitude` does, and otherwise returns the pair of
`get_azimuth` and `get_altitude`. -/
theorem C31_position (tp : ℝ) (d : DateTime) (c : Civil) (h : UtcFields d c) (lat lon elev T P : ℝ) :
    get_position (mathB tp) (num lat) (num lon) (.dt d) (num elev) (num T) (num P) = do
      let alt ← get_altitude (mathB tp) (num lat) (num lon) (.dt d) (num elev) (num T) (num P)
      let azi ← get_azimuth (mathB tp) (num lat) (num lon) (.dt d) (num elev)
      return (azi, alt) := by
  rw [position_eval h, altitude_eval h, azimuth_eval h]
  cases get_refraction_correction (mathB tp) (num P) (num T) (num (teaOf tp lat lon elev c)) <;> rfl

/-- C31: every singular elevation angle lies within 0.12 degrees of -5.11 (`tp ≠ 0`). -/
theorem C31_singular_region (tp tea : ℝ) (htp : tp ≠ 0) (h1 : -90 ≤ tea) (h2 : tea ≤ 90)
    (h : tea = -5.11 ∨ tanP tp (rad (tea + 10.3 / (tea + 5.11))) = 0) : |tea + 5.11| ≤ 0.12 := by
  by_contra hn
  have hn' : 0.12 < |tea + 5.11| := not_le.mp hn
  have hq : |10.3 / (tea + 5.11)| < 86 := by
    rw [abs_div, div_lt_iff₀ (lt_trans (by norm_num) hn'), abs_of_pos (by norm_num : (0 : ℝ) < 10.3)]
    norm_num at *
    linarith
  rcases h with h | h
  · rw [h] at hn'
    norm_num at hn'
  · have hs : sin (rad (tea + 10.3 / (tea + 5.11))) = 0 := by
      by_contra hs
      exact tanP_ne_of_sin htp hs h
    rw [abs_lt] at hq
    have e := (sin_eq_zero_iff_of_lt_of_lt (x := rad (tea + 10.3 / (tea + 5.11)))
      (by rw [← rad_180, ← rad_neg, rad_lt_rad]; linarith)
      (by rw [← rad_180, rad_lt_rad]; linarith)).mp hs
    rw [← rad_zero] at e
    have e := rad_injective e
    have hne : tea + 5.11 ≠ 0 := by
      intro h0
      rw [h0] at hn'
      norm_num at hn'
    field_simp at e
    nlinarith [sq_nonneg (tea + 5.11 / 2)]

/-- C31 for practical arguments: with a non-zero temperature and a sun away from -5.11 degrees,
`get_altitude` returns. -/
theorem C31_returns (tp : ℝ) (htp : tp ≠ 0) (d : DateTime) (c : Civil) (h : UtcFields d c)
    (lat lon elev T P : ℝ) (hT : T ≠ 0) :
    ∃ dec H tea,
      get_topocentric_position (mathB tp) (num lat) (num lon) (.dt d) (num elev) = .ok (num dec, num H) ∧
      get_topocentric_elevation_angle (mathB tp) (num lat) (num dec) (num H) = .ok (num tea) ∧
      (0.12 < |tea + 5.11| →
        ∃ a, get_altitude (mathB tp) (num lat) (num lon) (.dt d) (num elev) (num T) (num P) = .ok (num a)) := by
  obtain ⟨dec, H, tea, h1, h2, -, h4⟩ := C31_exceptions tp d c h lat lon elev T P
  refine ⟨dec, H, tea, h1, h2, fun hx => ?_⟩
  have hb : -90 ≤ tea ∧ tea ≤ 90 := by
    rw [tea_eval] at h2
    rw [← num_injective (Except.ok.inj h2)]
    exact deg_arcsin_bounds _
  obtain ⟨r, -, hr⟩ := h4 (by
    rintro (h0 | h0 | h0)
    · exact hT h0
    · exact not_le.mpr hx (C31_singular_region tp tea htp hb.1 hb.2 (.inl h0))
    · exact not_le.mpr hx (C31_singular_region tp tea htp hb.1 hb.2 (.inr h0)))
  exact ⟨_, hr⟩

/-- Non-vacuity: temperature 0 raises for every location. -/
example (lat lon : ℝ) : get_altitude (mathB 1) (num lat) (num lon) (.dt sampleDT) (num 0) (num 0) (num 101325)
    = .error .zeroDivision := by
  obtain ⟨_, _, _, -, -, h, -⟩ := C31_exceptions 1 sampleDT sampleUTC sample_utc lat lon 0 0 101325
  exact h.mpr (.inl rfl)

end Verif.Props
