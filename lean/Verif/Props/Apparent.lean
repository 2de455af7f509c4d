import Verif.Props.Refraction
import Verif.Props.Steady

/-!
# C140: the apparent altitude over time, and the values `get_altitude` never returns
-/

namespace Verif.Props

open Verif.Spec Pysolar Pysolar.Solar Pysolar.Solartime Pysolar.Constants Real

theorem cos_refrArg_ne {x : ℝ} (h1 : -0.83337 ≤ x) (h2 : x ≤ 90) (h3 : x + 10.3 / (x + 5.11) ≠ 90) :
    cos (refrArg x) ≠ 0 := by
  have hb1 := bennett_lower h1
  have hb2 := bennett_upper h1 h2
  rcases lt_or_gt_of_ne h3 with h | h
  · exact (cos_rad_pos (by change -90 < bennett x; linarith) h).ne'
  · have : 0 < cos (π - refrArg x) := by
      rw [refrArg_eq, ← rad_180, ← rad_sub]
      exact cos_rad_pos (by linarith) (by change 90 < bennett x at h; linarith)
    rw [cos_pi_sub] at this
    linarith

/-- C140: for any positive pressure and temperature, the higher of two suns above the threshold of the formula is
lifted less. -/
theorem C140_lift_decreases (tp P T a b r s : ℝ) (htp : tp ≠ 0) (hP : 0 < P) (hT : 0 < T) (ha : -0.83337 ≤ a)
    (hab : a < b) (hb : b ≤ 90) (ha90 : a + 10.3 / (a + 5.11) ≠ 90) (hb90 : b + 10.3 / (b + 5.11) ≠ 90)
    (hr : get_refraction_correction (mathB tp) (num P) (num T) (num a) = .ok (num r))
    (hs : get_refraction_correction (mathB tp) (num P) (num T) (num b) = .ok (num s)) : s < r := by
  have h2 : -0.83337 ≤ b := ha.trans hab.le
  have ha' : a ≤ 90 := hab.le.trans hb
  rw [refr_value htp hT.ne' ha ha' (cos_refrArg_ne ha ha' ha90)] at hr
  rw [refr_value htp hT.ne' h2 hb (cos_refrArg_ne h2 hb hb90)] at hs
  rw [← num_injective (Except.ok.inj hr), ← num_injective (Except.ok.inj hs)]
  have hsa : 0 < sin (refrArg a) := lt_trans (by norm_num) (sin_bennett ha ha')
  have hsb : 0 < sin (refrArg b) := lt_trans (by norm_num) (sin_bennett h2 hb)
  refine mul_lt_mul_of_pos_left ?_ (by positivity)
  rw [div_lt_div_iff₀ hsb hsa]
  have hd0 := bennett_lt ha hab
  have hb1 := bennett_lower ha
  have hb2 := bennett_upper h2 hb
  have : 0 < sin (refrArg b - refrArg a) := by
    rw [refrArg_eq, refrArg_eq, ← rad_sub]
    apply sin_pos_of_pos_of_lt_pi
    · rw [← rad_zero, rad_lt_rad]; linarith
    · rw [← rad_180, rad_lt_rad]; linarith
  rw [sin_sub] at this
  linarith

/-- C140: at standard pressure and temperature, the apparent altitudes of two suns above the threshold differ by
less than their elevation angles. -/
theorem C140_apparent_slower (tp a b r s : ℝ) (htp : tp ≠ 0) (ha : -0.83337 ≤ a) (hab : a < b) (hb : b ≤ 90)
    (ha90 : a + 10.3 / (a + 5.11) ≠ 90) (hb90 : b + 10.3 / (b + 5.11) ≠ 90)
    (hr : get_refraction_correction (mathB tp) (num standard_pressure) (num standard_temperature) (num a)
      = .ok (num r))
    (hs : get_refraction_correction (mathB tp) (num standard_pressure) (num standard_temperature) (num b)
      = .ok (num s)) : 0 < (b + s) - (a + r) ∧ (b + s) - (a + r) < b - a := by
  have h1 := C66_order tp a b r s htp hab hb ha90 hb90 hr hs
  have h2 := C140_lift_decreases tp _ _ a b r s htp (by norm_num [standard_pressure]) (by norm_num [standard_temperature])
    ha hab hb ha90 hb90 hr hs
  constructor <;> linarith

/-- The correction at the threshold. -/
theorem refr_threshold {tp : ℝ} (htp : tp ≠ 0) :
    ∃ r, get_refraction_correction (mathB tp) (num standard_pressure) (num standard_temperature) (num (-0.83337))
      = .ok (num r) ∧ 0.6087 ≤ r := by
  have hne : (-0.83337 : ℝ) + 10.3 / (-0.83337 + 5.11) ≠ 90 := by norm_num
  refine ⟨_, refr_value (P := standard_pressure) htp (by norm_num [standard_temperature]) le_rfl (by norm_num)
    (cos_refrArg_ne le_rfl (by norm_num) hne), ?_⟩
  have hs0 : 0 < sin (refrArg (-0.83337)) := lt_trans (by norm_num) (sin_bennett le_rfl (by norm_num))
  have hx : refrArg (-0.83337) ≤ 0.027491 := by
    have hp := pi_lt_d6
    have hb : bennett (-0.83337) ≤ 1.57508 := by unfold bennett; norm_num
    rw [refrArg_eq]
    unfold rad
    rw [div_le_iff₀ (by norm_num)]
    have hp0 := pi_pos
    calc bennett (-0.83337) * π ≤ 1.57508 * 3.141593 := by gcongr
      _ ≤ _ := by norm_num
  have hx0 : 0 ≤ refrArg (-0.83337) := by
    rw [refrArg_eq, ← rad_zero, rad_le_rad]
    have := bennett_lower (a := -0.83337) le_rfl
    linarith
  have hc : 0.99962 ≤ cos (refrArg (-0.83337)) := by
    have := one_sub_sq_div_two_le_cos (x := refrArg (-0.83337))
    have h2 : refrArg (-0.83337) ^ 2 ≤ 0.027491 ^ 2 := by gcongr
    norm_num at *
    linarith
  have hs : sin (refrArg (-0.83337)) ≤ 0.027491 := (sin_le hx0).trans hx
  have hK : (0.016748 : ℝ) ≤ (standard_pressure : ℝ) * 2.830 * 1.02 / (1010 * (standard_temperature : ℝ) * 60) := by
    norm_num [standard_temperature, standard_pressure]
  have hq : 36.36 ≤ cos (refrArg (-0.83337)) / sin (refrArg (-0.83337)) := by
    rw [le_div_iff₀ hs0]
    norm_num at *
    linarith
  calc (0.6087 : ℝ) ≤ 0.016748 * 36.36 := by norm_num
    _ ≤ _ := mul_le_mul hK hq (by norm_num) (le_trans (by norm_num) hK)

/-- C140: at standard pressure and temperature no call of `get_altitude` returns an altitude between -0.83337 and
-0.2247 degrees: as the sun rises the altitude jumps over this interval. -/
theorem C140_gap (tp : ℝ) (htp : 1 ≤ |tp|) (d : DateTime) (c : Civil) (h : UtcFields d c) (lat lon elev alt : ℝ)
    (ha : get_altitude (mathB tp) (num lat) (num lon) (.dt d) (num elev) (num standard_temperature)
      (num standard_pressure) = .ok (num alt)) : alt < -0.83337 ∨ -0.2247 < alt := by
  have htp0 : tp ≠ 0 := by rintro rfl; norm_num at htp
  obtain ⟨dec, H, tea, -, h2, e, k⟩ := C31_exceptions tp d c h lat lon elev standard_temperature standard_pressure
  have hb : tea ≤ 90 := by
    rw [tea_eval] at h2
    rw [← num_injective (Except.ok.inj h2)]
    exact (deg_arcsin_bounds _).2
  obtain ⟨r, hr, hr'⟩ := k (by
    intro hx
    rw [e.mpr hx] at ha
    simp at ha)
  have hv := num_injective (Except.ok.inj (ha.symm.trans hr'))
  rw [hv]
  rcases lt_or_ge tea (-0.83337) with h1 | h1
  · left
    rw [num_injective (C30_zero_below _ _ _ _ h1 _ hr)]
    linarith
  · right
    obtain ⟨r0, hr0, h0⟩ := refr_threshold htp0
    by_cases h90 : tea + 10.3 / (tea + 5.11) = 90
    · have ht : 89 ≤ tea := by
        by_contra hn
        have := (C30_zenith_zero tea h1).1 (by norm_num at *; linarith)
        linarith
      have hT : ((standard_temperature : ℚ) : ℝ) ≠ 0 := by norm_num [standard_temperature]
      have hc : cos (refrArg tea) = 0 := by
        rw [refrArg_eq, bennett, h90, rad_90, cos_pi_div_two]
      have hs0 : 0 < sin (refrArg tea) := lt_trans (by norm_num) (sin_bennett h1 hb)
      rw [refr_eval (by norm_num at h1 ⊢; intro h; rw [h] at h1; norm_num at h1) hT
        (tanP_ne_of_sin htp0 hs0.ne'), if_pos h1, tanP, if_pos hc] at hr
      have hr := num_injective (Except.ok.inj hr)
      have : |r| ≤ 1 := by
        rw [← hr, div_mul_eq_div_div, abs_div]
        refine div_le_one_of_le₀ (le_trans ?_ htp) (abs_nonneg _)
        norm_num [standard_temperature, standard_pressure, abs_of_pos]
      have := (abs_le.mp this).1
      norm_num at *
      linarith
    · rcases h1.eq_or_lt with h3 | h3
      · rw [← h3] at hr ⊢
        rw [← num_injective (Except.ok.inj (hr0.symm.trans hr))]
        norm_num at *
        linarith
      · have := C66_order tp (-0.83337) tea r0 r htp0 h3 hb (by norm_num) h90 hr0 hr
        norm_num at *
        linarith

/-- The parts of an altitude returned. -/
theorem altitude_parts {tp lat lon elev : ℝ} {d : DateTime} {c : Civil} {dec H e alt : ℝ} (h : UtcFields d c)
    (q1 : get_topocentric_position (mathB tp) (num lat) (num lon) (.dt d) (num elev) = .ok (num dec, num H))
    (q2 : get_topocentric_elevation_angle (mathB tp) (num lat) (num dec) (num H) = .ok (num e))
    (hal : get_altitude (mathB tp) (num lat) (num lon) (.dt d) (num elev) (num standard_temperature)
      (num standard_pressure) = .ok (num alt)) :
    e ≤ 90 ∧ ∃ r, get_refraction_correction (mathB tp) (num standard_pressure) (num standard_temperature) (num e)
      = .ok (num r) ∧ alt = e + r := by
  obtain ⟨dec', H', e', x1, x2, x3, x4⟩ := C31_exceptions tp d c h lat lon elev standard_temperature standard_pressure
  rw [q1] at x1
  have y := Prod.mk.inj (Except.ok.inj x1)
  rw [← num_injective y.1, ← num_injective y.2, q2] at x2
  have z := num_injective (Except.ok.inj x2)
  subst z
  obtain ⟨r, r1, r2⟩ := x4 (by
    intro hx
    rw [x3.mpr hx] at hal
    simp at hal)
  refine ⟨?_, r, r1, num_injective (Except.ok.inj (hal.symm.trans r2))⟩
  rw [tea_eval] at q2
  rw [← num_injective (Except.ok.inj q2)]
  exact (deg_arcsin_bounds _).2

/-- C140: with the sun above the threshold at both of two instants of one month, the altitude returned at standard
pressure and temperature changes by at most 15.09 degrees per hour. -/
theorem C140_altitude_motion (tp : ℝ) (htp : tp ≠ 0) (d d' : DateTime) (c c' : Civil) (h : UtcFields d c)
    (h' : UtcFields d' c') (hy : c'.year = c.year) (hm : c'.month = c.month) (hle : c.micros ≤ c'.micros)
    (lat lon elev : ℝ) (h1 : -90 < lat) (h2 : lat < 90) (he : |elev| ≤ 50000) (hours : ℝ)
    (hh : hours = ((c'.micros - c.micros : ℤ) : ℝ) / 3600000000) (alt alt' : ℝ)
    (ha : get_altitude (mathB tp) (num lat) (num lon) (.dt d) (num elev) (num standard_temperature)
      (num standard_pressure) = .ok (num alt))
    (ha' : get_altitude (mathB tp) (num lat) (num lon) (.dt d') (num elev) (num standard_temperature)
      (num standard_pressure) = .ok (num alt')) :
    ∃ dec H e dec' H' e',
      get_topocentric_position (mathB tp) (num lat) (num lon) (.dt d) (num elev) = .ok (num dec, num H) ∧
      get_topocentric_elevation_angle (mathB tp) (num lat) (num dec) (num H) = .ok (num e) ∧
      get_topocentric_position (mathB tp) (num lat) (num lon) (.dt d') (num elev) = .ok (num dec', num H') ∧
      get_topocentric_elevation_angle (mathB tp) (num lat) (num dec') (num H') = .ok (num e') ∧
      (-0.83337 ≤ e → -0.83337 ≤ e' → e + 10.3 / (e + 5.11) ≠ 90 → e' + 10.3 / (e' + 5.11) ≠ 90 →
        |alt' - alt| ≤ 15.09 * hours) ∧
      (e < -0.83337 → e' < -0.83337 → |alt' - alt| ≤ 15.09 * hours) := by
  obtain ⟨dec, H, e, a, dec', H', e', a', p1, p2, -, p1', p2', -, -, -, -, hE⟩ :=
    C139_steady tp d d' c c' h h' hy hm hle lat lon elev h1 h2 he hours hh
  refine ⟨dec, H, e, dec', H', e', p1, p2, p1', p2', ?_⟩
  obtain ⟨b, r, hr, hv⟩ := altitude_parts h p1 p2 ha
  obtain ⟨b', r', hr', hv'⟩ := altitude_parts h' p1' p2' ha'
  refine ⟨fun t t' n n' => le_trans ?_ hE, fun t t' => ?_⟩
  · rw [hv, hv']
    rcases lt_trichotomy e e' with hlt | heq | hlt
    · obtain ⟨x, y⟩ := C140_apparent_slower tp e e' r r' htp t hlt b' n n' hr hr'
      rw [abs_of_pos x, abs_of_pos (by linarith)]
      exact y.le
    · subst heq
      rw [num_injective (Except.ok.inj (hr.symm.trans hr'))]
      simp
    · obtain ⟨x, y⟩ := C140_apparent_slower tp e' e r' r htp t' hlt b n' n hr' hr
      rw [abs_sub_comm, abs_of_pos x, abs_sub_comm, abs_of_pos (by linarith)]
      exact y.le
  · rw [hv, hv', num_injective (C30_zero_below _ _ _ _ t _ hr), num_injective (C30_zero_below _ _ _ _ t' _ hr')]
    simpa using hE

/-- The corrections at 10 and 20 degrees. -/
example : ∃ r s, get_refraction_correction (mathB 1) (num standard_pressure) (num standard_temperature) (num 10)
      = .ok (num r) ∧
    get_refraction_correction (mathB 1) (num standard_pressure) (num standard_temperature) (num 20) = .ok (num s) ∧
    s < r := by
  obtain ⟨r, hr, -, -⟩ := C30_sign 1 standard_pressure standard_temperature 10 (by norm_num)
    (by norm_num [standard_pressure]) (by norm_num [standard_temperature]) (by norm_num) (by norm_num) (by norm_num)
  obtain ⟨s, hs, -, -⟩ := C30_sign 1 standard_pressure standard_temperature 20 (by norm_num)
    (by norm_num [standard_pressure]) (by norm_num [standard_temperature]) (by norm_num) (by norm_num) (by norm_num)
  exact ⟨r, s, hr, hs, C140_lift_decreases 1 _ _ 10 20 r s (by norm_num) (by norm_num [standard_pressure])
    (by norm_num [standard_temperature]) (by norm_num) (by norm_num) (by norm_num) (by norm_num) (by norm_num) hr hs⟩

end Verif.Props
