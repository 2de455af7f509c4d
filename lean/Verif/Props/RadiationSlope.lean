import Verif.Props.MorningRadiation
import Verif.Props.FloatRadiation
import Verif.Props.Place
import Verif.Props.Apparent

/-!
# C161: sensitivity of the direct radiation to the altitude
-/

namespace Verif.Props

open Verif.Spec Pysolar Pysolar.Solar Pysolar.Radiation Pysolar.Constants Real

/-- `u² exp(-u)` is at most `4 / e²`. -/
theorem sq_exp_le {u : ℝ} (hu : 0 ≤ u) : u ^ 2 * exp (-u) ≤ 0.54135 := by
  have h1 := add_one_le_exp (u / 2 - 1)
  have h2 : u / 2 * exp (-(u / 2)) ≤ exp (-1) := by
    calc u / 2 * exp (-(u / 2)) ≤ exp (u / 2 - 1) * exp (-(u / 2)) := by gcongr; linarith
      _ = exp (-1) := by rw [← exp_add]; ring_nf
  have h3 := exp_neg_one_lt_d9
  have h0 : 0 ≤ u / 2 * exp (-(u / 2)) := by positivity
  have e : u ^ 2 * exp (-u) = 4 * (u / 2 * exp (-(u / 2))) ^ 2 := by
    rw [mul_pow, ← exp_nat_mul]
    ring_nf
  rw [e]
  have : (u / 2 * exp (-(u / 2))) ^ 2 ≤ 0.3678794412 ^ 2 := by
    apply pow_le_pow_left₀ h0
    norm_num at *
    linarith
  norm_num at *
  linarith

theorem exp_depth_lip {k s s' : ℝ} (hk : 0.139 ≤ k) (hs : 0 < s) (hs' : 0 < s') :
    |exp (-(k / s')) - exp (-(k / s))| ≤ 3.8947 * |s' - s| := by
  have hk0 : 0 < k := lt_of_lt_of_le (by norm_num) hk
  have key := Convex.norm_image_sub_le_of_norm_hasDerivWithin_le (f := fun s : ℝ => exp (-(k / s)))
    (f' := fun s : ℝ => exp (-(k / s)) * (k / s ^ 2)) (s := Set.Ioi 0) (x := s) (y := s') (C := 3.8947) ?_ ?_
    (convex_Ioi 0) hs hs'
  · simpa [Real.norm_eq_abs] using key
  · intro z hz
    have hz0 : z ≠ 0 := ne_of_gt hz
    have h1 : HasDerivAt (fun s : ℝ => -(k / s)) (k / z ^ 2) z := by
      have := ((hasDerivAt_inv hz0).const_mul k).fun_neg
      simp only [← div_eq_mul_inv] at this
      exact this.congr_deriv (by ring)
    exact h1.exp.hasDerivWithinAt
  · intro z hz
    have hz0 : (0 : ℝ) < z := hz
    have hu := sq_exp_le (div_pos hk0 hz0).le
    rw [Real.norm_eq_abs, abs_of_pos (by positivity)]
    have e : exp (-(k / z)) * (k / z ^ 2) = (k / z) ^ 2 * exp (-(k / z)) / k := by
      field_simp
    rw [e, div_le_iff₀ hk0]
    have : 3.8947 * 0.139 ≤ 3.8947 * k := by gcongr
    norm_num at *
    linarith

/-- The value of the formula by day and 0 by night. -/
noncomputable def clearF (f k a : ℝ) : ℝ := if 0 < a then f * exp (-(k / sin (rad a))) else 0

theorem clear_lip {f k a b : ℝ} (hf0 : 0 ≤ f) (hf : f ≤ 1235) (hk : 0.139 ≤ k) (ha : a ≤ 90) (hb : b ≤ 90) :
    |clearF f k b - clearF f k a| ≤ 84 * |b - a| := by
  have hr : ∀ x : ℝ, rad x = π / 180 * x := fun x => by unfold rad; ring
  have hpi := pi_lt_d4
  have one : ∀ {a b : ℝ}, a ≤ 0 → 0 < b → b ≤ 90 → |clearF f k b - clearF f k a| ≤ 84 * |b - a| := by
    intro a b h0 h1 h2
    have hs := sin_rad_pos' h1 h2
    have hk0 : 0 < k := lt_of_lt_of_le (by norm_num) hk
    unfold clearF
    rw [if_pos h1, if_neg (not_lt.mpr h0), sub_zero, abs_of_nonneg (by positivity), abs_of_pos (by linarith)]
    have hsb : sin (rad b) ≤ rad b := sin_le (by rw [hr]; positivity)
    have h3 := exp_neg_one_lt_d9
    have h4 : k / sin (rad b) * exp (-(k / sin (rad b))) ≤ exp (-1) := by
      have h5 := add_one_le_exp (k / sin (rad b) - 1)
      calc _ ≤ exp (k / sin (rad b) - 1) * exp (-(k / sin (rad b))) := by gcongr; linarith
        _ = exp (-1) := by rw [← exp_add]; ring_nf
    have h6 : k * exp (-(k / sin (rad b))) ≤ exp (-1) * sin (rad b) := by
      rw [div_mul_eq_mul_div, div_le_iff₀ hs] at h4
      exact h4
    have h7 : 0.139 * exp (-(k / sin (rad b))) ≤ k * exp (-(k / sin (rad b))) := by gcongr
    have h8 : exp (-1) * sin (rad b) ≤ 0.3678794412 * rad b := by
      refine mul_le_mul ?_ hsb hs.le (by norm_num)
      norm_num at *
      linarith
    have h9 : rad b ≤ 0.0174534 * b := by
      rw [hr]
      gcongr
      norm_num at *
      linarith
    have h10 : exp (-(k / sin (rad b))) ≤ 0.0462 * b := by
      norm_num at *
      linarith
    calc f * exp (-(k / sin (rad b))) ≤ 1235 * (0.0462 * b) := by gcongr
      _ ≤ 84 * (b - a) := by linarith
  rcases le_or_gt a 0 with h0 | h0 <;> rcases le_or_gt b 0 with h1 | h1
  · unfold clearF
    rw [if_neg (not_lt.mpr h0), if_neg (not_lt.mpr h1)]
    simp
  · exact one h0 h1 hb
  · rw [abs_sub_comm, abs_sub_comm b]
    exact one h1 h0 ha
  · unfold clearF
    rw [if_pos h0, if_pos h1, ← mul_sub, abs_mul, abs_of_nonneg hf0]
    have h2 := exp_depth_lip hk (sin_rad_pos' h0 ha) (sin_rad_pos' h1 hb)
    have h3 : |sin (rad b) - sin (rad a)| ≤ 0.01745333 * |b - a| := by
      refine (abs_sin_sub_sin_le _ _).trans ?_
      rw [hr, hr, ← mul_sub, abs_mul, abs_of_pos (by positivity)]
      gcongr
      have := pi_lt_d6
      norm_num at *
      linarith
    calc f * |exp (-(k / sin (rad b))) - exp (-(k / sin (rad a)))|
        ≤ 1235 * (3.8947 * (0.01745333 * |b - a|)) := by gcongr; exact h2.trans (by gcongr)
      _ ≤ 84 * |b - a| := by nlinarith [abs_nonneg (b - a)]

theorem direct_value {tp : ℝ} {d : DateTime} {c : Civil} (h : UtcFields d c) {a r : ℝ} (h1 : -90 ≤ a) (h2 : a ≤ 90)
    (hr : get_radiation_direct (mathB tp) (.dt d) (num a) = .ok (num r)) :
    r = clearF (fluxF (yday c.date)) (depthF (yday c.date)) a := by
  unfold clearF
  have hk : 0 < depthF (yday c.date) := lt_of_lt_of_le (by norm_num) (depthF_bounds _).1
  rcases lt_trichotomy a 0 with h0 | h0 | h0
  · rw [if_neg h0.not_gt]
    obtain ⟨k, -, k1, k2⟩ := C41_band_partial tp d c h a h1 h0
    rcases lt_or_ge (exp (k / |sin (rad a)|)) (2 ^ 1024) with hx | hx
    · exact num_injective (Except.ok.inj (hr.symm.trans (k1 hx)))
    · cases hr.symm.trans (k2 hx)
  · rw [if_neg (by rw [h0]; exact lt_irrefl _)]
    exact num_injective (Except.ok.inj (hr.symm.trans (C41_zero_partial tp d c h a h1 (.inr h0))))
  · have hs := sin_rad_pos' h0 h2
    rw [direct_eval h hs.ne' (exp_small (neg_nonpos.mpr (div_pos hk hs).le))] at hr
    exact (num_injective (Except.ok.inj hr)).symm

/-- C161: within one day of the year, two results of `get_radiation_direct` at altitudes from -90 to 90 degrees differ by
at most 84 W/m² per degree of difference of the altitudes, across the horizon too (where both calls return, see C41). -/
theorem C161_altitude (tp : ℝ) (d d' : DateTime) (c c' : Civil) (h : UtcFields d c) (h' : UtcFields d' c')
    (hy : yday c'.date = yday c.date) (a b r s : ℝ) (ha : -90 ≤ a) (ha' : a ≤ 90) (hb : -90 ≤ b) (hb' : b ≤ 90)
    (hr : get_radiation_direct (mathB tp) (.dt d) (num a) = .ok (num r))
    (hs : get_radiation_direct (mathB tp) (.dt d') (num b) = .ok (num s)) :
    |s - r| ≤ 84 * |b - a| := by
  rw [direct_value h ha ha' hr, direct_value h' hb hb' hs, hy]
  have f := fluxF_bounds (yday c.date)
  exact clear_lip (by linarith [f.1]) f.2 (depthF_bounds _).1 ha' hb'

/-- C161 for days of the year that differ by at most one: at most 3.3 W/m² more. -/
theorem C161_next_day (tp : ℝ) (d d' : DateTime) (c c' : Civil) (h : UtcFields d c) (h' : UtcFields d' c')
    (hy : |(yday c'.date : ℝ) - yday c.date| ≤ 1) (a b r s : ℝ) (ha : -90 ≤ a) (ha' : a ≤ 90) (hb : -90 ≤ b) (hb' : b ≤ 90)
    (hr : get_radiation_direct (mathB tp) (.dt d) (num a) = .ok (num r))
    (hs : get_radiation_direct (mathB tp) (.dt d') (num b) = .ok (num s)) :
    |s - r| ≤ 84 * |b - a| + 3.3 := by
  rw [direct_value h ha ha' hr, direct_value h' hb hb' hs]
  have f := fluxF_bounds (yday c.date)
  have f' := fluxF_bounds (yday c'.date)
  have k := depthF_bounds (yday c.date)
  have k' := depthF_bounds (yday c'.date)
  obtain ⟨u, v⟩ := day_step hy
  have one := clear_lip (f := fluxF (yday c.date)) (k := depthF (yday c.date)) (by linarith [f.1]) f.2 k.1 ha' hb'
  have two : |clearF (fluxF (yday c'.date)) (depthF (yday c'.date)) b
      - clearF (fluxF (yday c.date)) (depthF (yday c.date)) b| ≤ 3.3 := by
    unfold clearF
    split_ifs with h0
    · have p := sin_rad_pos' h0 hb'
      have x := step_loss u v (by linarith [f.1]) f'.2 (by linarith [f'.1]) k.1 p le_rfl
      have y := step_loss ((abs_sub_comm _ _).trans_le u) ((abs_sub_comm _ _).trans_le v) (by linarith [f'.1]) f.2 (by linarith [f.1]) k'.1 p
        le_rfl
      rw [abs_le]
      constructor <;> linarith
    · norm_num
  calc _ ≤ _ + _ := abs_sub_le _ (clearF (fluxF (yday c.date)) (depthF (yday c.date)) b) _
    _ ≤ _ := by linarith

/-- C161 over the place, by `C152`: an error of the place changes the direct radiation by at most 84.03 W/m² per degree of
latitude and of longitude, and by 2.1e-7 W/m² per metre of elevation; the sun being above the threshold of the refraction
formula at both places, or below it at both. -/
theorem C161_place (tp : ℝ) (htp : tp ≠ 0) (d : DateTime) (c : Civil) (h : UtcFields d c)
    (lat lon elev lat' lon' elev' : ℝ) (h1 : -90 < lat) (h2 : lat < 90) (he : |elev| ≤ 50000) (h1' : -90 < lat')
    (h2' : lat' < 90) (he' : |elev'| ≤ 50000) (k : ℤ) (alt alt' r r' : ℝ)
    (ha : get_altitude (mathB tp) (num lat) (num lon) (.dt d) (num elev) (num standard_temperature)
      (num standard_pressure) = .ok (num alt))
    (ha' : get_altitude (mathB tp) (num lat') (num lon') (.dt d) (num elev') (num standard_temperature)
      (num standard_pressure) = .ok (num alt')) (hal : |alt| ≤ 90) (hal' : |alt'| ≤ 90)
    (hr : get_radiation_direct (mathB tp) (.dt d) (num alt) = .ok (num r))
    (hr' : get_radiation_direct (mathB tp) (.dt d) (num alt') = .ok (num r')) :
    ∃ dec H e dec' H' e',
      get_topocentric_position (mathB tp) (num lat) (num lon) (.dt d) (num elev) = .ok (num dec, num H) ∧
      get_topocentric_elevation_angle (mathB tp) (num lat) (num dec) (num H) = .ok (num e) ∧
      get_topocentric_position (mathB tp) (num lat') (num lon') (.dt d) (num elev') = .ok (num dec', num H') ∧
      get_topocentric_elevation_angle (mathB tp) (num lat') (num dec') (num H') = .ok (num e') ∧
      ((-0.83337 ≤ e ∧ -0.83337 ≤ e' ∧ e + 10.3 / (e + 5.11) ≠ 90 ∧ e' + 10.3 / (e' + 5.11) ≠ 90) ∨
          (e < -0.83337 ∧ e' < -0.83337) →
        |r' - r| ≤ 84.03 * (|lat' - lat| + |lon' - lon - 360 * k|) + 2.1e-7 * |elev' - elev|) := by
  obtain ⟨dec, H, e, dec', H', e', p1, p2, p3, p4, q⟩ :=
    C152_altitude tp htp d c h lat lon elev lat' lon' elev' h1 h2 he h1' h2' he' k alt alt' ha ha'
  refine ⟨dec, H, e, dec', H', e', p1, p2, p3, p4, fun hs => ?_⟩
  rw [abs_le] at hal hal'
  have x := C161_altitude tp d d c c h h rfl alt alt' r r' hal.1 hal.2 hal'.1 hal'.2 hr hr'
  have y := q hs
  have u := abs_nonneg (lat' - lat)
  have v := abs_nonneg (lon' - lon - 360 * k)
  have w := abs_nonneg (elev' - elev)
  norm_num at y ⊢
  linarith

/-- C161 over the time of one UTC date, by `C140`: at most 1267.6 W/m² per hour, 21.2 W/m² per minute. -/
theorem C161_time (tp : ℝ) (htp : tp ≠ 0) (d d' : DateTime) (c c' : Civil) (h : UtcFields d c) (h' : UtcFields d' c')
    (hdate : c'.date = c.date) (hle : c.micros ≤ c'.micros)
    (lat lon elev : ℝ) (h1 : -90 < lat) (h2 : lat < 90) (he : |elev| ≤ 50000) (hours : ℝ)
    (hh : hours = ((c'.micros - c.micros : ℤ) : ℝ) / 3600000000) (alt alt' r r' : ℝ)
    (ha : get_altitude (mathB tp) (num lat) (num lon) (.dt d) (num elev) (num standard_temperature)
      (num standard_pressure) = .ok (num alt))
    (ha' : get_altitude (mathB tp) (num lat) (num lon) (.dt d') (num elev) (num standard_temperature)
      (num standard_pressure) = .ok (num alt')) (hal : |alt| ≤ 90) (hal' : |alt'| ≤ 90)
    (hr : get_radiation_direct (mathB tp) (.dt d) (num alt) = .ok (num r))
    (hr' : get_radiation_direct (mathB tp) (.dt d') (num alt') = .ok (num r')) :
    ∃ dec H e dec' H' e',
      get_topocentric_position (mathB tp) (num lat) (num lon) (.dt d) (num elev) = .ok (num dec, num H) ∧
      get_topocentric_elevation_angle (mathB tp) (num lat) (num dec) (num H) = .ok (num e) ∧
      get_topocentric_position (mathB tp) (num lat) (num lon) (.dt d') (num elev) = .ok (num dec', num H') ∧
      get_topocentric_elevation_angle (mathB tp) (num lat) (num dec') (num H') = .ok (num e') ∧
      ((-0.83337 ≤ e ∧ -0.83337 ≤ e' ∧ e + 10.3 / (e + 5.11) ≠ 90 ∧ e' + 10.3 / (e' + 5.11) ≠ 90) ∨
          (e < -0.83337 ∧ e' < -0.83337) → |r' - r| ≤ 1267.6 * hours) := by
  have hy : c'.year = c.year := congrArg YMD.year hdate
  have hm : c'.month = c.month := congrArg YMD.month hdate
  obtain ⟨dec, H, e, dec', H', e', p1, p2, p3, p4, q1, q2⟩ :=
    C140_altitude_motion tp htp d d' c c' h h' hy hm hle lat lon elev h1 h2 he hours hh alt alt' ha ha'
  refine ⟨dec, H, e, dec', H', e', p1, p2, p3, p4, fun hs => ?_⟩
  rw [abs_le] at hal hal'
  have x := C161_altitude tp d d' c c' h h' (by rw [hdate]) alt alt' r r' hal.1 hal.2 hal'.1 hal'.2 hr hr'
  have y : |alt' - alt| ≤ 15.09 * hours := by
    rcases hs with ⟨t, t', n, n'⟩ | ⟨t, t'⟩
    · exact q1 t t' n n'
    · exact q2 t t'
  have : 0 ≤ hours := by
    rw [hh]
    have : (0 : ℝ) ≤ ((c'.micros - c.micros : ℤ) : ℝ) := by exact_mod_cast sub_nonneg.mpr hle
    positivity
  norm_num at y ⊢
  linarith

/-- C161 in double precision, the sun at least a millionth of a degree above the horizon. -/
theorem C161_double (F : F64) (d d' : DateTime) (c c' : Civil) (h : UtcFields d c) (h' : UtcFields d' c')
    (hy : yday c'.date = yday c.date) (a b : ℝ) (ha : 1 / 10 ^ 6 ≤ a) (ha' : a ≤ 90) (hb : 1 / 10 ^ 6 ≤ b) (hb' : b ≤ 90) :
    ∃ r s, get_radiation_direct (rndB F) (.dt d) (flt F a) = .ok (flt F r) ∧
      get_radiation_direct (rndB F) (.dt d') (flt F b) = .ok (flt F s) ∧ |s - r| ≤ 84 * |b - a| + 2 / 10 ^ 11 := by
  obtain ⟨x, r, hx, hr, er⟩ := C105_direct_radiation F 1 d c h a ha ha'
  obtain ⟨y, s, hy', hs, es⟩ := C105_direct_radiation F 1 d' c' h' b hb hb'
  have p : (0 : ℝ) < 1 / 10 ^ 6 := by norm_num
  have k := C161_altitude 1 d d' c c' h h' hy a b x y (by linarith) ha' (by linarith) hb' hx hy'
  refine ⟨r, s, hr, hs, ?_⟩
  rw [abs_le] at er es k ⊢
  constructor <;> linarith [er.1, er.2, es.1, es.2, k.1, k.2]

/-- Non-vacuity: 30 and 31 degrees at the sample datetime. -/
example : ∃ r s, get_radiation_direct (mathB 1) (.dt sampleDT) (num 30) = .ok (num r) ∧
    get_radiation_direct (mathB 1) (.dt sampleDT) (num 31) = .ok (num s) ∧ |s - r| ≤ 84 := by
  obtain ⟨-, -, r, -, -, hr, -⟩ := C40_range 1 _ _ sample_utc 30 (by norm_num) (by norm_num)
  obtain ⟨-, -, s, -, -, hs, -⟩ := C40_range 1 _ _ sample_utc 31 (by norm_num) (by norm_num)
  refine ⟨r, s, hr, hs, ?_⟩
  have := C161_altitude 1 _ _ _ _ sample_utc sample_utc rfl 30 31 r s (by norm_num) (by norm_num) (by norm_num) (by norm_num) hr hs
  norm_num at this ⊢
  exact this

end Verif.Props
