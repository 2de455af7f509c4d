import Verif.Proofs.FastEval
import Verif.Props.Time
import Verif.Props.Direction

/-!
# C35-C38 and the fast part of C29: the fast position functions
-/

namespace Verif.Props

open Verif.Spec Pysolar Pysolar.Solar Pysolar.Numeric Real

/-! ## C35 -/

/-- C35: range of the declination, attained exactly at the solstice phases. -/
theorem C35_declination (tp n : ℝ) :
    ∃ x, get_declination (mathB tp) (num n) = .ok (num x) ∧ |x| ≤ 23.45 ∧
      (|x| = 23.45 ↔ ∃ k : ℤ, n = 81 + 365 / 4 + k * (365 / 2)) := by
  refine ⟨_, decl_eval n, ?_, ?_⟩
  · unfold decF
    rw [abs_mul, abs_of_pos (by norm_num : (0 : ℝ) < 23.45)]
    have := abs_sin_le_one (2 * π / 365 * (n - 81))
    nlinarith
  · unfold decF
    rw [abs_mul, abs_of_pos (by norm_num : (0 : ℝ) < 23.45)]
    have hpi := pi_pos
    have e1 : 23.45 * |sin (2 * π / 365 * (n - 81))| = 23.45 ↔ cos (2 * π / 365 * (n - 81)) = 0 := by
      rw [mul_eq_left₀ (by norm_num), cos_eq_zero_iff_sin_eq]
      constructor
      · intro h
        rcases abs_choice (sin (2 * π / 365 * (n - 81))) with h' | h' <;> rw [h'] at h
        · left; exact h
        · right; linarith
      · rintro (h | h) <;> rw [h] <;> simp
    rw [e1, cos_eq_zero_iff]
    constructor
    · rintro ⟨k, hk⟩
      refine ⟨k, ?_⟩
      have : (2 * (n - 81) / 365) * π = ((2 * k + 1) / 2) * π := by linarith
      have := mul_right_cancel₀ hpi.ne' this
      linarith
    · rintro ⟨k, hk⟩
      refine ⟨k, ?_⟩
      rw [hk]
      ring

/-- C35: `declination_degree` with its default argument is `get_declination` of the UTC day of the year. -/
theorem C35_declination_degree (tp : ℝ) (d : DateTime) (c : Civil) (h : UtcFields d c) :
    Util.declination_degree (mathB tp) (.dt d) = get_declination (mathB tp) (num (yday c.date)) := by
  have h2 : ((365.0 : ℚ) : ℝ) = 365 := by norm_num
  have h3 : ((Util.TY_default : ℚ) : ℝ) = 365 := by norm_num [Util.TY_default]
  simp only [Util.declination_degree, guard_denotes h.2, Util.utcYday, utctimetuple_dt,
    utctimetuple_of_utcFields h, ok_bind, pure_eq_ok, m_lit, m_ofNat, m_pi, m_mul,
    m_sub, m_sin, get_declination, m_divq, h2, h3, m_div _ (by norm_num : (365 : ℝ) ≠ 0)]
  norm_num

/-- C35: range of the equation of time. -/
theorem C35_equation_of_time (tp n : ℝ) :
    ∃ x, equation_of_time (mathB tp) (num n) = .ok (num x) ∧ |x| ≤ 18.9 := by
  refine ⟨_, eot_eval n, ?_⟩
  unfold eotF
  have a := abs_le.mp (abs_sin_le_one (2 * (2 * π / 364 * (n - 81))))
  have b := abs_le.mp (abs_cos_le_one (2 * π / 364 * (n - 81)))
  have c := abs_le.mp (abs_sin_le_one (2 * π / 364 * (n - 81)))
  rw [abs_le]
  norm_num
  constructor <;> linarith

/-! ## C36 -/

theorem decF_abs (n : ℝ) : |decF n| ≤ 23.45 := by
  obtain ⟨x, hx, h, -⟩ := C35_declination 0 n
  rw [decl_eval] at hx
  rw [num_injective (Except.ok.inj hx)]
  exact h

/-- C36: the value. -/
theorem C36_altitude_fast (tp : ℝ) (d : DateTime) (c : Civil) (h : UtcFields d c) (lat lon : ℝ) :
    ∃ dec H alt, get_declination (mathB tp) (num (yday c.date)) = .ok (num dec) ∧
      get_hour_angle (mathB tp) (.dt d) (num lon) = .ok (num H) ∧
      get_altitude_fast (mathB tp) (num lat) (num lon) (.dt d) = .ok (num alt) ∧
      -90 ≤ alt ∧ alt ≤ 90 ∧ sin (rad alt) = (sunENU lat H dec).z ∧
      (|lat| ≤ 90 → alt ≤ 90 - |lat - dec|) ∧ (|lat| ≤ 90 → H = 0 → alt = 90 - |lat - dec|) := by
  have hz := unit_z (sunENU_unit lat (haF lon c) (decF (yday c.date)))
  have hr : sin (rad (altF lat lon c)) = (sunENU lat (haF lon c) (decF (yday c.date))).z := by
    unfold altF
    rw [rad_deg, sin_arcsin hz.1 hz.2]
  refine ⟨_, _, _, decl_eval _, ha_eval h lon, altF_eval h lat lon, (deg_arcsin_bounds _).1,
    (deg_arcsin_bounds _).2, hr, ?_, ?_⟩
  all_goals
    intro hlat
    have hd := decF_abs (yday c.date)
    set dec := decF (yday c.date) with hdec
    set H := haF lon c with hH
    have hcl : 0 ≤ cos (rad lat) := cos_rad_nonneg (abs_le.mp hlat).1 (abs_le.mp hlat).2
    have hcd : 0 ≤ cos (rad dec) := by
      rw [abs_le] at hd
      apply cos_rad_nonneg <;> linarith
    have hle : |lat - dec| ≤ 180 := by
      refine (abs_sub _ _).trans ?_
      linarith
    have hcosabs : cos (rad (lat - dec)) = cos (rad |lat - dec|) := by
      rcases abs_choice (lat - dec) with h | h <;> rw [h]
      rw [rad_neg, cos_neg]
    have key : arcsin (cos (rad (lat - dec))) = rad (90 - |lat - dec|) := by
      rw [hcosabs, ← sin_pi_div_two_sub, ← rad_90, ← rad_sub, arcsin_sin]
      · rw [← rad_90, ← rad_neg, rad_le_rad]; linarith
      · rw [← rad_90, rad_le_rad]; linarith [abs_nonneg (lat - dec)]
    have hup : (sunENU lat H dec).z = cos (rad (lat - dec)) - cos (rad lat) * cos (rad dec) * (1 - cos (rad H)) := by
      rw [← up_eq, rad_sub, cos_sub]
      ring
  · have : (sunENU lat H dec).z ≤ cos (rad (lat - dec)) := by
      rw [hup]
      have := cos_le_one (rad H)
      have := mul_nonneg (mul_nonneg hcl hcd) (sub_nonneg.mpr this)
      linarith
    have := monotone_arcsin this
    rw [key] at this
    unfold altF
    rw [← rad_le_rad, rad_deg]
    exact this
  · intro h0
    rw [h0] at hup
    simp only [rad_zero, cos_zero, sub_self, mul_zero, sub_zero] at hup
    unfold altF
    rw [← hH, ← hdec, h0, hup, key, deg_rad]

example : UtcFields sampleDT sampleUTC := sample_utc

/-! ## C37 -/

open scoped Classical in
/-- The quadrant selection of `get_azimuth_fast`: `s` is the eastward component divided by the length of
the horizontal part; the condition says that the northward component is not positive. -/
theorem bearing_of_asin {v : Vec3} {k s : ℝ} {P : Prop} (hk : 0 < k) (hk2 : k ^ 2 = v.x ^ 2 + v.y ^ 2)
    (hs : s = v.x / k) (hP : P ↔ v.y ≤ 0) {a : ℝ}
    (ha : a = if P then 180 - deg (arcsin s) else deg (arcsin s) + 360 * if arcsin s < 0 then 1 else 0) :
    0 ≤ a ∧ a < 360 ∧ k * sin (rad a) = v.x ∧ k * cos (rad a) = v.y := by
  have hs2 : s ^ 2 * k ^ 2 = v.x ^ 2 := by rw [hs]; field_simp
  have hs1 : s ^ 2 ≤ 1 := by
    by_contra hn
    have : 1 < s ^ 2 := not_le.mp hn
    have hk' : 0 < k ^ 2 := by positivity
    nlinarith [sq_nonneg v.y]
  have hsb : -1 ≤ s ∧ s ≤ 1 := abs_le.mp (abs_le_one_iff_mul_self_le_one.mpr (by nlinarith))
  have hsin : sin (arcsin s) = s := sin_arcsin hsb.1 hsb.2
  have hks : k * s = v.x := by rw [hs]; field_simp
  have hcos : k * cos (arcsin s) = |v.y| := by
    rw [cos_arcsin, ← sqrt_sq (abs_nonneg v.y), ← sqrt_sq hk.le, ← sqrt_mul (by positivity), sq_abs]
    congr 1
    nlinarith
  have hb := deg_arcsin_bounds s
  by_cases hp : P
  · rw [if_pos hp] at ha
    have hy := hP.mp hp
    subst ha
    refine ⟨by linarith, by linarith, ?_, ?_⟩
    · rw [rad_sub, rad_deg, rad_180, sin_pi_sub, hsin, hks]
    · rw [rad_sub, rad_deg, rad_180, cos_pi_sub, mul_neg, hcos, abs_of_nonpos hy, neg_neg]
  · rw [if_neg hp] at ha
    have hy : 0 < v.y := not_le.mp fun h => hp (hP.mpr h)
    have hper : sin (rad a) = sin (arcsin s) ∧ cos (rad a) = cos (arcsin s) := by
      rw [ha, rad_add, rad_deg]
      split_ifs
      · rw [mul_one, rad_360]; exact ⟨sin_add_two_pi _, cos_add_two_pi _⟩
      · rw [mul_zero, rad_zero, add_zero]; exact ⟨rfl, rfl⟩
    refine ⟨?_, ?_, ?_, ?_⟩
    · rw [ha]
      split_ifs with h
      · linarith
      · have : deg 0 ≤ deg (arcsin s) := deg_le_deg.mpr (not_lt.mp h)
        rw [deg_zero] at this
        linarith
    · rw [ha]
      split_ifs with h
      · have : deg (arcsin s) < deg 0 := deg_lt_deg.mpr h
        rw [deg_zero] at this
        linarith
      · linarith
    · rw [hper.1, hsin, hks]
    · rw [hper.2, hcos, abs_of_pos hy]

/-- C37. -/
theorem C37_azimuth_fast (tp : ℝ) (d : DateTime) (c : Civil) (h : UtcFields d c) (lat lon : ℝ)
    (h1 : -90 < lat) (h2 : lat < 90) (dec H alt : ℝ)
    (hdec : get_declination (mathB tp) (num (yday c.date)) = .ok (num dec))
    (hH : get_hour_angle (mathB tp) (.dt d) (num lon) = .ok (num H))
    (halt : get_altitude_fast (mathB tp) (num lat) (num lon) (.dt d) = .ok (num alt))
    (hne1 : alt ≠ 90) (hne2 : alt ≠ -90) :
    ∃ azi, get_azimuth_fast (mathB tp) (num lat) (num lon) (.dt d) = .ok (num azi) ∧
      0 ≤ azi ∧ azi < 360 ∧ horizontal alt azi = sunENU lat H dec ∧
      get_topocentric_azimuth_angle (mathB tp) (num H) (num lat) (num dec) = .ok (num azi) := by
  rw [decl_eval] at hdec
  rw [ha_eval h] at hH
  rw [altF_eval h] at halt
  have hdec := num_injective (Except.ok.inj hdec)
  have hH := num_injective (Except.ok.inj hH)
  have halt := num_injective (Except.ok.inj halt)
  have hbd := deg_arcsin_bounds (sunENU lat H dec).z
  have halt' : alt = deg (arcsin (sunENU lat H dec).z) := by rw [← halt, altF, hdec, hH]
  have hz := unit_z (sunENU_unit lat H dec)
  have hk : 0 < cos (rad alt) := by
    apply cos_rad_pos
    · exact lt_of_le_of_ne (halt' ▸ hbd.1) (Ne.symm hne2)
    · exact lt_of_le_of_ne (halt' ▸ hbd.2) hne1
  have hk2 : cos (rad alt) ^ 2 = (sunENU lat H dec).x ^ 2 + (sunENU lat H dec).y ^ 2 := by
    rw [halt', rad_deg, cos_arcsin_z (sunENU_unit lat H dec), sq_sqrt (by positivity)]
    ring
  have hd := abs_le.mp (decF_abs (yday c.date))
  rw [hdec] at hd
  have hcd : 0 < cos (rad dec) := cos_rad_pos (by linarith) (by linarith)
  have hcl : 0 < cos (rad lat) := cos_rad_pos h1 h2
  have hx : (sunENU lat H dec).x = -cos (rad dec) * sin (rad H) := by
    simp [sunENU, toHorizon, sph]
  have hP : tanP tp (rad dec) ≤ cos (rad H) * tanP tp (rad lat) ↔ (sunENU lat H dec).y ≤ 0 := by
    rw [tanP_of_ne hcd.ne', tanP_of_ne hcl.ne', tan_eq_sin_div_cos, tan_eq_sin_div_cos,
      div_le_iff₀ hcd, show cos (rad H) * (sin (rad lat) / cos (rad lat)) * cos (rad dec)
        = cos (rad H) * sin (rad lat) * cos (rad dec) / cos (rad lat) by ring, le_div_iff₀ hcl]
    simp only [sunENU, toHorizon, sph]
    constructor <;> intro h <;> nlinarith
  have hb := bearing_of_asin hk hk2 rfl hP rfl
  obtain ⟨b1, b2, b3, b4⟩ := hb
  have hs1 : -1 ≤ (sunENU lat H dec).x / cos (rad alt) ∧ (sunENU lat H dec).x / cos (rad alt) ≤ 1 := by
    have : |(sunENU lat H dec).x| ≤ cos (rad alt) := by
      apply abs_le_of_sq_le_sq _ hk.le
      rw [hk2]
      nlinarith [sq_nonneg (sunENU lat H dec).y]
    rw [le_div_iff₀ hk, div_le_iff₀ hk]
    rw [abs_le] at this
    constructor <;> linarith
  have he := aziF_eval (tp := tp) h lat lon (by rw [halt]; exact hk.ne')
    (s := (sunENU lat H dec).x / cos (rad alt)) (by rw [halt, hdec, hH, hx]) hs1
  rw [hdec, hH] at he
  refine ⟨_, he, b1, b2, ?_, ?_⟩
  · unfold horizontal
    rw [b3, b4, halt', rad_deg, sin_arcsin hz.1 hz.2]
  · rw [taa_eval]
    congr 2
    have hdir := azimuth_direction tp lat H dec (by linarith) (by linarith)
    rw [← halt'] at hdir
    have q1 := congrArg Vec3.x hdir
    have q2 := congrArg Vec3.y hdir
    simp only [horizontal] at q1 q2
    apply bearing_unique (mod360_nonneg _) (mod360_lt _) b1 b2
    · exact mul_left_cancel₀ hk.ne' (q1.trans b3.symm)
    · exact mul_left_cancel₀ hk.ne' (q2.trans b4.symm)

/-! ## C38 -/

/-- C38: for every backend, only the UTC day and minute matter. -/
theorem C38_minute_granularity (B : Backend) (d d' : DateTime) (c c' : Civil) (h : UtcFields d c)
    (h' : UtcFields d' c') (hy : c.year = c'.year) (hm : c.month = c'.month) (hd : c.day = c'.day)
    (hh : c.hour = c'.hour) (hmin : c.minute = c'.minute) (lat lon : B.α) :
    get_solar_time B lon (.dt d) = get_solar_time B lon (.dt d') ∧
    get_hour_angle B (.dt d) lon = get_hour_angle B (.dt d') lon ∧
    get_altitude_fast B lat lon (.dt d) = get_altitude_fast B lat lon (.dt d') ∧
    get_azimuth_fast B lat lon (.dt d) = get_azimuth_fast B lat lon (.dt d') := by
  obtain ⟨e1, e2, e3, -⟩ := C15_date_parts B d c h.1 (utcMicros_of_denotes h.2).symm
  obtain ⟨f1, f2, f3, -⟩ := C15_date_parts B d' c' h'.1 (utcMicros_of_denotes h'.2).symm
  rw [hy, hm, hd] at e1
  rw [hh] at e2
  rw [hmin] at e3
  have g1 : tm_yday B (.dt d) = tm_yday B (.dt d') := by rw [e1, f1]
  have g2 : tm_hour B (.dt d) = tm_hour B (.dt d') := by rw [e2, f2]
  have g3 : tm_min B (.dt d) = tm_min B (.dt d') := by rw [e3, f3]
  have hs : get_solar_time B lon (.dt d) = get_solar_time B lon (.dt d') := by
    simp only [get_solar_time, guard_denotes h.2, guard_denotes h'.2, g1, g2, g3]
  have ha : get_hour_angle B (.dt d) lon = get_hour_angle B (.dt d') lon := by
    simp only [get_hour_angle, guard_denotes h.2, guard_denotes h'.2, hs]
  have hal : get_altitude_fast B lat lon (.dt d) = get_altitude_fast B lat lon (.dt d') := by
    simp only [get_altitude_fast, guard_denotes h.2, guard_denotes h'.2, g1, ha]
  refine ⟨hs, ha, hal, ?_⟩
  simp only [get_azimuth_fast, g1, ha, hal]

/-- C38: one degree of longitude is four minutes of solar time, and the hour angle advances 15 degrees per
hour of clock time within a UTC day. -/
theorem C38_linear (tp : ℝ) (d d' : DateTime) (c c' : Civil) (h : UtcFields d c) (h' : UtcFields d' c')
    (hdate : c.date = c'.date) (lon lon' : ℝ) :
    ∃ s s' H H', get_solar_time (mathB tp) (num lon) (.dt d) = .ok (num s) ∧
      get_solar_time (mathB tp) (num lon') (.dt d') = .ok (num s') ∧
      get_hour_angle (mathB tp) (.dt d) (num lon) = .ok (num H) ∧
      get_hour_angle (mathB tp) (.dt d') (num lon') = .ok (num H') ∧
      s' - s = ((c'.hour : ℝ) - c.hour) + ((c'.minute : ℝ) - c.minute) / 60 + 4 / 60 * (lon' - lon) ∧
      H' - H = 15 * (s' - s) := by
  refine ⟨_, _, _, _, soltime_eval h lon, soltime_eval h' lon', ha_eval h lon, ha_eval h' lon', ?_, ?_⟩
  · unfold solF
    rw [hdate]
    ring
  · unfold haF
    ring

/-- At 12:00 solar time the hour angle is 0: with the equation of time of the day, on the right meridian. -/
example (tp : ℝ) (d : DateTime) (c : Civil) (h : UtcFields d c) :
    get_hour_angle (mathB tp) (.dt d)
      (num ((720 - (c.hour : ℝ) * 60 - c.minute - eotF (yday c.date)) / 4)) = .ok (num 0) := by
  rw [ha_eval h]
  congr 2
  unfold haF solF
  ring

/-! ## C29, fast functions -/

theorem haF_periodic (lon : ℝ) (c : Civil) (k : ℤ) : haF (lon + 360 * k) c = haF lon c + 360 * k := by
  unfold haF solF
  ring

theorem cos_rad_add_turns (x : ℝ) (k : ℤ) : cos (rad (x + 360 * k)) = cos (rad x) := by
  rw [← cos_rad_mod360, mod360_add_int, cos_rad_mod360]

theorem sin_rad_add_turns (x : ℝ) (k : ℤ) : sin (rad (x + 360 * k)) = sin (rad x) := by
  rw [← sin_rad_mod360, mod360_add_int, sin_rad_mod360]

/-- C29: the fast functions (including their exceptions). -/
theorem C29_fast (tp : ℝ) (d : DateTime) (c : Civil) (h : UtcFields d c) (lat lon : ℝ) (k : ℤ) :
    get_altitude_fast (mathB tp) (num lat) (num (lon + 360 * k)) (.dt d)
      = get_altitude_fast (mathB tp) (num lat) (num lon) (.dt d) ∧
    get_azimuth_fast (mathB tp) (num lat) (num (lon + 360 * k)) (.dt d)
      = get_azimuth_fast (mathB tp) (num lat) (num lon) (.dt d) := by
  have ha : altF lat (lon + 360 * k) c = altF lat lon c := by
    unfold altF
    rw [← up_eq, ← up_eq, haF_periodic, cos_rad_add_turns]
  constructor
  · rw [altF_eval h, altF_eval h, ha]
  · unfold get_azimuth_fast
    rw [yday_eval h, ha_eval h, ha_eval h, altF_eval h, altF_eval h, ha, haF_periodic]
    simp only [ok_bind, m_radians, m_sin, m_cos, sin_rad_add_turns, cos_rad_add_turns]

end Verif.Props
