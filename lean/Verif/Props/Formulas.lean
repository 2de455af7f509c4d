import Verif.Props.Radiation
import Verif.Props.Sunrise
import Verif.Spec.SunDirection

/-!
# C72-C77: the published formulas, exactly
-/

namespace Verif.Props

open Verif.Spec Pysolar Pysolar.Solar Pysolar.Radiation Pysolar.Numeric Real

variable {tp : ℝ}

/-! ## C72: solar time and hour angle -/

/-- C72: the declination of the fast functions (Cooper's formula). -/
theorem C72_declination (tp n : ℝ) :
    get_declination (mathB tp) (num n) = .ok (num (23.45 * sin (rad (360 / 365 * (n - 81))))) := by
  rw [decl_eval, decF, show 2 * π / 365 * (n - 81) = rad (360 / 365 * (n - 81)) by unfold rad; ring]

/-- C72: the equation of time in minutes. -/
theorem C72_equation_of_time (tp n : ℝ) :
    equation_of_time (mathB tp) (num n) = .ok (num (9.87 * sin (rad (2 * (360 / 364 * (n - 81))))
      - 7.53 * cos (rad (360 / 364 * (n - 81))) - 1.5 * sin (rad (360 / 364 * (n - 81))))) := by
  rw [eot_eval, eotF, show 2 * (2 * π / 364 * (n - 81)) = rad (2 * (360 / 364 * (n - 81))) by unfold rad; ring,
    show 2 * π / 364 * (n - 81) = rad (360 / 364 * (n - 81)) by unfold rad; ring]

/-- C72: solar time is UTC to the minute plus longitude / 15 plus the equation of time, in hours. -/
theorem C72_solar_time (tp : ℝ) (d : DateTime) (c : Civil) (h : UtcFields d c) (lon : ℝ) :
    ∃ e, equation_of_time (mathB tp) (num (yday c.date)) = .ok (num e) ∧
      get_solar_time (mathB tp) (num lon) (.dt d)
        = .ok (num ((c.hour : ℝ) + (c.minute : ℝ) / 60 + lon / 15 + e / 60)) := by
  refine ⟨_, eot_eval _, ?_⟩
  rw [soltime_eval h]
  congr 2
  unfold solF
  ring

/-- C72: the hour angle is 0 at 12 hours of solar time, 15 degrees per hour, westward. -/
theorem C72_hour_angle (tp : ℝ) (d : DateTime) (c : Civil) (h : UtcFields d c) (lon : ℝ) :
    ∃ s, get_solar_time (mathB tp) (num lon) (.dt d) = .ok (num s) ∧
      get_hour_angle (mathB tp) (.dt d) (num lon) = .ok (num (15 * (s - 12))) :=
  ⟨_, soltime_eval h lon, ha_eval h lon⟩

example : UtcFields sampleDT sampleUTC := sample_utc

/-! ## C73: range of the equation of time -/

/-- C73: on every day the equation of time is between -14.61 and 16.46 minutes. -/
theorem C73_range (tp n : ℝ) :
    ∃ x, equation_of_time (mathB tp) (num n) = .ok (num x) ∧ -14.61 ≤ x ∧ x ≤ 16.46 := by
  refine ⟨_, eot_eval n, ?_⟩
  unfold eotF
  rw [sin_two_mul]
  generalize hs : sin (2 * π / 364 * (n - 81)) = s
  generalize hc : cos (2 * π / 364 * (n - 81)) = c
  have h := sin_sq_add_cos_sq (2 * π / 364 * (n - 81))
  rw [hs, hc] at h
  constructor
  · norm_num
    nlinarith [sq_nonneg (12.025 * c + 9.87 * s - 3.765), sq_nonneg (s - 0.596)]
  · norm_num
    nlinarith [sq_nonneg (13.0765 * c - 9.87 * s + 3.765), sq_nonneg (s + 0.638)]

/-- C73: values above 16.25 and below -14.13 minutes are attained. -/
theorem C73_attained (tp : ℝ) :
    (∃ x, equation_of_time (mathB tp) (num 308.5) = .ok (num x) ∧ 16.25 < x) ∧
    (∃ x, equation_of_time (mathB tp) (num 35.5) = .ok (num x) ∧ x < -14.13) := by
  have h2 : (1.414 : ℝ) < √2 := by
    rw [lt_sqrt (by norm_num)]; norm_num
  refine ⟨⟨_, eot_eval _, ?_⟩, ⟨_, eot_eval _, ?_⟩⟩
  · unfold eotF
    rw [show 2 * π / 364 * (308.5 - 81) = π / 4 + π by ring, show 2 * (π / 4 + π) = π / 2 + 2 * π by ring,
      sin_add_two_pi, sin_add_pi, cos_add_pi, sin_pi_div_two, sin_pi_div_four, cos_pi_div_four]
    norm_num at *
    linarith
  · unfold eotF
    rw [show 2 * π / 364 * (35.5 - 81) = -(π / 4) by ring, show 2 * -(π / 4) = -(π / 2) by ring,
      sin_neg, sin_neg, cos_neg, sin_pi_div_two, sin_pi_div_four, cos_pi_div_four]
    norm_num at *
    linarith

/-! ## C74: direct radiation -/

/-- C74: flux and optical depth (ASHRAE), with their annual terms. -/
theorem C74_flux_depth (tp n : ℝ) :
    get_apparent_extraterrestrial_flux (mathB tp) (num n)
      = .ok (num (1160 + 75 * sin (rad (360 / 365 * (n - 275))))) ∧
    get_optical_depth (mathB tp) (num n)
      = .ok (num (0.174 + 0.035 * sin (rad (360 / 365 * (n - 100))))) := by
  rw [flux_eval, depth_eval, fluxF, depthF,
    show 2 * π / 365 * (n - 275) = rad (360 / 365 * (n - 275)) by unfold rad; ring,
    show 2 * π / 365 * (n - 100) = rad (360 / 365 * (n - 100)) by unfold rad; ring]
  exact ⟨rfl, rfl⟩

/-- C74: the air mass ratio is the cosecant of the altitude, infinite on the horizon. -/
theorem C74_air_mass (tp alt : ℝ) :
    (sin (rad alt) ≠ 0 → get_air_mass_ratio (mathB tp) (num alt) = .ok (num (1 / sin (rad alt)))) ∧
    (sin (rad alt) = 0 → get_air_mass_ratio (mathB tp) (num alt) = .ok (mathB tp).inf) := by
  constructor
  · intro hs
    simp only [get_air_mass_ratio, m_ofNat, m_radians, m_sin, ok_bind, m_div _ hs]
    norm_num
  · intro hs
    simp only [get_air_mass_ratio, m_ofNat, m_radians, m_sin, ok_bind, hs, m_div_zero]

/-- C74: with the sun up, direct radiation is flux times `exp (- depth * air mass)`, for the UTC day of the
year. -/
theorem C74_direct (tp : ℝ) (d : DateTime) (c : Civil) (h : UtcFields d c) (alt : ℝ) (h1 : 0 < alt)
    (h2 : alt ≤ 90) :
    get_radiation_direct (mathB tp) (.dt d) (num alt)
      = .ok (num ((1160 + 75 * sin (rad (360 / 365 * (yday c.date - 275))))
          * exp (-(0.174 + 0.035 * sin (rad (360 / 365 * (yday c.date - 100)))) / sin (rad alt)))) := by
  obtain ⟨f, k, r, hf, hk, hr, er, -, -⟩ := C40_range tp d c h alt h1 h2
  rw [(C74_flux_depth tp _).1] at hf
  rw [(C74_flux_depth tp _).2] at hk
  rw [hr, er, ← num_injective (Except.ok.inj hf), ← num_injective (Except.ok.inj hk), neg_div]

example : (0 : ℝ) < 30 ∧ (30 : ℝ) ≤ 90 ∧ UtcFields sampleDT sampleUTC :=
  ⟨by norm_num, by norm_num, sample_utc⟩

/-! ## C75: obliquity, apparent longitude, topocentric right ascension -/

/-- C75: the true obliquity is the mean obliquity plus the nutation in obliquity. -/
theorem C75_obliquity (tp jme dpsi deps : ℝ) :
    get_true_ecliptic_obliquity (mathB tp) (num jme) ⟨num dpsi, num deps⟩
      = num (meanObliquity (jme / 10) / 3600 + deps) := teo_eval jme dpsi deps

/-- C75: the apparent longitude is the geometric longitude plus nutation plus aberration, the latter
-20.4898 arc seconds divided by the distance. -/
theorem C75_apparent_longitude (tp lam dpsi deps R : ℝ) (hR : R ≠ 0) :
    ∃ ab, get_aberration_correction (mathB tp) (num R) = .ok (num ab) ∧ ab = -(20.4898 / 3600) / R ∧
      get_apparent_sun_longitude (mathB tp) (num lam) ⟨num dpsi, num deps⟩ (num ab)
        = num (lam + dpsi + ab) := by
  refine ⟨_, aberr_eval hR, ?_, asl_eval _ _ _ _⟩
  field_simp

/-- C75: the topocentric right ascension is the geocentric right ascension plus the parallax in right
ascension at the geocentric declination. -/
theorem C75_topocentric_right_ascension (tp x p H lam eps beta : ℝ) :
    ∃ ra dec par, get_geocentric_sun_right_ascension (mathB tp) (num lam) (num eps) (num beta) = .ok (num ra) ∧
      get_geocentric_sun_declination (mathB tp) (num lam) (num eps) (num beta) = .ok (num dec) ∧
      get_parallax_sun_right_ascension (mathB tp) (num x) (num p) (num H) (num dec) = .ok (num par) ∧
      get_topocentric_sun_right_ascension (mathB tp) (num x) (num p) (num H) (num lam) (num eps) (num beta)
        = .ok (num (ra + par)) := by
  refine ⟨_, _, _, gsra_eval _ _ _, gsd_eval _ _ _, psra_eval _ _ _ _, ?_⟩
  simp only [get_topocentric_sun_right_ascension, gsd_eval, gsra_eval, psra_eval, ok_bind, m_add, pure_eq_ok]
  rw [add_comm]

example : (1 : ℝ) ≠ 0 := one_ne_zero

/-! ## C76: sunrise and time zones, longitudes -/

theorem offset_fixed {d : DateTime} {i : ℕ} {o : ℤ} (hz : d.tz = some (fixedTz i o)) : d.utcoffset = some o := by
  unfold DateTime.utcoffset
  rw [hz]
  rfl

theorem utcMicros_fixed {d : DateTime} {i : ℕ} {o : ℤ} (hz : d.tz = some (fixedTz i o)) :
    d.utcMicros = d.civil.micros - o := by
  unfold DateTime.utcMicros
  rw [offset_fixed hz]
  rfl

theorem round_shift {x y : ℝ} {k : ℤ} (h : x - y = k) : |roundHalfEven x - roundHalfEven y - k| ≤ 1 := by
  have h1 := abs_le.mp (roundHalfEven_bounds x)
  have h2 := abs_le.mp (roundHalfEven_bounds y)
  have : |((roundHalfEven x - roundHalfEven y - k : ℤ) : ℝ)| ≤ 1 := by
    push_cast
    rw [abs_le]
    constructor <;> linarith
  exact_mod_cast this

/-- C76: in zones with constant offsets, the same local calendar date gives the same three instants (to a
microsecond), whatever the offset. -/
theorem C76_zone (tp lat lon : ℝ) (d d' sr ss tr sr' ss' tr' : DateTime) (i i' : ℕ) (o o' : ℤ)
    (hz : d.tz = some (fixedTz i o)) (hz' : d'.tz = some (fixedTz i' o')) (hd : d.civil.date = d'.civil.date)
    (h : Util.get_sunrise_sunset_transit (mathB tp) (num lat) (num lon) (.dt d) = .ok (sr, ss, tr))
    (h' : Util.get_sunrise_sunset_transit (mathB tp) (num lat) (num lon) (.dt d') = .ok (sr', ss', tr')) :
    |sr.utcMicros - sr'.utcMicros| ≤ 1 ∧ |ss.utcMicros - ss'.utcMicros| ≤ 1 ∧
      |tr.utcMicros - tr'.utcMicros| ≤ 1 := by
  obtain ⟨noon, ha, hn, -, -, hha, -, ⟨t1, t2, t3⟩, -, h1, h2, h3⟩ := sunrise_inv h
  obtain ⟨noon', ha', hn', -, -, hha', -, ⟨t1', t2', t3'⟩, -, h1', h2', h3'⟩ := sunrise_inv h'
  rw [hd] at hn hha
  rw [← hha'] at hha
  have hm : (Util.sameDay d).civil.micros = (Util.sameDay d').civil.micros := by
    have e1 : d.civil.year = d'.civil.year := congrArg YMD.year hd
    have e2 : d.civil.month = d'.civil.month := congrArg YMD.month hd
    have e3 : d.civil.day = d'.civil.day := congrArg YMD.day hd
    simp [Util.sameDay, e1, e2, e3]
  have ho : hourMicros noon - hourMicros noon' = ((o - o' : ℤ) : ℝ) := by
    rw [hn, hn']
    unfold Util.utcOffsetSeconds
    rw [offset_fixed hz, offset_fixed hz']
    unfold hourMicros noonHour
    push_cast
    ring
  have q1 := round_shift (x := hourMicros (noon - ha)) (y := hourMicros (noon' - ha')) (k := o - o')
    (by rw [← ho, hha]; unfold hourMicros; ring)
  have q2 := round_shift (x := hourMicros (noon + ha)) (y := hourMicros (noon' + ha')) (k := o - o')
    (by rw [← ho, hha]; unfold hourMicros; ring)
  have q3 := round_shift (x := hourMicros noon) (y := hourMicros noon') (k := o - o') ho
  rw [utcMicros_fixed (t1.trans hz), utcMicros_fixed (t2.trans hz), utcMicros_fixed (t3.trans hz),
    utcMicros_fixed (t1'.trans hz'), utcMicros_fixed (t2'.trans hz'), utcMicros_fixed (t3'.trans hz'),
    h1, h2, h3, h1', h2', h3', hm]
  refine ⟨?_, ?_, ?_⟩
  · convert q1 using 2; ring
  · convert q2 using 2; ring
  · convert q3 using 2; ring

/-- C76: on the same date, each degree of longitude eastward makes all three times 4 minutes earlier. -/
theorem C76_longitude (tp lat lon lon' : ℝ) (d sr ss tr sr' ss' tr' : DateTime)
    (h : Util.get_sunrise_sunset_transit (mathB tp) (num lat) (num lon) (.dt d) = .ok (sr, ss, tr))
    (h' : Util.get_sunrise_sunset_transit (mathB tp) (num lat) (num lon') (.dt d) = .ok (sr', ss', tr')) :
    |((sr'.civil.micros - sr.civil.micros : ℤ) : ℝ) + 240000000 * (lon' - lon)| ≤ 1 ∧
      |((ss'.civil.micros - ss.civil.micros : ℤ) : ℝ) + 240000000 * (lon' - lon)| ≤ 1 ∧
      |((tr'.civil.micros - tr.civil.micros : ℤ) : ℝ) + 240000000 * (lon' - lon)| ≤ 1 := by
  obtain ⟨noon, ha, hn, -, -, hha, -, -, -, h1, h2, h3⟩ := sunrise_inv h
  obtain ⟨noon', ha', hn', -, -, hha', -, -, -, h1', h2', h3'⟩ := sunrise_inv h'
  rw [← hha'] at hha
  have hd : noon' - noon = -(lon' - lon) / 15 := by
    rw [hn, hn']
    unfold noonHour
    ring
  rw [h1, h2, h3, h1', h2', h3', hha]
  refine ⟨?_, ?_, ?_⟩
  · have a := abs_le.mp (roundHalfEven_bounds (hourMicros (noon' - ha')))
    have b := abs_le.mp (roundHalfEven_bounds (hourMicros (noon - ha')))
    unfold hourMicros at *
    push_cast
    rw [abs_le]
    constructor <;> linarith
  · have a := abs_le.mp (roundHalfEven_bounds (hourMicros (noon' + ha')))
    have b := abs_le.mp (roundHalfEven_bounds (hourMicros (noon + ha')))
    unfold hourMicros at *
    push_cast
    rw [abs_le]
    constructor <;> linarith
  · have a := abs_le.mp (roundHalfEven_bounds (hourMicros noon'))
    have b := abs_le.mp (roundHalfEven_bounds (hourMicros noon))
    unfold hourMicros at *
    push_cast
    rw [abs_le]
    constructor <;> linarith

/-- The hypotheses of C76 hold: the same date in two zones, at two longitudes. -/
example (tp : ℝ) : ∃ d : DateTime, d.tz = some (fixedTz 7 3600000000) ∧ d.civil.date = sampleDT.civil.date ∧
    (∃ r, Util.get_sunrise_sunset_transit (mathB tp) (num 0) (num (-75)) (.dt d) = .ok r) ∧
    (∃ r, Util.get_sunrise_sunset_transit (mathB tp) (num 0) (num 10) (.dt sampleDT) = .ok r) ∧
    ∃ r, Util.get_sunrise_sunset_transit (mathB tp) (num 0) (num (-75)) (.dt sampleDT) = .ok r := by
  refine ⟨⟨sampleDT.civil, false, some (fixedTz 7 3600000000)⟩, rfl, rfl, ?_, ?_, ?_⟩
  · obtain ⟨a, b, c, h⟩ := C50_returns tp 0 (-75) (by norm_num) (by norm_num)
      ⟨sampleDT.civil, false, some (fixedTz 7 3600000000)⟩ rfl
      ⟨sampleDT_valid.1, fun o ho => by
        have : o = 3600000000 := by simpa [DateTime.utcoffset, fixedTz] using ho.symm
        rw [this]; decide⟩ (by decide) (by decide) (equator_onHorizon _)
    exact ⟨_, h⟩
  · obtain ⟨a, b, c, h⟩ := C50_returns tp 0 10 (by norm_num) (by norm_num) sampleDT rfl sampleDT_valid (by decide)
      (by decide) (equator_onHorizon _)
    exact ⟨_, h⟩
  · obtain ⟨a, b, c, h⟩ := sunrise_sample tp
    exact ⟨_, h⟩

/-! ## C77: extraterrestrial irradiance -/

/-- Spencer's eccentricity correction on day `n`. -/
noncomputable def spencer (n : ℝ) : ℝ :=
  1.00010 + 0.034221 * cos (rad (360 * (n - 1) / 365)) + 0.001280 * sin (rad (360 * (n - 1) / 365))
    + 0.000719 * cos (2 * rad (360 * (n - 1) / 365)) + 0.000077 * sin (2 * rad (360 * (n - 1) / 365))

/-- C77: extraterrestrial irradiance is the solar constant times Spencer's factor times the sine of the fast
altitude, and 0 with the sun down. -/
theorem C77_extraterrestrial (tp : ℝ) (d : DateTime) (c : Civil) (h : UtcFields d c) (lat lon SC : ℝ) :
    ∃ alt, get_altitude_fast (mathB tp) (num lat) (num lon) (.dt d) = .ok (num alt) ∧
      Util.extraterrestrial_irrad (mathB tp) (num lat) (num lon) (.dt d) (num SC)
        = .ok (num (SC * spencer (yday c.date) * max 0 (sin (rad alt)))) := by
  obtain ⟨dec, H, alt, hd, hH, ha, -, -, hs, -⟩ := C36_altitude_fast tp d c h lat lon
  rw [decl_eval] at hd
  rw [ha_eval h] at hH
  rw [← num_injective (Except.ok.inj hd), ← num_injective (Except.ok.inj hH)] at hs
  refine ⟨alt, ha, ?_⟩
  rw [extra_eval h, ← hs]
  have e : eccF (yday c.date) = spencer (yday c.date) := by
    unfold eccF spencer
    rw [show 2 * π * ((yday c.date : ℝ) - 1) / 365 = rad (360 * (yday c.date - 1) / 365) by unfold rad; ring]
  rw [e]
  congr 2
  split_ifs with h0
  · rw [max_eq_right h0.le]; ring
  · rw [max_eq_left (not_lt.mp h0), mul_zero]

end Verif.Props
