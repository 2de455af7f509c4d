import Verif.Props.Daylight

/-!
# C97, C98, C99: the course of the sun over the day, and antipodes
-/

namespace Verif.Props

open Verif.Spec Pysolar Pysolar.Solar Real

/-! ## C97 -/

/-- C97: for any latitude and declination, a sun east of the meridian (hour angle between 180 and 360 degrees, up to
whole turns) has an azimuth strictly between 0 and 180 degrees, one west of the meridian (hour angle between 0 and
180 degrees) an azimuth strictly between 180 and 360 degrees. -/
theorem C97_side (tp lat dec H : ℝ) :
    ∃ a, get_topocentric_azimuth_angle (mathB tp) (num H) (num lat) (num dec) = .ok (num a) ∧
      (∀ k : ℤ, 360 * k + 180 < H → H < 360 * k + 360 → 0 < a ∧ a < 180) ∧
      (∀ k : ℤ, 360 * k < H → H < 360 * k + 180 → 180 < a ∧ a < 360) := by
  refine ⟨_, taa_eval H lat dec, ?_, ?_⟩
  · intro k h1 h2
    set z : ℂ := ⟨cos (rad H) * sin (rad lat) - tanP tp (rad dec) * cos (rad lat), sin (rad H)⟩ with hz
    have hs : z.im < 0 := by
      have e : H = (H - 360 * k - 360) + 360 * (k + 1 : ℤ) := by push_cast; ring
      have : 0 < sin (rad (-(H - 360 * k - 360))) := sin_rad_pos (by linarith) (by linarith)
      rw [rad_neg, sin_neg] at this
      change sin (rad H) < 0
      rw [e, sin_rad_add_turns]
      linarith
    have a1 := Complex.arg_neg_iff.mpr hs
    have a2 := (deg_arg_bounds z).1
    have a3 : deg (Complex.arg z) < 0 := by rw [← deg_zero, deg_lt_deg]; exact a1
    rw [mod360_of_mem (by linarith) (by linarith)]
    constructor <;> linarith
  · intro k h1 h2
    set z : ℂ := ⟨cos (rad H) * sin (rad lat) - tanP tp (rad dec) * cos (rad lat), sin (rad H)⟩ with hz
    have hs : 0 < z.im := by
      have e : H = (H - 360 * k) + 360 * k := by ring
      have : 0 < sin (rad (H - 360 * k)) := sin_rad_pos (by linarith) (by linarith)
      change 0 < sin (rad H)
      rwa [e, sin_rad_add_turns]
    have a1 : 0 < Complex.arg z := by
      refine lt_of_le_of_ne (Complex.arg_nonneg_iff.mpr hs.le) fun h0 => ?_
      have := (Complex.arg_eq_zero_iff.mp h0.symm).2
      linarith
    have a2 : Complex.arg z < π := by
      refine lt_of_le_of_ne (Complex.arg_le_pi z) fun h0 => ?_
      have := (Complex.arg_eq_pi_iff.mp h0).2
      linarith
    have a3 : 0 < deg (Complex.arg z) := by rw [← deg_zero, deg_lt_deg]; exact a1
    have a4 : deg (Complex.arg z) < 180 := by rw [← deg_pi, deg_lt_deg]; exact a2
    rw [mod360_of_mem (by linarith) (by linarith)]
    constructor <;> linarith

/-- C97: on the meridian, at hour angle 0, the azimuth is exactly 180 degrees (south) for a declination not above the
latitude and exactly 0 (north) for one above it. -/
theorem C97_noon (tp lat dec H : ℝ) (k : ℤ) (hH : H = 360 * k) (h1 : -90 ≤ lat) (h2 : lat ≤ 90) (h3 : -90 < dec)
    (h4 : dec < 90) :
    get_topocentric_azimuth_angle (mathB tp) (num H) (num lat) (num dec) = .ok (num (if dec ≤ lat then 180 else 0)) := by
  rw [taa_eval]
  have c2 := cos_rad_pos h3 h4
  have hs : sin (rad H) = 0 := by
    rw [hH, show (360 * k : ℝ) = 0 + 360 * k by ring, sin_rad_add_turns]; simp
  have hc : cos (rad H) = 1 := by
    rw [hH, show (360 * k : ℝ) = 0 + 360 * k by ring, cos_rad_add_turns]; simp
  have e : cos (rad H) * sin (rad lat) - tanP tp (rad dec) * cos (rad lat) = sin (rad (lat - dec)) / cos (rad dec) := by
    rw [hc, tanP_of_pos c2, rad_sub, sin_sub]
    field_simp
  rw [hs, e]
  have e2 : (⟨sin (rad (lat - dec)) / cos (rad dec), 0⟩ : ℂ) = ((sin (rad (lat - dec)) / cos (rad dec) : ℝ) : ℂ) := rfl
  rw [e2]
  split_ifs with h
  · rw [Complex.arg_ofReal_of_nonneg, deg_zero, add_zero, mod360_of_mem (by norm_num) (by norm_num)]
    refine div_nonneg ?_ c2.le
    rcases h.eq_or_lt with h | h
    · rw [h, sub_self, rad_zero, sin_zero]
    · exact (sin_rad_pos (by linarith) (by linarith)).le
  · rw [Complex.arg_ofReal_of_neg, deg_pi]
    · have := mod360_add_int 0 1
      norm_num at this ⊢
      rw [this, mod360_of_mem (by norm_num) (by norm_num)]
    · refine div_neg_of_neg_of_pos ?_ c2
      have : 0 < sin (rad (-(lat - dec))) := sin_rad_pos (by linarith) (by linarith)
      rw [rad_neg, sin_neg] at this
      linarith

/-- C97 for `get_azimuth`: the side of the meridian given by the computed hour angle. -/
theorem C97_azimuth (tp : ℝ) (d : DateTime) (c : Civil) (h : UtcFields d c) (lat lon elev : ℝ) :
    ∃ dec H a, get_topocentric_position (mathB tp) (num lat) (num lon) (.dt d) (num elev) = .ok (num dec, num H) ∧
      get_azimuth (mathB tp) (num lat) (num lon) (.dt d) (num elev) = .ok (num a) ∧
      (∀ k : ℤ, 360 * k + 180 < H → H < 360 * k + 360 → 0 < a ∧ a < 180) ∧
      (∀ k : ℤ, 360 * k < H → H < 360 * k + 180 → 180 < a ∧ a < 360) := by
  obtain ⟨a, ha, p, q⟩ := C97_side tp lat (topoDec tp lat lon elev c) (topoH tp lat lon elev c)
  rw [taa_eval] at ha
  refine ⟨_, _, _, topo_eval h lat lon elev, azimuth_eval h lat lon elev, ?_⟩
  rw [aziOf, num_injective (Except.ok.inj ha)]
  exact ⟨p, q⟩

/-- C97 for `get_azimuth_fast`: before 12 o'clock solar time the sun is in the east, afterwards in the west. -/
theorem C97_fast (tp : ℝ) (d : DateTime) (c : Civil) (h : UtcFields d c) (lat lon : ℝ) (h1 : -90 < lat) (h2 : lat < 90) :
    ∃ s, get_solar_time (mathB tp) (num lon) (.dt d) = .ok (num s) ∧
      (∀ k : ℤ, 24 * k < s → s < 24 * k + 12 →
        ∃ a, get_azimuth_fast (mathB tp) (num lat) (num lon) (.dt d) = .ok (num a) ∧ 0 < a ∧ a < 180) ∧
      (∀ k : ℤ, 24 * k + 12 < s → s < 24 * k + 24 →
        ∃ a, get_azimuth_fast (mathB tp) (num lat) (num lon) (.dt d) = .ok (num a) ∧ 180 < a ∧ a < 360) := by
  have hd := abs_le.mp (decF_abs (yday c.date))
  have hd1 : -90 < decF (yday c.date) := by norm_num at hd; linarith
  have hd2 : decF (yday c.date) < 90 := by norm_num at hd; linarith
  have c2 := cos_rad_pos hd1 hd2
  -- off the meridian the sun is not at the zenith
  have nz : sin (rad (haF lon c)) ≠ 0 → altF lat lon c ≠ 90 ∧ altF lat lon c ≠ -90 := by
    intro hs
    have hu := sunENU_unit lat (haF lon c) (decF (yday c.date))
    have hx : (sunENU lat (haF lon c) (decF (yday c.date))).x ≠ 0 := by
      simp only [sunENU, toHorizon, sph]
      exact neg_ne_zero.mpr (mul_ne_zero c2.ne' hs)
    have hz2 : (sunENU lat (haF lon c) (decF (yday c.date))).z ^ 2 < 1 := by
      have := sq_pos_of_ne_zero hx
      unfold Vec3.dot at hu
      nlinarith [sq_nonneg (sunENU lat (haF lon c) (decF (yday c.date))).y]
    have hz := unit_z hu
    have es : sin (rad (altF lat lon c)) = (sunENU lat (haF lon c) (decF (yday c.date))).z := by
      unfold altF; rw [rad_deg, sin_arcsin hz.1 hz.2]
    constructor <;> intro h0 <;> rw [h0] at es
    · rw [rad_90, sin_pi_div_two] at es
      rw [← es] at hz2; norm_num at hz2
    · rw [rad_neg, sin_neg, rad_90, sin_pi_div_two] at es
      rw [← es] at hz2; norm_num at hz2
  obtain ⟨a, ha, p, q⟩ := C97_side tp lat (decF (yday c.date)) (haF lon c)
  have get : sin (rad (haF lon c)) ≠ 0 → get_azimuth_fast (mathB tp) (num lat) (num lon) (.dt d) = .ok (num a) := by
    intro hs
    obtain ⟨n1, n2⟩ := nz hs
    obtain ⟨azi, e1, -, -, -, e2⟩ := C37_azimuth_fast tp d c h lat lon h1 h2 _ _ _ (decl_eval _) (ha_eval h lon)
      (altF_eval h lat lon) n1 n2
    rw [ha] at e2
    rw [e1, Except.ok.inj e2]
  have sgn : ∀ k : ℤ, ∀ x : ℝ, haF lon c = x + 360 * k → sin (rad x) ≠ 0 → sin (rad (haF lon c)) ≠ 0 := by
    intro k x e hx
    rwa [e, sin_rad_add_turns]
  refine ⟨_, soltime_eval h lon, ?_, ?_⟩
  · intro k s1 s2
    have e : haF lon c = 15 * (solF lon c - 12) := rfl
    refine ⟨a, get (sgn k (haF lon c - 360 * k) (by ring) ?_), p (k - 1) ?_ ?_⟩
    · have : 0 < sin (rad (-(haF lon c - 360 * k))) := sin_rad_pos (by linarith) (by linarith)
      rw [rad_neg, sin_neg] at this
      intro h0; rw [h0] at this; simp at this
    · push_cast; linarith
    · push_cast; linarith
  · intro k s1 s2
    have e : haF lon c = 15 * (solF lon c - 12) := rfl
    refine ⟨a, get (sgn k (haF lon c - 360 * k) (by ring) ?_), q k ?_ ?_⟩
    · exact (sin_rad_pos (by linarith) (by linarith)).ne'
    · linarith
    · linarith

/-! ## C98 -/

/-- C98: for a given latitude and declination the elevation angle falls strictly with the distance of the sun from the
meridian; it is `90 - |lat - dec|` on the meridian and `|lat + dec| - 90` at hour angle 180. -/
theorem C98_course (tp lat dec : ℝ) (h1 : -90 < lat) (h2 : lat < 90) (h3 : -90 < dec) (h4 : dec < 90) :
    (∀ H H' : ℝ, |H| < |H'| → |H'| ≤ 180 → ∃ e e',
      get_topocentric_elevation_angle (mathB tp) (num lat) (num dec) (num H) = .ok (num e) ∧
      get_topocentric_elevation_angle (mathB tp) (num lat) (num dec) (num H') = .ok (num e') ∧ e' < e) ∧
    get_topocentric_elevation_angle (mathB tp) (num lat) (num dec) (num 0) = .ok (num (90 - |lat - dec|)) ∧
    get_topocentric_elevation_angle (mathB tp) (num lat) (num dec) (num 180) = .ok (num (|lat + dec| - 90)) := by
  have c1 := cos_rad_pos h1 h2
  have c2 := cos_rad_pos h3 h4
  have eabs : ∀ x : ℝ, cos (rad |x|) = cos (rad x) := fun x => by
    rcases abs_choice x with h | h <;> rw [h]
    rw [rad_neg, cos_neg]
  refine ⟨?_, ?_, ?_⟩
  · intro H H' hH hH'
    refine ⟨_, _, tea_eval _ _ _, tea_eval _ _ _, ?_⟩
    rw [deg_lt_deg]
    have hz := unit_z (sunENU_unit lat H dec)
    have hz' := unit_z (sunENU_unit lat H' dec)
    refine strictMonoOn_arcsin ⟨hz'.1, hz'.2⟩ ⟨hz.1, hz.2⟩ ?_
    have : cos (rad H') < cos (rad H) := by
      rw [← eabs H, ← eabs H']
      have hp := pi_pos
      refine strictAntiOn_cos ?_ ?_ (rad_lt_rad.mpr hH)
      · rw [Set.mem_Icc, ← rad_180, rad_le_rad, ← rad_zero, rad_le_rad]; exact ⟨abs_nonneg _, hH.le.trans hH'⟩
      · rw [Set.mem_Icc, ← rad_180, rad_le_rad, ← rad_zero, rad_le_rad]; exact ⟨abs_nonneg _, hH'⟩
    rw [← up_eq, ← up_eq]
    have := mul_lt_mul_of_pos_left this (mul_pos c1 c2)
    linarith
  · rw [tea_eval, ← up_eq, rad_zero, cos_zero]
    have e : sin (rad lat) * sin (rad dec) + cos (rad lat) * cos (rad dec) * 1 = sin (rad (90 - |lat - dec|)) := by
      rw [rad_sub, rad_90, sin_pi_div_two_sub, eabs, rad_sub, cos_sub]; ring
    have a1 := abs_lt.mpr (⟨by linarith, by linarith⟩ : -180 < lat - dec ∧ lat - dec < 180)
    have a2 := abs_nonneg (lat - dec)
    rw [e, arcsin_sin, deg_rad]
    · rw [← rad_90, ← rad_neg, rad_le_rad]; linarith
    · rw [← rad_90, rad_le_rad]; linarith
  · rw [tea_eval, ← up_eq, rad_180, cos_pi]
    have e : sin (rad lat) * sin (rad dec) + cos (rad lat) * cos (rad dec) * -1 = sin (rad (|lat + dec| - 90)) := by
      rw [rad_sub, rad_90, sin_sub_pi_div_two, eabs, rad_add, cos_add]; ring
    have a1 := abs_lt.mpr (⟨by linarith, by linarith⟩ : -180 < lat + dec ∧ lat + dec < 180)
    have a2 := abs_nonneg (lat + dec)
    rw [e, arcsin_sin, deg_rad]
    · rw [← rad_90, ← rad_neg, rad_le_rad]; linarith
    · rw [← rad_90, rad_le_rad]; linarith

/-! ## C99 -/

theorem sunENU_antipode (lat H dec : ℝ) (k : ℤ) : (sunENU (-lat) (H + 180 + 360 * k) dec).z = -(sunENU lat H dec).z := by
  rw [← up_eq, ← up_eq, cos_rad_add_turns, rad_add, rad_180, cos_add_pi, rad_neg, sin_neg, cos_neg]
  ring

/-- C99: at the antipode of any place the fast altitude is exactly the opposite. -/
theorem C99_fast (tp : ℝ) (d : DateTime) (c : Civil) (h : UtcFields d c) (lat lon : ℝ) :
    ∃ a, get_altitude_fast (mathB tp) (num lat) (num lon) (.dt d) = .ok (num a) ∧
      get_altitude_fast (mathB tp) (num (-lat)) (num (lon + 180)) (.dt d) = .ok (num (-a)) := by
  refine ⟨_, altF_eval h lat lon, ?_⟩
  rw [altF_eval h]
  have e : haF (lon + 180) c = haF lon c + 180 + 360 * (0 : ℤ) := by unfold haF solF; push_cast; ring
  unfold altF
  rw [e, sunENU_antipode, arcsin_neg, deg_neg]

/-- C99: at the antipode of any place between the poles, up to elevations of 50 km, the precise elevation angle is the
opposite up to 0.036 degrees (twice the parallax of the sun). -/
theorem C99_precise (tp : ℝ) (d : DateTime) (c : Civil) (h : UtcFields d c) (lat lon elev elev' : ℝ)
    (h1 : -90 < lat) (h2 : lat < 90) (he : |elev| ≤ 50000) (he' : |elev'| ≤ 50000) :
    ∃ dec H e dec' H' e',
      get_topocentric_position (mathB tp) (num lat) (num lon) (.dt d) (num elev) = .ok (num dec, num H) ∧
      get_topocentric_elevation_angle (mathB tp) (num lat) (num dec) (num H) = .ok (num e) ∧
      get_topocentric_position (mathB tp) (num (-lat)) (num (lon + 180)) (.dt d) (num elev') = .ok (num dec', num H') ∧
      get_topocentric_elevation_angle (mathB tp) (num (-lat)) (num dec') (num H') = .ok (num e') ∧
      |e + e'| ≤ 0.036 := by
  refine ⟨_, _, _, _, _, _, topo_eval h lat lon elev, tea_eval _ _ _, topo_eval h (-lat) (lon + 180) elev',
    tea_eval _ _ _, ?_⟩
  obtain ⟨s1, s2⟩ := topo_small tp h.1 (lon := lon) h1 h2 he
  obtain ⟨t1, t2⟩ := topo_small tp h.1 (lat := -lat) (lon := lon + 180) (by linarith) (by linarith) he'
  obtain ⟨k, hk⟩ : ∃ k : ℤ, lhaOf tp (lon + 180) c = lhaOf tp lon c + 180 + 360 * k := by
    obtain ⟨m, hm⟩ := mod360_eq (astOf c + (lon + 180) - raOf tp c)
    obtain ⟨n, hn⟩ := mod360_eq (astOf c + lon - raOf tp c)
    refine ⟨n - m, ?_⟩
    unfold lhaOf
    rw [hm, hn]
    push_cast
    ring
  rw [hk] at t2
  have u1 := (altitude_diff (sunENU_unit lat (topoH tp lat lon elev c) (topoDec tp lat lon elev c))
    (sunENU_unit lat (lhaOf tp lon c) (decOf c))).trans (angleBetween_sunENU lat 0)
  have u2 := (altitude_diff (sunENU_unit (-lat) (topoH tp (-lat) (lon + 180) elev' c)
    (topoDec tp (-lat) (lon + 180) elev' c))
    (sunENU_unit (-lat) (lhaOf tp lon c + 180 + 360 * k) (decOf c))).trans (angleBetween_sunENU (-lat) 0)
  rw [sunENU_antipode, arcsin_neg, deg_neg] at u2
  push_cast at u1 u2
  rw [mul_zero, sub_zero] at u1 u2
  have u1 := abs_le.mp u1
  have u2 := abs_le.mp u2
  rw [abs_le]
  norm_num at *
  constructor <;> linarith

/-- The hypotheses are met by the sample datetime in Massachusetts; a sun of declination 10 at hour angle 300 there. -/
example : UtcFields sampleDT sampleUTC ∧ (-90 : ℝ) < 42.2 ∧ (42.2 : ℝ) < 90 ∧ |(62 : ℝ)| ≤ 50000 ∧
    (360 * ((0 : ℤ) : ℝ) + 180 < 300 ∧ (300 : ℝ) < 360 * ((0 : ℤ) : ℝ) + 360) :=
  ⟨sample_utc, by norm_num, by norm_num, by norm_num, by norm_num⟩

end Verif.Props
