import Verif.Props.Place
import Verif.Props.FloatFast
import Verif.Props.Formulas

/-!
# C158: the fast functions at two places and times
-/

namespace Verif.Props

open Verif.Spec Pysolar Pysolar.Solar Pysolar.Util Pysolar.Numeric Real

/-- Direction of the fast functions at two places and times. -/
theorem fast_angle (lat lat' H H' δ δ' : ℝ) (k : ℤ) :
    angleBetween (sunENU lat' H' δ') (sunENU lat H δ) ≤ |lat' - lat| + |H' - H - 360 * k| + |δ' - δ| := by
  have a := angleBetween_triangle (sunENU lat' H' δ') (sunENU lat H' δ') (sunENU lat H δ)
  have b := angleBetween_lat lat lat' H' δ'
  have e := angleBetween_sunENU lat (H := H) (H' := H') (δ := δ) (δ' := δ') k
  linarith

/-- C158: two places and two times whatever. The fast altitudes differ by at most the sum of the differences of the
latitudes, of the hour angles (up to whole turns) and of the declinations. -/
theorem C158_altitude (tp : ℝ) (d d' : DateTime) (c c' : Civil) (h : UtcFields d c) (h' : UtcFields d' c')
    (lat lon lat' lon' : ℝ) (k : ℤ) :
    ∃ dec H alt dec' H' alt',
      get_declination (mathB tp) (num (yday c.date)) = .ok (num dec) ∧
      get_hour_angle (mathB tp) (.dt d) (num lon) = .ok (num H) ∧
      get_altitude_fast (mathB tp) (num lat) (num lon) (.dt d) = .ok (num alt) ∧
      get_declination (mathB tp) (num (yday c'.date)) = .ok (num dec') ∧
      get_hour_angle (mathB tp) (.dt d') (num lon') = .ok (num H') ∧
      get_altitude_fast (mathB tp) (num lat') (num lon') (.dt d') = .ok (num alt') ∧
      |alt' - alt| ≤ |lat' - lat| + |H' - H - 360 * k| + |dec' - dec| :=
  ⟨_, _, _, _, _, _, decl_eval _, ha_eval h lon, altF_eval h lat lon, decl_eval _, ha_eval h' lon',
    altF_eval h' lat' lon', (altitude_diff (sunENU_unit _ _ _) (sunENU_unit _ _ _)).trans (fast_angle _ _ _ _ _ _ k)⟩

theorem haF_date {c c' : Civil} (hy : yday c'.date = yday c.date) (lon lon' : ℝ) :
    haF lon' c' - haF lon c
      = lon' - lon + (((c'.hour : ℝ) * 60 + c'.minute) - ((c.hour : ℝ) * 60 + c.minute)) / 4 := by
  unfold haF solF
  rw [hy]
  ring

/-- C158: on one UTC date the declination is fixed, and the hour angle grows by one degree in four minutes. Both the
altitude and the direction (where the sun is in neither zenith nor nadir) differ by at most the difference of the latitudes
plus that of the longitudes plus a quarter of a degree per minute between the two times. -/
theorem C158_date (tp : ℝ) (d d' : DateTime) (c c' : Civil) (h : UtcFields d c) (h' : UtcFields d' c')
    (hy : yday c'.date = yday c.date) (lat lon lat' lon' : ℝ) (k : ℤ) :
    ∃ alt alt', get_altitude_fast (mathB tp) (num lat) (num lon) (.dt d) = .ok (num alt) ∧
      get_altitude_fast (mathB tp) (num lat') (num lon') (.dt d') = .ok (num alt') ∧
      |alt' - alt| ≤ |lat' - lat|
        + |lon' - lon + (((c'.hour : ℝ) * 60 + c'.minute) - ((c.hour : ℝ) * 60 + c.minute)) / 4 - 360 * k| ∧
      (|lat| < 90 → |lat'| < 90 → |alt| ≠ 90 → |alt'| ≠ 90 →
        ∃ azi azi', get_azimuth_fast (mathB tp) (num lat) (num lon) (.dt d) = .ok (num azi) ∧
          get_azimuth_fast (mathB tp) (num lat') (num lon') (.dt d') = .ok (num azi') ∧
          angleBetween (horizontal alt' azi') (horizontal alt azi) ≤ |lat' - lat|
            + |lon' - lon + (((c'.hour : ℝ) * 60 + c'.minute) - ((c.hour : ℝ) * 60 + c.minute)) / 4 - 360 * k|) := by
  have key := fast_angle lat lat' (haF lon c) (haF lon' c') (decF (yday c.date)) (decF (yday c'.date)) k
  rw [haF_date hy, show decF (yday c'.date) = decF (yday c.date) by rw [hy], sub_self, abs_zero, add_zero] at key
  have key' := (altitude_diff (sunENU_unit _ _ _) (sunENU_unit _ _ _)).trans key
  have e' : altF lat' lon' c' = deg (arcsin (sunENU lat' (haF lon' c') (decF (yday c.date))).z) := by
    unfold altF
    rw [hy]
  refine ⟨_, _, altF_eval h lat lon, altF_eval h' lat' lon', by rw [e']; exact key', fun l l' n n' => ?_⟩
  obtain ⟨l1, l2⟩ := abs_lt.mp l
  obtain ⟨l1', l2'⟩ := abs_lt.mp l'
  have m : ∀ {x : ℝ}, |x| ≠ 90 → x ≠ 90 ∧ x ≠ -90 := fun hx =>
    ⟨fun e => hx (by rw [e]; norm_num), fun e => hx (by rw [e]; norm_num)⟩
  obtain ⟨azi, ha, -, -, hd, -⟩ := C37_azimuth_fast tp d c h lat lon l1 l2 _ _ _ (decl_eval _) (ha_eval h lon)
    (altF_eval h lat lon) (m n).1 (m n).2
  obtain ⟨azi', ha', -, -, hd', -⟩ := C37_azimuth_fast tp d' c' h' lat' lon' l1' l2' _ _ _ (decl_eval _) (ha_eval h' lon')
    (altF_eval h' lat' lon') (m n').1 (m n').2
  refine ⟨azi, azi', ha, ha', ?_⟩
  rw [hd, hd', hy]
  exact key

/-- C158 in double precision: where both calls return, the bound holds with 28 millionths of a degree added. -/
theorem C158_double (F : F64) (d d' : DateTime) (c c' : Civil) (h : UtcFields d c) (h' : UtcFields d' c')
    (hy : yday c'.date = yday c.date) (lat lon lat' lon' alt alt' : ℝ) (hlat : |lat| ≤ 90) (hlon : |lon| ≤ 360)
    (hlat' : |lat'| ≤ 90) (hlon' : |lon'| ≤ 360) (k : ℤ)
    (ha : get_altitude_fast (rndB F) (flt F lat) (flt F lon) (.dt d) = .ok (flt F alt))
    (ha' : get_altitude_fast (rndB F) (flt F lat') (flt F lon') (.dt d') = .ok (flt F alt')) :
    |alt' - alt| ≤ |lat' - lat|
      + |lon' - lon + (((c'.hour : ℝ) * 60 + c'.minute) - ((c.hour : ℝ) * 60 + c.minute)) / 4 - 360 * k| + 28 / 10 ^ 6 := by
  obtain ⟨a, a', e, e', hb, -⟩ := C158_date 0 d d' c c' h h' hy lat lon lat' lon' k
  have close : ∀ {d : DateTime} {c : Civil} (h : UtcFields d c) {lat lon a alt : ℝ}, |lat| ≤ 90 → |lon| ≤ 360 →
      get_altitude_fast (mathB 0) (num lat) (num lon) (.dt d) = .ok (num a) →
      get_altitude_fast (rndB F) (flt F lat) (flt F lon) (.dt d) = .ok (flt F alt) → |alt - a| ≤ 14 / 10 ^ 6 := by
    intro d c h lat lon a alt h1 h2 e1 e2
    obtain ⟨_, _, x, _, _, -, -, hx, -, -, -, -, r⟩ := C103_fast_altitude F 0 d c h lat lon h1 h2
    obtain rfl : a = x := num_injective (Except.ok.inj (e1.symm.trans hx))
    rcases r with ⟨y, hy, hc, -⟩ | ⟨hv, -⟩
    · have : alt = y := V.fin.inj (Except.ok.inj (e2.symm.trans hy))
      rw [this]
      exact hc
    · rw [hv] at e2
      cases e2
  have c1 := close h hlat hlon e ha
  have c2 := close h' hlat' hlon' e' ha'
  have t : alt' - alt = alt' - a' + (a' - a) - (alt - a) := by ring
  rw [t]
  refine (abs_sub _ _).trans ?_
  have := abs_add_le (alt' - a') (a' - a)
  linarith

/-- C158: the extraterrestrial irradiance on one UTC date differs by at most 1.0364 times the solar constant times the same
angle in radians. -/
theorem C158_extraterrestrial (tp : ℝ) (d d' : DateTime) (c c' : Civil) (h : UtcFields d c) (h' : UtcFields d' c')
    (hy : yday c'.date = yday c.date) (lat lon lat' lon' SC : ℝ) (hSC : 0 ≤ SC) (k : ℤ) :
    ∃ r r', extraterrestrial_irrad (mathB tp) (num lat) (num lon) (.dt d) (num SC) = .ok (num r) ∧
      extraterrestrial_irrad (mathB tp) (num lat') (num lon') (.dt d') (num SC) = .ok (num r') ∧
      |r' - r| ≤ 1.0364 * SC * rad (|lat' - lat|
        + |lon' - lon + (((c'.hour : ℝ) * 60 + c'.minute) - ((c.hour : ℝ) * 60 + c.minute)) / 4 - 360 * k|) := by
  obtain ⟨a, a', e, e', hb, -⟩ := C158_date tp d d' c c' h h' hy lat lon lat' lon' k
  obtain ⟨x, hx, hr⟩ := C77_extraterrestrial tp d c h lat lon SC
  obtain ⟨x', hx', hr'⟩ := C77_extraterrestrial tp d' c' h' lat' lon' SC
  obtain rfl : a = x := num_injective (Except.ok.inj (e.symm.trans hx))
  obtain rfl : a' = x' := num_injective (Except.ok.inj (e'.symm.trans hx'))
  refine ⟨_, _, hr, hr', ?_⟩
  have es : eccF (yday c.date) = spencer (yday c.date) := by
    unfold eccF spencer
    rw [show 2 * π * ((yday c.date : ℝ) - 1) / 365 = rad (360 * (yday c.date - 1) / 365) by unfold rad; ring]
  obtain ⟨s0, s1⟩ := eccF_bounds (yday c.date)
  rw [es] at s0 s1
  rw [hy, ← mul_sub, abs_mul, abs_of_nonneg (mul_nonneg hSC (by norm_num at s0 ⊢; linarith))]
  have hs : |sin (rad a') - sin (rad a)| ≤ rad |a' - a| := by
    refine (Real.abs_sin_sub_sin_le _ _).trans (le_of_eq ?_)
    rw [← rad_sub]
    unfold rad
    rw [abs_div, abs_mul, abs_of_pos pi_pos, abs_of_pos (by norm_num : (0 : ℝ) < 180)]
  have hm : |max 0 (sin (rad a')) - max 0 (sin (rad a))| ≤ |sin (rad a') - sin (rad a)| := by
    have := abs_max_sub_max_le_abs (sin (rad a')) (sin (rad a)) 0
    rwa [max_comm 0, max_comm 0]
  have hc : rad |a' - a| ≤ rad (|lat' - lat|
        + |lon' - lon + (((c'.hour : ℝ) * 60 + c'.minute) - ((c.hour : ℝ) * 60 + c.minute)) / 4 - 360 * k|) := by
    rw [rad_le_rad]
    exact hb
  calc SC * spencer (yday c.date) * |max 0 (sin (rad a')) - max 0 (sin (rad a))|
      ≤ SC * 1.0364 * rad (|lat' - lat|
        + |lon' - lon + (((c'.hour : ℝ) * 60 + c'.minute) - ((c.hour : ℝ) * 60 + c.minute)) / 4 - 360 * k|) := by
        refine mul_le_mul ?_ (hm.trans (hs.trans hc)) (abs_nonneg _) (by positivity)
        exact mul_le_mul_of_nonneg_left s1 hSC
    _ = _ := by ring

example : UtcFields sampleDT sampleUTC ∧ |(42.2 : ℝ)| ≤ 90 ∧ |(62 : ℝ)| ≤ 360 ∧ (0 : ℝ) ≤ 1367 :=
  ⟨sample_utc, by norm_num [abs_le], by norm_num [abs_le], by norm_num⟩

end Verif.Props
