import Verif.Proofs.Motion
import Verif.Props.Sky

/-!
# C78: the sun's motion in longitude
-/

namespace Verif.Props

open Verif.Spec Pysolar Pysolar.Solar Pysolar.Solartime Pysolar.Constants Real

theorem lon_rate {s t : ℝ} {c m : ℚ} (hs : |s| ≤ c) (ht : |t| ≤ c) (h : s ≤ t) (hm : lip c lonRest ≤ m) :
    (628331966747 - m) * (t - s) ≤ vsop t heliocentric_longitude_coeffs - vsop s heliocentric_longitude_coeffs ∧
    vsop t heliocentric_longitude_coeffs - vsop s heliocentric_longitude_coeffs ≤ (628331966747 + m) * (t - s) := by
  have h1 := abs_le.mp (vsop_lip hs ht lonRest)
  rw [abs_of_nonneg (sub_nonneg.mpr h)] at h1
  have h2 : (lip c lonRest : ℝ) * (t - s) ≤ m * (t - s) :=
    mul_le_mul_of_nonneg_right (by exact_mod_cast hm) (sub_nonneg.mpr h)
  rw [lon_eq, lon_eq]
  constructor <;> nlinarith

theorem glon_turns (t : ℝ) :
    ∃ k : ℤ, mod360 (helioLon t + 180) = deg (vsop t heliocentric_longitude_coeffs / 100000000) + 180 + 360 * k := by
  unfold helioLon mod360
  refine ⟨-⌊deg (vsop t heliocentric_longitude_coeffs / 100000000) / 360⌋
    - ⌊(deg (vsop t heliocentric_longitude_coeffs / 100000000)
      - 360 * ⌊deg (vsop t heliocentric_longitude_coeffs / 100000000) / 360⌋ + 180) / 360⌋, ?_⟩
  push_cast
  ring

theorem glon_rate {s t : ℝ} {c m a b : ℚ} (hs : |s| ≤ c) (ht : |t| ≤ c) (h : s ≤ t) (hm : lip c lonRest ≤ m)
    (ha : a * 365250 * 3141593 * 100 ≤ (628331966747 - m) * 180) (ha0 : 0 ≤ a)
    (hb : (628331966747 + m) * 180 ≤ b * 365250 * 3141592 * 100) (hb0 : 0 ≤ b) :
    ∃ (k : ℤ), a * (365250 * (t - s)) ≤ mod360 (helioLon t + 180) - mod360 (helioLon s + 180) + 360 * k ∧
      mod360 (helioLon t + 180) - mod360 (helioLon s + 180) + 360 * k ≤ b * (365250 * (t - s)) := by
  obtain ⟨k, hk⟩ := glon_turns t
  obtain ⟨l, hl⟩ := glon_turns s
  obtain ⟨h1, h2⟩ := lon_rate hs ht h hm
  have hd : 0 ≤ t - s := sub_nonneg.mpr h
  have p1 := pi_gt_d6
  have p2 := pi_lt_d6
  have ha' : (a : ℝ) * 365250 * 3141593 * 100 ≤ (628331966747 - m) * 180 := by exact_mod_cast ha
  have hb' : (628331966747 + (m : ℝ)) * 180 ≤ b * 365250 * 3141592 * 100 := by exact_mod_cast hb
  have ha0' : (0 : ℝ) ≤ a := by exact_mod_cast ha0
  have hb0' : (0 : ℝ) ≤ b := by exact_mod_cast hb0
  refine ⟨l - k, ?_⟩
  rw [hk, hl]
  push_cast
  set V := vsop t heliocentric_longitude_coeffs
  set W := vsop s heliocentric_longitude_coeffs
  have e : deg (V / 100000000) + 180 + 360 * k - (deg (W / 100000000) + 180 + 360 * l) + 360 * (l - k)
      = (V - W) * 180 / (100000000 * π) := by
    unfold deg
    field_simp
    ring
  rw [e, le_div_iff₀ (by positivity), div_le_iff₀ (by positivity)]
  constructor
  · have : (a : ℝ) * 365250 * π * 100000000 * (t - s) ≤ (628331966747 - m) * 180 * (t - s) := by
      refine mul_le_mul_of_nonneg_right (le_trans ?_ ha') hd
      have : (a : ℝ) * 365250 * π ≤ a * 365250 * 3.141593 := mul_le_mul_of_nonneg_left p2.le (by positivity)
      linarith
    nlinarith
  · have : (628331966747 + (m : ℝ)) * 180 * (t - s) ≤ b * 365250 * π * 100000000 * (t - s) := by
      refine mul_le_mul_of_nonneg_right (hb'.trans ?_) hd
      have : (b : ℝ) * 365250 * 3.141592 ≤ b * 365250 * π := mul_le_mul_of_nonneg_left p1.le (by positivity)
      linarith
    nlinarith

/-- C78: between any two datetimes of the years 1 to 9999 the sun's longitude advances (modulo 360 degrees)
by 0.926 to 1.045 degrees per day of ephemeris time. -/
theorem C78_rate (tp : ℝ) (d d' : DateTime) (c c' : Civil) (h : UtcFields d c) (h' : UtcFields d' c')
    (jde jde' : ℝ) (hj : get_julian_ephemeris_day (mathB tp) (.dt d) = .ok (num jde))
    (hj' : get_julian_ephemeris_day (mathB tp) (.dt d') = .ok (num jde')) (hle : jde ≤ jde') :
    ∃ (lam lam' : ℝ) (k : ℤ),
      get_geocentric_longitude (mathB tp) (get_julian_ephemeris_millennium (mathB tp)
        (get_julian_ephemeris_century (mathB tp) (num jde))) = .ok (num lam) ∧
      get_geocentric_longitude (mathB tp) (get_julian_ephemeris_millennium (mathB tp)
        (get_julian_ephemeris_century (mathB tp) (num jde'))) = .ok (num lam') ∧
      0.926 * (jde' - jde) ≤ lam' - lam + 360 * k ∧ lam' - lam + 360 * k ≤ 1.045 * (jde' - jde) := by
  have e := num_injective (Except.ok.inj ((jde_eq h).symm.trans hj))
  have e' := num_injective (Except.ok.inj ((jde_eq h').symm.trans hj'))
  rw [← jdeOf] at e e'
  subst e e'
  rw [jce_eval, jce_eval, jme_eval, jme_eval, ← jceOf, ← jceOf, ← jmeOf, ← jmeOf, glon_eval, glon_eval]
  have hd : 365250 * (jmeOf c' - jmeOf c) = jdeOf c' - jdeOf c := by
    unfold jmeOf jceOf; ring
  obtain ⟨k, h1, h2⟩ := glon_rate (a := 0.926) (b := 1.045) (c := 8) (by exact_mod_cast abs_jmeOf h.1)
    (by exact_mod_cast abs_jmeOf h'.1)
    (by linarith) lonRest_lip8 (by norm_num) (by norm_num) (by norm_num) (by norm_num)
  rw [hd] at h1 h2
  exact ⟨_, _, k, rfl, rfl, by exact_mod_cast h1, by exact_mod_cast h2⟩

/-- C78: within a century of J2000, by 0.951 to 1.021 degrees per day. -/
theorem C78_rate_near_J2000 (tp jde jde' : ℝ) (hle : jde ≤ jde') (h0 : 2451545 - 36525 ≤ jde)
    (h1 : jde' ≤ 2451545 + 36525) :
    ∃ (lam lam' : ℝ) (k : ℤ),
      get_geocentric_longitude (mathB tp) (get_julian_ephemeris_millennium (mathB tp)
        (get_julian_ephemeris_century (mathB tp) (num jde))) = .ok (num lam) ∧
      get_geocentric_longitude (mathB tp) (get_julian_ephemeris_millennium (mathB tp)
        (get_julian_ephemeris_century (mathB tp) (num jde'))) = .ok (num lam') ∧
      0.951 * (jde' - jde) ≤ lam' - lam + 360 * k ∧ lam' - lam + 360 * k ≤ 1.021 * (jde' - jde) := by
  rw [jce_eval, jce_eval, jme_eval, jme_eval, glon_eval, glon_eval]
  have hd : 365250 * ((jde' - 2451545) / 36525 / 10 - (jde - 2451545) / 36525 / 10) = jde' - jde := by ring
  obtain ⟨k, h1, h2⟩ := glon_rate (s := (jde - 2451545) / 36525 / 10) (t := (jde' - 2451545) / 36525 / 10)
    (a := 0.951) (b := 1.021) (c := 0.1)
    (by rw [abs_le]; norm_num; constructor <;> linarith) (by rw [abs_le]; norm_num; constructor <;> linarith)
    (by linarith) lonRest_lip01 (by norm_num) (by norm_num) (by norm_num) (by norm_num)
  rw [hd] at h1 h2
  exact ⟨_, _, k, rfl, rfl, by exact_mod_cast h1, by exact_mod_cast h2⟩

/-- C78: so the sun's longitude does not take the same value twice within 344 days. -/
theorem C78_distinct (tp : ℝ) (d d' : DateTime) (c c' : Civil) (h : UtcFields d c) (h' : UtcFields d' c')
    (jde jde' lam lam' : ℝ) (hj : get_julian_ephemeris_day (mathB tp) (.dt d) = .ok (num jde))
    (hj' : get_julian_ephemeris_day (mathB tp) (.dt d') = .ok (num jde')) (hlt : jde < jde')
    (hle : jde' ≤ jde + 344)
    (hl : get_geocentric_longitude (mathB tp) (get_julian_ephemeris_millennium (mathB tp)
      (get_julian_ephemeris_century (mathB tp) (num jde))) = .ok (num lam))
    (hl' : get_geocentric_longitude (mathB tp) (get_julian_ephemeris_millennium (mathB tp)
      (get_julian_ephemeris_century (mathB tp) (num jde'))) = .ok (num lam')) : lam ≠ lam' := by
  obtain ⟨a, b, k, ha, hb, h1, h2⟩ := C78_rate tp d d' c c' h h' jde jde' hj hj' hlt.le
  rw [hl] at ha
  rw [hl'] at hb
  rw [← num_injective (Except.ok.inj ha), ← num_injective (Except.ok.inj hb)] at h1 h2
  intro e
  rw [e, sub_self, zero_add] at h1 h2
  have hk : (0 : ℝ) < 360 * k := lt_of_lt_of_le (mul_pos (by norm_num) (by linarith)) h1
  have hk0 : 0 < k := by exact_mod_cast (by linarith : (0 : ℝ) < k)
  have hk1 : (1 : ℝ) ≤ k := by exact_mod_cast hk0
  norm_num at h2
  linarith

/-- The hypotheses hold for the sample datetime and one microsecond later. -/
example : ∃ d d' c c', UtcFields d c ∧ UtcFields d' c' ∧ jdeOf c < jdeOf c' ∧ jdeOf c' ≤ jdeOf c + 344 := by
  have e : ((sampleUTC.micros : ℤ) : ℝ) + 1 = (Civil.micros ⟨2007, 2, 18, 20, 13, 1, 130321⟩ : ℝ) := by
    have : sampleUTC.micros + 1 = Civil.micros ⟨2007, 2, 18, 20, 13, 1, 130321⟩ := by decide
    exact_mod_cast congrArg (Int.cast : ℤ → ℝ) this
  refine ⟨sampleDT, _, sampleUTC, _, sample_utc,
    utcDT_fields (c := ⟨2007, 2, 18, 20, 13, 1, 130321⟩) (civil_valid_of_check (by decide)), ?_, ?_⟩
  all_goals
    have ey : sampleUTC.year = 2007 := rfl
    have em : sampleUTC.month = 2 := rfl
    unfold jdeOf
    push_cast
    rw [← e, ey, em]
    linarith

end Verif.Props
