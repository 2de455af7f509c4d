import Verif.Proofs.Seasons
import Verif.Props.Refraction
import Verif.Props.Elevation

/-!
# C89, C90: seasons, polar day and polar night, 1901 to 2099
-/

namespace Verif.Props

open Verif.Spec Pysolar Pysolar.Solar Pysolar.Solartime Pysolar.Constants Real

theorem table_days {m d : ℤ} (m1 : 1 ≤ m) (m2 : m ≤ 12) (d1 : 1 ≤ d) (d2 : d ≤ 31) :
    (322 ≤ 100 * m + d ∧ 100 * m + d ≤ 920 →
      3 ≤ m ∧ 81 ≤ daysBeforeMonthTable m + d ∧ daysBeforeMonthTable m + d ≤ 263) ∧
    (925 ≤ 100 * m + d ∨ 100 * m + d ≤ 318 →
      3 ≤ m ∧ 268 ≤ daysBeforeMonthTable m + d ∧ daysBeforeMonthTable m + d ≤ 365 ∨
      1 ≤ daysBeforeMonthTable m + d ∧ daysBeforeMonthTable m + d ≤ 77) ∧
    (612 ≤ 100 * m + d ∧ 100 * m + d ≤ 630 →
      3 ≤ m ∧ 163 ≤ daysBeforeMonthTable m + d ∧ daysBeforeMonthTable m + d ≤ 181) ∧
    (1213 ≤ 100 * m + d ∧ 100 * m + d ≤ 1230 →
      3 ≤ m ∧ 347 ≤ daysBeforeMonthTable m + d ∧ daysBeforeMonthTable m + d ≤ 364) := by
  interval_cases m <;> simp only [daysBeforeMonthTable] <;> norm_num <;> omega

/-- Day numbers in a common year from month and day. -/
theorem commonDay_bounds {c : Civil} (h : c.Valid) :
    (322 ≤ 100 * c.month + c.day ∧ 100 * c.month + c.day ≤ 920 →
      3 ≤ c.month ∧ 81 ≤ commonDay c ∧ commonDay c ≤ 263) ∧
    (925 ≤ 100 * c.month + c.day ∨ 100 * c.month + c.day ≤ 318 →
      3 ≤ c.month ∧ 268 ≤ commonDay c ∧ commonDay c ≤ 365 ∨ 1 ≤ commonDay c ∧ commonDay c ≤ 77) ∧
    (612 ≤ 100 * c.month + c.day ∧ 100 * c.month + c.day ≤ 630 →
      3 ≤ c.month ∧ 163 ≤ commonDay c ∧ commonDay c ≤ 181) ∧
    (1213 ≤ 100 * c.month + c.day ∧ 100 * c.month + c.day ≤ 1230 →
      3 ≤ c.month ∧ 347 ≤ commonDay c ∧ commonDay c ≤ 364) := by
  obtain ⟨⟨m1, m2, d1, d2⟩, -⟩ := h.2.2
  refine table_days m1 m2 d1 (d2.trans ?_)
  unfold daysInMonth daysInMonthTable
  split_ifs <;> norm_num

/-- C89: in the years 1901 to 2099 (UTC) the declination returned by `get_topocentric_position` is positive at
every instant from 22 March to 20 September and negative from 25 September to 18 March, at every place. -/
theorem C89_declination_sign (tp : ℝ) (d : DateTime) (c : Civil) (h : UtcFields d c) (hy1 : 1901 ≤ c.year)
    (hy2 : c.year ≤ 2099) (lat lon elev : ℝ) (h1 : -90 < lat) (h2 : lat < 90) (he : |elev| ≤ 50000) :
    ∃ dec H, get_topocentric_position (mathB tp) (num lat) (num lon) (.dt d) (num elev) = .ok (num dec, num H) ∧
      (322 ≤ 100 * c.month + c.day ∧ 100 * c.month + c.day ≤ 920 → 0 < dec) ∧
      (925 ≤ 100 * c.month + c.day ∨ 100 * c.month + c.day ≤ 318 → dec < 0) := by
  obtain ⟨hc1, hc2, -⟩ := commonDay_bounds h.1
  have a := abs_le.mp (topo_small tp h.1 (lon := lon) h1 h2 he).1
  refine ⟨_, _, topo_eval h lat lon elev, ?_, ?_⟩
  · intro x
    obtain ⟨x1, x2, x3⟩ := hc1 x
    have := dec_summer h.1 hy1 hy2 x1 x2 x3
    clear hc1 hc2 x
    norm_num at *
    linarith
  · intro x
    have := dec_winter h.1 hy1 hy2 (hc2 x)
    clear hc1 hc2 x
    norm_num at *
    linarith

/-- The altitude is at least that of lower culmination. -/
theorem culmination {lat dec H : ℝ} (hl : 0 < lat + dec) (hl2 : |lat| ≤ 90) (hd : |dec| ≤ 90) :
    lat + dec - 90 ≤ deg (arcsin (sunENU lat H dec).z) := by
  have hp := pi_pos
  have hl2 := abs_le.mp hl2
  have hd := abs_le.mp hd
  have c1 := cos_rad_nonneg hl2.1 hl2.2
  have c2 := cos_rad_nonneg hd.1 hd.2
  have hz : sin (rad (lat + dec - 90)) ≤ (sunENU lat H dec).z := by
    rw [← up_eq]
    have : sin (rad (lat + dec - 90)) = -cos (rad (lat + dec)) := by
      rw [rad_sub, rad_90, sin_sub_pi_div_two]
    rw [this, rad_add, cos_add]
    nlinarith [mul_nonneg c1 c2, neg_one_le_cos (rad H)]
  have := monotone_arcsin hz
  rw [arcsin_sin (by unfold rad; nlinarith) (by unfold rad; nlinarith)] at this
  have := deg_mono this
  rwa [deg_rad] at this

/-- The altitude is at most that of upper culmination. -/
theorem culmination_upper {lat dec H : ℝ} (hl : 0 ≤ lat - dec) (hl1 : lat - dec ≤ 180) (hl2 : |lat| ≤ 90) (hd : |dec| ≤ 90) :
    deg (arcsin (sunENU lat H dec).z) ≤ 90 - (lat - dec) := by
  have hp := pi_pos
  have hl2 := abs_le.mp hl2
  have hd := abs_le.mp hd
  have c1 := cos_rad_nonneg hl2.1 hl2.2
  have c2 := cos_rad_nonneg hd.1 hd.2
  have hz : (sunENU lat H dec).z ≤ sin (rad (90 - (lat - dec))) := by
    rw [← up_eq]
    have : sin (rad (90 - (lat - dec))) = cos (rad (lat - dec)) := by
      rw [rad_sub, rad_90, sin_pi_div_two_sub]
    rw [this, rad_sub, cos_sub]
    nlinarith [mul_nonneg c1 c2, cos_le_one (rad H)]
  have := monotone_arcsin hz
  rw [arcsin_sin (by unfold rad; nlinarith) (by unfold rad; nlinarith)] at this
  have := deg_mono this
  rwa [deg_rad] at this

theorem sunENU_mirror (lat H dec : ℝ) : (sunENU (-lat) H (-dec)).z = (sunENU lat H dec).z := by
  rw [← up_eq, ← up_eq, rad_neg, rad_neg, sin_neg, sin_neg, cos_neg, cos_neg]
  ring

/-- Declination in the weeks around the solstices. -/
theorem solstice (tp : ℝ) {c : Civil} (h : c.Valid) (hy1 : 1901 ≤ c.year) (hy2 : c.year ≤ 2099) {lat lon elev : ℝ}
    (h1 : -90 < lat) (h2 : lat < 90) (he : |elev| ≤ 50000) :
    (612 ≤ 100 * c.month + c.day ∧ 100 * c.month + c.day ≤ 630 →
      22.8 ≤ topoDec tp lat lon elev c ∧ topoDec tp lat lon elev c ≤ 25) ∧
    (1213 ≤ 100 * c.month + c.day ∧ 100 * c.month + c.day ≤ 1230 →
      22.8 ≤ -topoDec tp lat lon elev c ∧ -topoDec tp lat lon elev c ≤ 25) := by
  obtain ⟨-, -, hc1, hc2⟩ := commonDay_bounds h
  have a := abs_le.mp (topo_small tp h (lon := lon) h1 h2 he).1
  have b := abs_le.mp (decOf_bound h)
  constructor
  · intro x
    obtain ⟨x1, x2, x3⟩ := hc1 x
    have := dec_june h hy1 hy2 x1 x2 x3
    clear hc1 hc2 x
    norm_num at *
    constructor <;> linarith
  · intro x
    obtain ⟨x1, x2, x3⟩ := hc2 x
    have := dec_december h hy1 hy2 x1 x2 x3
    clear hc1 hc2 x
    norm_num at *
    constructor <;> linarith

/-- Elevation angle during polar day and polar night. -/
theorem polar_elevation {lat dec H : ℝ} (h1 : 68 ≤ lat) (h2 : lat < 90) (hd : 22.8 ≤ dec) (hd2 : dec ≤ 25) :
    (0.8 ≤ deg (arcsin (sunENU lat H dec).z) ∧ deg (arcsin (sunENU lat H dec).z) ≤ 47) ∧
    deg (arcsin (sunENU lat H (-dec)).z) ≤ -0.8 := by
  have hl : |lat| ≤ 90 := by rw [abs_le]; constructor <;> linarith
  have hdd : |dec| ≤ 90 := by rw [abs_le]; norm_num at *; constructor <;> linarith
  have a := culmination (lat := lat) (dec := dec) (H := H) (by norm_num at *; linarith) hl hdd
  have b := culmination_upper (lat := lat) (dec := dec) (H := H) (by linarith) (by norm_num at *; linarith) hl hdd
  have c := culmination_upper (lat := lat) (dec := -dec) (H := H) (by norm_num at *; linarith)
    (by norm_num at *; linarith) hl (by rwa [abs_neg])
  refine ⟨⟨?_, ?_⟩, ?_⟩ <;> norm_num at * <;> linarith

/-- C90, polar day: in the years 1901 to 2099, from 12 to 30 June (UTC) north of 68 degrees and from 13 to 30
December south of -68 degrees, `get_altitude` is positive at every instant, for all positive pressures and
temperatures. -/
theorem C90_polar_day (tp : ℝ) (htp : tp ≠ 0) (d : DateTime) (c : Civil) (h : UtcFields d c) (hy1 : 1901 ≤ c.year)
    (hy2 : c.year ≤ 2099) (lat lon elev T P : ℝ) (hT : 0 < T) (hP : 0 < P) (he : |elev| ≤ 50000)
    (hs : 612 ≤ 100 * c.month + c.day ∧ 100 * c.month + c.day ≤ 630 ∧ 68 ≤ lat ∧ lat < 90 ∨
      1213 ≤ 100 * c.month + c.day ∧ 100 * c.month + c.day ≤ 1230 ∧ -90 < lat ∧ lat ≤ -68) :
    ∃ a, get_altitude (mathB tp) (num lat) (num lon) (.dt d) (num elev) (num T) (num P) = .ok (num a) ∧ 0 < a := by
  have hl : -90 < lat ∧ lat < 90 := by rcases hs with ⟨-, -, a, b⟩ | ⟨-, -, a, b⟩ <;> constructor <;> linarith
  obtain ⟨s1, s2⟩ := solstice tp h.1 hy1 hy2 (lon := lon) hl.1 hl.2 he
  have key : 0.8 ≤ teaOf tp lat lon elev c ∧ teaOf tp lat lon elev c ≤ 47 := by
    unfold teaOf
    rcases hs with ⟨x1, x2, l1, l2⟩ | ⟨x1, x2, l1, l2⟩
    · exact (polar_elevation l1 l2 (s1 ⟨x1, x2⟩).1 (s1 ⟨x1, x2⟩).2).1
    · have := (polar_elevation (lat := -lat) (H := topoH tp lat lon elev c) (by linarith) (by linarith) (s2 ⟨x1, x2⟩).1 (s2 ⟨x1, x2⟩).2).1
      rwa [sunENU_mirror] at this
  rw [altitude_eval h]
  generalize teaOf tp lat lon elev c = e at *
  have hz := (C30_zenith_zero e (by norm_num at *; linarith)).1 (by norm_num at *; linarith)
  obtain ⟨r, hr, hpos, -⟩ := C30_sign tp P T e htp hP hT (by norm_num at *; linarith) (by norm_num at *; linarith) hz.ne
  rw [hr]
  refine ⟨e + r, by simp only [ok_bind, m_add, pure_eq_ok], ?_⟩
  have := hpos hz
  have := key.1
  norm_num at *
  linarith

/-- C90, polar night: from 13 to 30 December (UTC) north of 68 degrees and from 12 to 30 June south of -68
degrees, `get_altitude` with the default pressure and temperature is negative at every instant at which it
returns. -/
theorem C90_polar_night (tp : ℝ) (htp : 1 ≤ |tp|) (d : DateTime) (c : Civil) (h : UtcFields d c)
    (hy1 : 1901 ≤ c.year) (hy2 : c.year ≤ 2099) (lat lon elev a : ℝ) (he : |elev| ≤ 50000)
    (hs : 1213 ≤ 100 * c.month + c.day ∧ 100 * c.month + c.day ≤ 1230 ∧ 68 ≤ lat ∧ lat < 90 ∨
      612 ≤ 100 * c.month + c.day ∧ 100 * c.month + c.day ≤ 630 ∧ -90 < lat ∧ lat ≤ -68)
    (ha : get_altitude (mathB tp) (num lat) (num lon) (.dt d) (num elev) (num standard_temperature)
      (num standard_pressure) = .ok (num a)) : a < 0 := by
  have hl : -90 < lat ∧ lat < 90 := by rcases hs with ⟨-, -, a, b⟩ | ⟨-, -, a, b⟩ <;> constructor <;> linarith
  obtain ⟨s1, s2⟩ := solstice tp h.1 hy1 hy2 (lon := lon) hl.1 hl.2 he
  have key : teaOf tp lat lon elev c ≤ -0.8 := by
    unfold teaOf
    rcases hs with ⟨x1, x2, l1, l2⟩ | ⟨x1, x2, l1, l2⟩
    · have := (polar_elevation (H := topoH tp lat lon elev c) l1 l2 (s2 ⟨x1, x2⟩).1 (s2 ⟨x1, x2⟩).2).2
      rwa [neg_neg] at this
    · have := (polar_elevation (lat := -lat) (H := topoH tp lat lon elev c) (by linarith) (by linarith) (s1 ⟨x1, x2⟩).1
        (s1 ⟨x1, x2⟩).2).2
      rwa [sunENU_mirror] at this
  rw [altitude_eval h] at ha
  generalize teaOf tp lat lon elev c = e at *
  cases hr : get_refraction_correction (mathB tp) (num standard_pressure) (num standard_temperature) (num e) with
  | error err => rw [hr] at ha; simp at ha
  | ok r =>
    rw [hr] at ha
    have hnum : ∃ x : ℝ, r = num x ∧ x ≤ 0.61 := by
      rcases lt_or_ge e (-0.83337) with h' | h'
      · exact ⟨0, C30_zero_below _ _ _ _ h' r hr, by norm_num⟩
      · have hz := (C30_zenith_zero e h').1 (by norm_num at *; linarith)
        obtain ⟨x, hx, -⟩ := C30_sign tp standard_pressure standard_temperature e
          (by rintro rfl; norm_num at htp) (by norm_num [standard_pressure]) (by norm_num [standard_temperature]) h'
          (by norm_num at *; linarith) hz.ne
        rw [hx] at hr
        refine ⟨x, (Except.ok.inj hr).symm, C30_bound tp e x htp (by norm_num at *; linarith) hx⟩
    obtain ⟨x, rfl, hx⟩ := hnum
    simp only [ok_bind, m_add, pure_eq_ok] at ha
    rw [← num_injective (Except.ok.inj ha)]
    norm_num at *
    linarith

/-- A datetime in June 2000, and its season. -/
example : UtcFields (utcDT ⟨2000, 6, 21, 3, 0, 0, 0⟩) ⟨2000, 6, 21, 3, 0, 0, 0⟩ ∧
    322 ≤ 100 * (6 : ℤ) + 21 ∧ 100 * (6 : ℤ) + 21 ≤ 920 ∧ 612 ≤ 100 * (6 : ℤ) + 21 ∧ 100 * (6 : ℤ) + 21 ≤ 630 :=
  ⟨utcDT_fields (civil_valid_of_check (by decide)), by norm_num, by norm_num, by norm_num, by norm_num⟩

end Verif.Props
