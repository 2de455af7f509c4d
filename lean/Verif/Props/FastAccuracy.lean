import Verif.Proofs.FastHour
import Verif.Proofs.SkyAngles
import Verif.Props.Fast
import Verif.Props.Elevation

/-!
# C87, C88: the fast functions against the precise ones
-/

namespace Verif.Props

open Verif.Spec Pysolar Pysolar.Solar Pysolar.Solartime Pysolar.Constants Real

/-- C87: for every aware datetime whose UTC year lies between 1901 and 2099 and every place between the
poles, `get_declination` of the day of the year is within 2.07 degrees of the declination of
`get_topocentric_position`, and `get_hour_angle` is within 0.99 degrees of its hour angle modulo full
turns. -/
theorem C87_fast_angles (tp : ℝ) (d : DateTime) (c : Civil) (h : UtcFields d c) (hy1 : 1901 ≤ c.year)
    (hy2 : c.year ≤ 2099) (lat lon elev : ℝ) (h1 : -90 < lat) (h2 : lat < 90) (he : |elev| ≤ 50000) :
    ∃ dec H dec' H', get_topocentric_position (mathB tp) (num lat) (num lon) (.dt d) (num elev)
        = .ok (num dec, num H) ∧
      get_declination (mathB tp) (num (yday c.date)) = .ok (num dec') ∧
      get_hour_angle (mathB tp) (.dt d) (num lon) = .ok (num H') ∧
      |dec' - dec| ≤ 2.07 ∧ ∃ k : ℤ, |H' - H - 360 * k| ≤ 0.99 := by
  refine ⟨_, _, _, _, topo_eval h lat lon elev, decl_eval _, ha_eval h lon, ?_, ?_⟩
  · have a := abs_le.mp (topo_small tp h.1 (lon := lon) h1 h2 he).1
    have b := abs_le.mp (dec_fast h.1 hy1 hy2)
    rw [abs_le]
    norm_num at *
    constructor <;> linarith
  · have a := abs_le.mp (topo_small tp h.1 (lon := lon) h1 h2 he).2
    obtain ⟨k, hk⟩ := hour_fast tp h.1 hy1 hy2 lon
    have b := abs_le.mp hk
    refine ⟨-k, ?_⟩
    rw [abs_le]
    push_cast
    norm_num at *
    constructor <;> linarith

/-- Angle between two directions from the differences of their spherical coordinates. -/
theorem angleBetween_pyth (lat : ℝ) {H H' δ δ' a b x : ℝ} {k : ℤ} (hδ : |δ' - δ| ≤ a)
    (hH : |H' - H - 360 * k| ≤ b) (hx : 0 ≤ x) (hx1 : x ≤ 5)
    (hab : a ^ 2 + b ^ 2 ≤ 0.999 * x ^ 2) :
    angleBetween (sunENU lat H' δ') (sunENU lat H δ) ≤ x := by
  unfold sunENU
  rw [angleBetween_toHorizon, ← sph_add_turns H δ k]
  have hx' : |x| = x := abs_of_nonneg hx
  rw [← hx']
  refine angleBetween_le (sph_unit _ _) (sph_unit _ _) ?_
  have hdot : (sph H' δ').dot (sph (H + 360 * k) δ)
      = cos (rad (δ' - δ)) - cos (rad δ') * cos (rad δ) * (1 - cos (rad (H' - H - 360 * k))) := by
    have e1 : rad (δ' - δ) = rad δ' - rad δ := by unfold rad; ring
    have e2 : rad (H' - H - 360 * k) = rad H' - rad (H + 360 * k) := by unfold rad; ring
    rw [e1, e2, cos_sub, cos_sub]
    simp only [sph, Vec3.dot]
    ring
  rw [hdot]
  have c1 := one_sub_sq_div_two_le_cos (x := rad (δ' - δ))
  have c2 := one_sub_sq_div_two_le_cos (x := rad (H' - H - 360 * k))
  have c3 := cos_le_one (rad (H' - H - 360 * k))
  have c4 : cos (rad δ') * cos (rad δ) ≤ 1 := by
    have := abs_cos_le_one (rad δ')
    have := abs_cos_le_one (rad δ)
    refine (le_abs_self _).trans ?_
    rw [abs_mul]
    exact mul_le_one₀ (by assumption) (abs_nonneg _) (by assumption)
  have c5 := cos_le_quartic (x := rad x) (by unfold rad; positivity)
  have hp := pi_lt_d4
  have hp0 := pi_pos
  have q1 : rad (δ' - δ) ^ 2 ≤ rad a ^ 2 := by
    rw [← sq_abs, abs_rad]
    unfold rad
    gcongr
  have q2 : rad (H' - H - 360 * k) ^ 2 ≤ rad b ^ 2 := by
    rw [← sq_abs, abs_rad]
    unfold rad
    gcongr
  have q3 : rad a ^ 2 + rad b ^ 2 ≤ 0.999 * rad x ^ 2 := by
    have : ∀ y : ℝ, rad y ^ 2 = y ^ 2 * (π / 180) ^ 2 := fun y => by unfold rad; ring
    rw [this, this, this]
    nlinarith [sq_nonneg (π / 180)]
  have q4 : rad x ^ 4 ≤ 0.0077 * rad x ^ 2 := by
    have : rad x ^ 2 ≤ 0.0077 := by
      have hr : rad x ≤ 0.0874 := by unfold rad; norm_num at *; nlinarith
      have hr0 : 0 ≤ rad x := by unfold rad; positivity
      norm_num at *
      nlinarith
    nlinarith [sq_nonneg (rad x)]
  have q5 : cos (rad δ') * cos (rad δ) * (1 - cos (rad (H' - H - 360 * k)))
      ≤ 1 - cos (rad (H' - H - 360 * k)) := by
    nlinarith
  norm_num at *
  nlinarith [sq_nonneg (rad x)]

/-- C88: for every aware datetime whose UTC year lies between 1901 and 2099 and every place between the
poles, `get_altitude_fast` is within 2.3 degrees of the elevation angle of the precise functions before
the correction for refraction. -/
theorem C88_fast_altitude (tp : ℝ) (d : DateTime) (c : Civil) (h : UtcFields d c) (hy1 : 1901 ≤ c.year)
    (hy2 : c.year ≤ 2099) (lat lon elev : ℝ) (h1 : -90 < lat) (h2 : lat < 90) (he : |elev| ≤ 50000) :
    ∃ dec H e alt, get_topocentric_position (mathB tp) (num lat) (num lon) (.dt d) (num elev)
        = .ok (num dec, num H) ∧
      get_topocentric_elevation_angle (mathB tp) (num lat) (num dec) (num H) = .ok (num e) ∧
      get_altitude_fast (mathB tp) (num lat) (num lon) (.dt d) = .ok (num alt) ∧
      |alt - e| ≤ 2.3 := by
  obtain ⟨dec, H, dec', H', e1, e2, e3, hd, k, hk⟩ := C87_fast_angles tp d c h hy1 hy2 lat lon elev h1 h2 he
  refine ⟨dec, H, _, _, e1, tea_eval _ _ _, altF_eval h lat lon, ?_⟩
  rw [decl_eval] at e2
  rw [ha_eval h] at e3
  unfold altF
  rw [num_injective (Except.ok.inj e2), num_injective (Except.ok.inj e3)]
  refine (altitude_diff (sunENU_unit _ _ _) (sunENU_unit _ _ _)).trans ?_
  exact angleBetween_pyth lat hd hk (by norm_num) (by norm_num) (by norm_num)

/-- C88: unless the fast altitude is exactly 90 or -90 degrees, the direction given by
`get_altitude_fast` and `get_azimuth_fast` is within 2.3 degrees of the one given by `get_azimuth` and the
elevation angle before refraction. -/
theorem C88_fast_direction (tp : ℝ) (d : DateTime) (c : Civil) (h : UtcFields d c) (hy1 : 1901 ≤ c.year)
    (hy2 : c.year ≤ 2099) (lat lon elev : ℝ) (h1 : -90 < lat) (h2 : lat < 90) (he : |elev| ≤ 50000)
    (alt : ℝ) (halt : get_altitude_fast (mathB tp) (num lat) (num lon) (.dt d) = .ok (num alt))
    (hne1 : alt ≠ 90) (hne2 : alt ≠ -90) :
    ∃ dec H e a azi, get_topocentric_position (mathB tp) (num lat) (num lon) (.dt d) (num elev)
        = .ok (num dec, num H) ∧
      get_topocentric_elevation_angle (mathB tp) (num lat) (num dec) (num H) = .ok (num e) ∧
      get_azimuth (mathB tp) (num lat) (num lon) (.dt d) (num elev) = .ok (num a) ∧
      get_azimuth_fast (mathB tp) (num lat) (num lon) (.dt d) = .ok (num azi) ∧
      angleBetween (horizontal alt azi) (horizontal e a) ≤ 2.3 := by
  obtain ⟨dec, H, dec', H', e1, e2, e3, hd, k, hk⟩ := C87_fast_angles tp d c h hy1 hy2 lat lon elev h1 h2 he
  obtain ⟨azi, ea, -, -, hdir, -⟩ := C37_azimuth_fast tp d c h lat lon h1 h2 dec' H' alt e2 e3 halt hne1 hne2
  refine ⟨dec, H, _, _, azi, e1, tea_eval _ _ _, azimuth_eval h lat lon elev, ea, ?_⟩
  have e1' := (topo_eval h lat lon elev).symm.trans e1
  injection e1' with e1'
  injection e1' with f1 f2
  have f1 := num_injective f1
  have f2 := num_injective f2
  have hb := abs_le.mp (topo_small tp h.1 (lon := lon) h1 h2 he).1
  have hb' := abs_le.mp (decOf_bound h.1)
  rw [f1] at hb
  rw [hdir]
  have : horizontal (deg (arcsin (sunENU lat H dec).z)) (aziOf tp lat lon elev c) = sunENU lat H dec := by
    unfold aziOf
    rw [f1, f2]
    exact azimuth_direction tp lat H dec (by norm_num at *; linarith) (by norm_num at *; linarith)
  rw [this]
  exact angleBetween_pyth lat hd hk (by norm_num) (by norm_num) (by norm_num)

/-- The sample datetime lies in the years covered. -/
example : UtcFields sampleDT sampleUTC ∧ 1901 ≤ sampleUTC.year ∧ sampleUTC.year ≤ 2099 ∧
    (-90 : ℝ) < 42.2 ∧ (42.2 : ℝ) < 90 ∧ |(62 : ℝ)| ≤ 50000 :=
  ⟨sample_utc, by decide, by decide, by norm_num, by norm_num, by norm_num⟩

end Verif.Props
