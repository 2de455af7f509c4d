import Verif.Proofs.Eval
import Verif.Proofs.Trig

/-!
# The formulas of solar.py over the exact `math` backend
-/

namespace Verif

open Verif.Spec Pysolar Pysolar.Solar Real

variable {tp : ℝ}

/-- Argument of the arcsine in `get_topocentric_elevation_angle`. -/
theorem up_eq (lat H dec : ℝ) :
    sin (rad lat) * sin (rad dec) + cos (rad lat) * cos (rad dec) * cos (rad H) = (sunENU lat H dec).z := by
  simp only [sunENU, toHorizon, sph]
  ring

theorem tea_eval (lat dec H : ℝ) :
    get_topocentric_elevation_angle (mathB tp) (num lat) (num dec) (num H)
      = .ok (num (deg (arcsin (sunENU lat H dec).z))) := by
  have h := unit_z (sunENU_unit lat H dec)
  simp [get_topocentric_elevation_angle, up_eq, m_asin h]

theorem taa_eval (H lat dec : ℝ) :
    get_topocentric_azimuth_angle (mathB tp) (num H) (num lat) (num dec)
      = .ok (num (mod360 (180 + deg (Complex.arg
          ⟨cos (rad H) * sin (rad lat) - tanP tp (rad dec) * cos (rad lat), sin (rad H)⟩)))) := by
  simp [get_topocentric_azimuth_angle]
  norm_num

/-- Equatorial components of the ecliptic direction. -/
theorem decl_z (lam eps beta : ℝ) :
    sin (rad beta) * cos (rad eps) + cos (rad beta) * sin (rad eps) * sin (rad lam)
      = (rotX eps (sph lam beta)).z := by
  simp only [rotX, sph]
  ring

theorem gsd_eval (lam eps beta : ℝ) :
    get_geocentric_sun_declination (mathB tp) (num lam) (num eps) (num beta)
      = .ok (num (deg (arcsin (rotX eps (sph lam beta)).z))) := by
  have h : (rotX eps (sph lam beta)).dot (rotX eps (sph lam beta)) = 1 := by rw [rotX_dot, sph_unit]
  have h := unit_z h
  simp [get_geocentric_sun_declination, decl_z, m_asin h]

theorem gsra_eval (lam eps beta : ℝ) :
    get_geocentric_sun_right_ascension (mathB tp) (num lam) (num eps) (num beta)
      = .ok (num (mod360 (deg (Complex.arg ⟨cos (rad lam),
          sin (rad lam) * cos (rad eps) - tanP tp (rad beta) * sin (rad eps)⟩)))) := by
  simp [get_geocentric_sun_right_ascension]

theorem lha_eval (ast lon ra : ℝ) :
    get_local_hour_angle (mathB tp) (num ast) (num lon) (num ra) = num (mod360 (ast + lon - ra)) := by
  simp [get_local_hour_angle]

theorem psra_eval (x p H d : ℝ) :
    get_parallax_sun_right_ascension (mathB tp) (num x) (num p) (num H) (num d)
      = .ok (num (deg (Complex.arg ⟨cos (rad d) - x * sin (rad p) * cos (rad H),
          -(x * sin (rad p) * sin (rad H))⟩))) := by
  simp [get_parallax_sun_right_ascension]

theorem tlha_eval (H p : ℝ) :
    get_topocentric_local_hour_angle (mathB tp) (num H) (num p) = num (H - p) := by
  simp [get_topocentric_local_hour_angle]

theorem tsd_eval (d y p ra H : ℝ) :
    get_topocentric_sun_declination (mathB tp) (num d) (num y) (num p) (num ra) (num H)
      = .ok (num (deg (Complex.arg ⟨cos (rad d) - y * sin (rad p) * cos (rad H),
          (sin (rad d) - y * sin (rad p)) * cos (rad ra)⟩))) := by
  simp [get_topocentric_sun_declination]

theorem flat_eval (lat : ℝ) :
    get_flattened_latitude (mathB tp) (num lat)
      = .ok (num (deg (arctan (0.99664719 * tanP tp (rad lat))))) := by
  simp [get_flattened_latitude]

theorem prd_eval (elev lat : ℝ) :
    get_projected_radial_distance (mathB tp) (num elev) (num lat)
      = .ok (num (cos (arctan (0.99664719 * tanP tp (rad lat))) + elev * cos (rad lat) / 6378140)) := by
  simp [get_projected_radial_distance, flat_eval, rad_deg, Constants.earth_radius]
  norm_num

theorem pad_eval (elev lat : ℝ) :
    get_projected_axial_distance (mathB tp) (num elev) (num lat)
      = .ok (num (0.99664719 * sin (arctan (0.99664719 * tanP tp (rad lat)))
          + elev * sin (rad lat) / 6378140)) := by
  simp [get_projected_axial_distance, flat_eval, rad_deg, Constants.earth_radius]
  norm_num

theorem aberr_eval {R : ℝ} (h : R ≠ 0) :
    get_aberration_correction (mathB tp) (num R) = .ok (num (-20.4898 / (3600 * R))) := by
  have h' : (3600.0 : ℝ) * R ≠ 0 := mul_ne_zero (by norm_num) h
  simp [get_aberration_correction, m_div _ h']
  norm_num

theorem ehp_eval {R : ℝ} (h : R ≠ 0) :
    get_equatorial_horizontal_parallax (mathB tp) (num R) = .ok (num (8.794 / (3600 / R))) := by
  have h' : (3600 : ℝ) / R ≠ 0 := div_ne_zero (by norm_num) h
  simp [get_equatorial_horizontal_parallax, m_div _ h, m_div _ h']

theorem zen_eval_bind {lat d H P T : ℝ} :
    get_topocentric_zenith_angle (mathB tp) (num lat) (num d) (num H) (num P) (num T) = do
      let r ← get_refraction_correction (mathB tp) (num P) (num T)
        (num (deg (arcsin (sunENU lat H d).z)))
      return num 90 - num (deg (arcsin (sunENU lat H d).z)) - r := by
  simp [get_topocentric_zenith_angle, tea_eval]

/-- Argument of the tangent in `get_refraction_correction`. -/
noncomputable def refrArg (tea : ℝ) : ℝ := rad (tea + 10.3 / (tea + 5.11))

theorem refr_eval {P T tea : ℝ} (h1 : tea ≠ -5.11) (h2 : T ≠ 0) (h3 : tanP tp (refrArg tea) ≠ 0) :
    get_refraction_correction (mathB tp) (num P) (num T) (num tea)
      = .ok (num (if -0.83337 ≤ tea
          then P * 2.830 * 1.02 / (1010 * T * 60 * tanP tp (refrArg tea)) else 0)) := by
  have h1' : tea + 5.11 ≠ 0 := fun h => h1 (by linarith)
  have hb : (1010.0 : ℝ) * T * 60.0 * tanP tp (rad (tea + 10.3 / (tea + 5.11))) ≠ 0 := by
    refine mul_ne_zero (mul_ne_zero (mul_ne_zero (by norm_num) h2) (by norm_num)) h3
  simp only [get_refraction_correction, m_sci, m_add, m_div _ h1', m_radians, m_tan, m_mul, m_neg, ok_bind,
    m_div _ hb, m_le, m_where, pure_eq_ok]
  have e1 : -(1.0 : ℝ) * (0.26667 + 0.5667) = -0.83337 := by norm_num
  have e2 : (1010.0 : ℝ) = 1010 := by norm_num
  have e3 : (60.0 : ℝ) = 60 := by norm_num
  have e4 : (0.0 : ℝ) = 0 := by norm_num
  rw [e1, e2, e3, e4]
  unfold refrArg
  split_ifs <;> rfl

theorem refr_err {P T tea : ℝ} (h : tea = -5.11 ∨ T = 0 ∨ tanP tp (refrArg tea) = 0) :
    get_refraction_correction (mathB tp) (num P) (num T) (num tea) = .error .zeroDivision := by
  by_cases h1 : tea = -5.11
  · subst h1
    simp only [get_refraction_correction, m_sci, m_add]
    have : (-5.11 + 5.11 : ℝ) = 0 := by norm_num
    rw [this, m_div_zero]
    rfl
  · have h1' : tea + 5.11 ≠ 0 := fun h => h1 (by linarith)
    have hb : (1010.0 : ℝ) * T * 60.0 * tanP tp (rad (tea + 10.3 / (tea + 5.11))) = 0 := by
      rcases h with h | h | h
      · exact absurd h h1
      · rw [h]; simp
      · unfold refrArg at h
        rw [h]; simp
    simp only [get_refraction_correction, m_sci, m_add, m_div _ h1', m_radians, m_tan, m_mul, m_neg,
      ok_bind, hb, m_div_zero, m_le, error_bind]

theorem mst_eval (jd : ℝ) :
    get_mean_sidereal_time (mathB tp) (num jd)
      = num (mod360 (280.46061837 + 360.98564736629 * (jd - 2451545)
          + 0.000387933 * ((jd - 2451545) / 36525) * ((jd - 2451545) / 36525)
            * (1 - (jd - 2451545) / 36525 / 38710000))) := by
  simp [get_mean_sidereal_time, Solartime.get_julian_century]
  norm_num

/-- The mean obliquity polynomial, in arc seconds. -/
noncomputable def meanObl (u : ℝ) : ℝ :=
  84381.448 - (4680.93 * u) - (1.55 * u ^ 2) + (1999.25 * u ^ 3)
    - (51.38 * u ^ 4) - (249.67 * u ^ 5) - (39.05 * u ^ 6) + (7.12 * u ^ 7)
    + (27.87 * u ^ 8) + (5.79 * u ^ 9) + (2.45 * u ^ 10)

theorem teo_eval (jme : ℝ) (dpsi deps : ℝ) :
    get_true_ecliptic_obliquity (mathB tp) (num jme) ⟨num dpsi, num deps⟩
      = num (meanObl (jme / 10) / 3600 + deps) := by
  have h1 : ((10.0 : ℚ) : ℝ) = 10 := by norm_num
  have h2 : ((3600.0 : ℚ) : ℝ) = 3600 := by norm_num
  simp only [get_true_ecliptic_obliquity, m_sci, m_divq, m_mul, m_pow, m_sub, m_add, h1, h2, meanObl]

theorem ast_eval (jd jme dpsi deps : ℝ) :
    get_apparent_sidereal_time (mathB tp) (num jd) (num jme) ⟨num dpsi, num deps⟩
      = .ok (num (mod360 (280.46061837 + 360.98564736629 * (jd - 2451545)
          + 0.000387933 * ((jd - 2451545) / 36525) * ((jd - 2451545) / 36525)
            * (1 - (jd - 2451545) / 36525 / 38710000))
          + dpsi * cos (meanObl (jme / 10) / 3600 + deps))) := by
  simp only [get_apparent_sidereal_time, mst_eval, teo_eval, m_cos, ok_bind, m_mul, m_add, pure_eq_ok]

theorem asl_eval (gl dpsi deps ab : ℝ) :
    get_apparent_sun_longitude (mathB tp) (num gl) ⟨num dpsi, num deps⟩ (num ab)
      = num (gl + dpsi + ab) := by
  simp only [get_apparent_sun_longitude, m_add]

theorem inc_eval (z s o a : ℝ)
    (h : -1 ≤ cos (rad z) * cos (rad s) + sin (rad s) * sin (rad z) * cos (rad a - π - rad o) ∧
      cos (rad z) * cos (rad s) + sin (rad s) * sin (rad z) * cos (rad a - π - rad o) ≤ 1) :
    get_incidence_angle (mathB tp) (num z) (num s) (num o) (num a)
      = .ok (num (deg (arccos (cos (rad z) * cos (rad s)
          + sin (rad s) * sin (rad z) * cos (rad a - π - rad o))))) := by
  simp only [get_incidence_angle, m_radians, m_cos, m_sin, ok_bind, m_mul, m_pi, m_sub, m_add, m_acos h,
    m_degrees, pure_eq_ok]

end Verif
