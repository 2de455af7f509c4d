import Verif.Proofs.Position
import Verif.Proofs.SpaTables

/-!
# C17, C21-C24, C65 and the precise part of C29: series, time ranges and the position pipeline

Exact arithmetic. `UtcFields d c`: the aware datetime `d` has the UTC fields `c`, of years 1 to 9999.
-/

namespace Verif.Props

open Verif.Spec Pysolar Pysolar.Solar Pysolar.Solartime Pysolar.Constants Real

/-! ## C24, C23: the series -/

/-- C24. -/
theorem C24_get_coeff (tp jme : ℝ) (table : List (List (ℚ × ℚ × ℚ))) :
    ∃ v, get_coeff (mathB tp) (num jme) table = .ok (num v) ∧ v = vsop jme table ∧
      |v| ≤ vsopBound jme table :=
  ⟨_, coeff_eval jme table, rfl, abs_vsop_le jme table⟩

/-- A table of two rows, to read the specification. -/
example (t : ℝ) : vsop t [[(2, 0, 1), (3, 1, 0)], [(5, 0, 0)]]
    = (2 * cos t + 3 * cos 1) + t * 5 := by
  simp [vsop, rowSum]

/-- C23: both published tables have 63 rows, with 5 multipliers each. -/
theorem C23_sixty_three_terms : Spa.nutation.length = 63 ∧ Spa.multiples.length = 63 ∧
    ∀ r ∈ Spa.multiples, r.length = 5 := by
  rw [← nutation_table, ← multiples_table]
  exact ⟨nutation_length, sin_terms_length, sin_terms_width⟩

/-- C23: the result is the sum over all rows of the published tables. -/
theorem C23_nutation (tp T : ℝ) :
    get_nutation (mathB tp) (num T)
      = .ok ⟨num (nutationLongitude T Spa.nutation Spa.multiples),
          num (nutationObliquity T Spa.nutation Spa.multiples)⟩ := by
  rw [← nutation_table, ← multiples_table]
  exact nutation_eval T

/-- C23: magnitudes, within 80 centuries of J2000 (all representable dates). -/
theorem C23_bounds (tp T : ℝ) (h : |T| ≤ 80) :
    ∃ l o, get_nutation (mathB tp) (num T) = .ok ⟨num l, num o⟩ ∧ |l| ≤ 0.00581 ∧ |o| ≤ 0.00284 := by
  refine ⟨_, _, nutation_eval T, ?_, ?_⟩
  · refine (abs_nutationLongitude_le (c := 80) (by exact_mod_cast h) _ _).trans ?_
    rw [div_le_iff₀ (by norm_num)]
    have : ((nutAmpl 80 (fun r => (r.1, r.2.1)) nutation_coefficients : ℚ) : ℝ) ≤ ((208900 : ℚ) : ℝ) :=
      Rat.cast_le.mpr nutAmpl_long
    norm_num at this ⊢
    linarith
  · refine (abs_nutationObliquity_le (c := 80) (by exact_mod_cast h) _ _).trans ?_
    rw [div_le_iff₀ (by norm_num)]
    have : ((nutAmpl 80 (fun r => (r.2.2.1, r.2.2.2)) nutation_coefficients : ℚ) : ℝ)
        ≤ ((101900 : ℚ) : ℝ) := Rat.cast_le.mpr nutAmpl_obl
    norm_num at this ⊢
    linarith

/-- The first row is the 18.6 year term. -/
example : Spa.nutation[0]? = some ((-171996 : ℚ), (-174.2 : ℚ), (92025 : ℚ), (8.9 : ℚ)) ∧
    Spa.multiples[0]? = some [0, 0, 0, 0, 1] := by decide +kernel

/-! ## C21 -/

/-- The Julian ephemeris century `T` and millennium `t` passed to the series for the datetime `d`. -/
def TimeArgs (tp : ℝ) (d : DateTime) (T t : ℝ) : Prop :=
  ∃ x, get_julian_ephemeris_day (mathB tp) (.dt d) = .ok x ∧
    get_julian_ephemeris_century (mathB tp) x = num T ∧
    get_julian_ephemeris_millennium (mathB tp) (num T) = num t

theorem timeArgs_eq {tp : ℝ} {d : DateTime} {c : Civil} (h : UtcFields d c) :
    TimeArgs tp d (jceOf c) (jmeOf c) :=
  ⟨_, jde_eq h, by rw [← jdeOf, jce_eval]; rfl, by rw [jme_eval]; rfl⟩

/-- C21: distance within 0.97 .. 1.03 (claimed: 0.96 .. 1.04), and the corrections do not raise. -/
theorem C21_distance (tp : ℝ) (d : DateTime) (c : Civil) (h : UtcFields d c) :
    ∃ T t, TimeArgs tp d T t ∧ ∃ R, get_sun_earth_distance (mathB tp) (num t) = .ok (num R) ∧
      0.97 ≤ R ∧ R ≤ 1.03 ∧
      (∃ a, get_aberration_correction (mathB tp) (num R) = .ok (num a)) ∧
      ∃ p, get_equatorial_horizontal_parallax (mathB tp) (num R) = .ok (num p) := by
  have hb := sunDist_bounds (abs_jmeOf h.1)
  exact ⟨_, _, timeArgs_eq h, _, dist_eval _, hb.1, hb.2, ⟨_, aberr_eval (sunDist_ne h.1)⟩,
    ⟨_, ehp_eval (sunDist_ne h.1)⟩⟩

example : UtcFields sampleDT sampleUTC := sample_utc

/-! ## C22 -/

theorem meanObl_bounds {u : ℝ} (h1 : -0.2 ≤ u) (h2 : u ≤ 0.8) :
    22.6 * 3600 ≤ meanObl u ∧ meanObl u ≤ 23.8 * 3600 := by
  have ha : |u| ≤ 0.8 := by rw [abs_le]; constructor <;> linarith
  have hp : ∀ n : ℕ, |u ^ n| ≤ 0.8 ^ n := fun n => by
    rw [abs_pow]; exact pow_le_pow_left₀ (abs_nonneg _) ha n
  have p2 := abs_le.mp (hp 2)
  have p4 := abs_le.mp (hp 4)
  have p5 := abs_le.mp (hp 5)
  have p6 := abs_le.mp (hp 6)
  have p7 := abs_le.mp (hp 7)
  have p8 := abs_le.mp (hp 8)
  have p9 := abs_le.mp (hp 9)
  have p10 := abs_le.mp (hp 10)
  have c1 : -2722 ≤ -4680.93 * u + 1999.25 * u ^ 3 := by
    norm_num at h1 h2 ⊢
    nlinarith [mul_nonneg (sub_nonneg.mpr h2) (sub_nonneg.mpr h2), mul_nonneg (sub_nonneg.mpr h1)
      (sub_nonneg.mpr h2), mul_nonneg (mul_nonneg (sub_nonneg.mpr h1) (sub_nonneg.mpr h2))
      (sub_nonneg.mpr h2), mul_nonneg (mul_nonneg (sub_nonneg.mpr h1) (sub_nonneg.mpr h1))
      (sub_nonneg.mpr h2)]
  have c2 : -4680.93 * u + 1999.25 * u ^ 3 ≤ 937 := by
    norm_num at h1 h2 ⊢
    nlinarith [mul_nonneg (sub_nonneg.mpr h2) (sub_nonneg.mpr h2), mul_nonneg (sub_nonneg.mpr h1)
      (sub_nonneg.mpr h2), mul_nonneg (mul_nonneg (sub_nonneg.mpr h1) (sub_nonneg.mpr h2))
      (sub_nonneg.mpr h2), mul_nonneg (mul_nonneg (sub_nonneg.mpr h1) (sub_nonneg.mpr h1))
      (sub_nonneg.mpr h2)]
  unfold meanObl
  norm_num at *
  constructor <;> linarith

theorem oblOf_bounds {c : Civil} (h : c.Valid) : 22.5 ≤ oblOf c ∧ oblOf c ≤ 24 := by
  obtain ⟨l, o, e, -, ho⟩ := C23_bounds 0 (jceOf c) (abs_jceOf h)
  rw [nutation_eval] at e
  have e := congrArg Nutation.obliquity (Except.ok.inj e)
  have e : nutEps (jceOf c) = o := num_injective e
  have hj := jmeOf_bounds h
  have hm := meanObl_bounds (u := jmeOf c / 10) (by norm_num; linarith) (by norm_num; linarith)
  rw [abs_le] at ho
  unfold oblOf
  rw [e]
  norm_num at *
  constructor <;> linarith

theorem betaOf_bound {c : Civil} (h : c.Valid) : |betaOf c| ≤ 0.001 := by
  have hl := abs_lat_le (abs_jmeOf h)
  unfold betaOf helioLat deg
  rw [abs_neg, abs_div, abs_mul, abs_div, abs_of_pos pi_pos, abs_of_pos (by norm_num : (0 : ℝ) < 180),
    abs_of_pos (by norm_num : (0 : ℝ) < 100000000), div_le_iff₀ pi_pos]
  have := pi_gt_three
  norm_num at *
  linarith

/-- A direction of ecliptic latitude `beta` has declination at most obliquity plus `|beta|`. -/
theorem declination_le {lam eps beta : ℝ} (h0 : 0 ≤ eps) (h1 : eps + |beta| ≤ 90) :
    |deg (arcsin (rotX eps (sph lam beta)).z)| ≤ eps + |beta| := by
  have hb0 := abs_nonneg beta
  have hcb : cos (rad beta) = cos (rad |beta|) := by
    rcases abs_choice beta with h | h <;> rw [h]
    rw [rad_neg, cos_neg]
  have hsb : |sin (rad beta)| = sin (rad |beta|) := by
    have hn : 0 ≤ sin (rad |beta|) := by
      apply sin_nonneg_of_nonneg_of_le_pi
      · rw [← rad_zero, rad_le_rad]; exact hb0
      · rw [← rad_180, rad_le_rad]; linarith
    rcases abs_choice beta with h | h
    · rw [h] at hn ⊢; exact abs_of_nonneg hn
    · rw [h] at hn ⊢
      rw [rad_neg, sin_neg] at hn ⊢
      rw [abs_of_nonpos (by linarith)]
  have hce : 0 ≤ cos (rad eps) := cos_rad_nonneg (by linarith) (by linarith)
  have hse : 0 ≤ sin (rad eps) := by
    apply sin_nonneg_of_nonneg_of_le_pi
    · rw [← rad_zero, rad_le_rad]; exact h0
    · rw [← rad_180, rad_le_rad]; linarith
  have hcb0 : 0 ≤ cos (rad |beta|) := cos_rad_nonneg (by linarith) (by linarith)
  have hz : |(rotX eps (sph lam beta)).z| ≤ sin (rad (eps + |beta|)) := by
    rw [← decl_z, rad_add, sin_add]
    refine (abs_add_le _ _).trans ?_
    rw [abs_mul, abs_mul, abs_mul, hsb, hcb, abs_of_nonneg hce, abs_of_nonneg hse, abs_of_nonneg hcb0]
    have hl := abs_sin_le_one (rad lam)
    have : cos (rad |beta|) * sin (rad eps) * |sin (rad lam)| ≤ cos (rad |beta|) * sin (rad eps) * 1 :=
      mul_le_mul_of_nonneg_left hl (mul_nonneg hcb0 hse)
    linarith
  rw [abs_le] at hz ⊢
  have hub : arcsin (rotX eps (sph lam beta)).z ≤ rad (eps + |beta|) := by
    have := monotone_arcsin hz.2
    rwa [arcsin_sin] at this
    · rw [← rad_90, ← rad_neg, rad_le_rad]; linarith
    · rw [← rad_90, rad_le_rad]; linarith
  have hlb : -rad (eps + |beta|) ≤ arcsin (rotX eps (sph lam beta)).z := by
    have := monotone_arcsin hz.1
    rwa [← sin_neg, arcsin_sin] at this
    · rw [← rad_90, ← rad_neg, ← rad_neg, rad_le_rad]; linarith
    · rw [← rad_90, ← rad_neg, rad_le_rad]; linarith
  constructor
  · rw [← rad_le_rad, rad_deg, rad_neg]; exact hlb
  · rw [← rad_le_rad, rad_deg]; exact hub

theorem decOf_bound {c : Civil} (h : c.Valid) : |decOf c| ≤ 24.1 := by
  have h1 := oblOf_bounds h
  have h2 := betaOf_bound h
  have := declination_le (lam := lamOf c) (eps := oblOf c) (beta := betaOf c) (by linarith)
    (by norm_num at *; linarith)
  unfold decOf
  norm_num at *
  linarith

/-- C22: obliquity. -/
theorem C22_obliquity (tp : ℝ) (d : DateTime) (c : Civil) (h : UtcFields d c) :
    ∃ T t, TimeArgs tp d T t ∧ ∃ n, get_nutation (mathB tp) (num T) = .ok n ∧
      ∃ e, get_true_ecliptic_obliquity (mathB tp) (num t) n = num e ∧ 22.5 ≤ e ∧ e ≤ 24 := by
  exact ⟨_, _, timeArgs_eq h, _, nutation_eval _, _, teo_eval _ _ _, oblOf_bounds h.1⟩

/-- C22: the declination, for any apparent longitude whatever. -/
theorem C22_declination (tp : ℝ) (d : DateTime) (c : Civil) (h : UtcFields d c) (lam : ℝ) :
    ∃ T t, TimeArgs tp d T t ∧ ∃ n, get_nutation (mathB tp) (num T) = .ok n ∧
      ∃ b, get_geocentric_latitude (mathB tp) (num t) = .ok b ∧
      ∃ x, get_geocentric_sun_declination (mathB tp) (num lam)
        (get_true_ecliptic_obliquity (mathB tp) (num t) n) b = .ok (num x) ∧ |x| ≤ 24.1 := by
  refine ⟨_, _, timeArgs_eq h, _, nutation_eval _, _, glat_eval _,
    deg (arcsin (rotX (oblOf c) (sph lam (betaOf c))).z), ?_, ?_⟩
  · rw [teo_eval, gsd_eval]; rfl
  · have h1 := oblOf_bounds h.1
    have h2 := betaOf_bound h.1
    have := declination_le (lam := lam) (eps := oblOf c) (beta := betaOf c) (by linarith)
      (by norm_num at *; linarith)
    norm_num at *
    linarith

/-! ## C17 -/

/-- C17. -/
theorem C17_azimuth_bearing (tp : ℝ) (d : DateTime) (c : Civil) (h : UtcFields d c) (lat lon elev : ℝ) :
    ∃ a, get_azimuth (mathB tp) (num lat) (num lon) (.dt d) (num elev) = .ok (num a) ∧ 0 ≤ a ∧ a < 360 :=
  ⟨_, azimuth_eval h lat lon elev, mod360_nonneg _, mod360_lt _⟩

/-! ## C29, precise positions -/

theorem lhaOf_periodic (tp lon : ℝ) (c : Civil) (k : ℤ) : lhaOf tp (lon + 360 * k) c = lhaOf tp lon c := by
  unfold lhaOf
  rw [show astOf c + (lon + 360 * k) - raOf tp c = astOf c + lon - raOf tp c + 360 * k by ring,
    mod360_add_int]

theorem topo_periodic (tp lat lon elev : ℝ) (c : Civil) (k : ℤ) :
    topoH tp lat (lon + 360 * k) elev c = topoH tp lat lon elev c ∧
      topoDec tp lat (lon + 360 * k) elev c = topoDec tp lat lon elev c := by
  unfold topoDec topoH psraOf
  rw [lhaOf_periodic]
  exact ⟨rfl, rfl⟩

/-- C29: the precise position functions. -/
theorem C29_precise (tp : ℝ) (d : DateTime) (c : Civil) (h : UtcFields d c) (lat lon elev : ℝ)
    (T P : (mathB tp).α) (k : ℤ) :
    get_azimuth (mathB tp) (num lat) (num (lon + 360 * k)) (.dt d) (num elev)
      = get_azimuth (mathB tp) (num lat) (num lon) (.dt d) (num elev) ∧
    get_altitude (mathB tp) (num lat) (num (lon + 360 * k)) (.dt d) (num elev) T P
      = get_altitude (mathB tp) (num lat) (num lon) (.dt d) (num elev) T P ∧
    get_position (mathB tp) (num lat) (num (lon + 360 * k)) (.dt d) (num elev) T P
      = get_position (mathB tp) (num lat) (num lon) (.dt d) (num elev) T P := by
  obtain ⟨h1, h2⟩ := topo_periodic tp lat lon elev c k
  rw [azimuth_eval h, azimuth_eval h, altitude_eval h, altitude_eval h, position_eval h, position_eval h]
  unfold aziOf teaOf
  rw [h1, h2]
  exact ⟨rfl, rfl, rfl⟩

/-! ## C65 -/

/-- C65. -/
theorem C65_reduced (tp : ℝ) (ast lon ra t lam eps beta : ℝ) :
    (∃ H, get_local_hour_angle (mathB tp) (num ast) (num lon) (num ra) = num H ∧ 0 ≤ H ∧ H < 360 ∧
      ∃ k : ℤ, H = ast + lon - ra + 360 * k) ∧
    (∃ r, get_geocentric_sun_right_ascension (mathB tp) (num lam) (num eps) (num beta) = .ok (num r) ∧
      0 ≤ r ∧ r < 360) ∧
    ∃ hl gl hb gb, get_heliocentric_longitude (mathB tp) (num t) = .ok (num hl) ∧ 0 ≤ hl ∧ hl < 360 ∧
      get_geocentric_longitude (mathB tp) (num t) = .ok (num gl) ∧ 0 ≤ gl ∧ gl < 360 ∧
      (gl = hl + 180 ∨ gl = hl - 180) ∧
      get_heliocentric_latitude (mathB tp) (num t) = .ok (num hb) ∧
      get_geocentric_latitude (mathB tp) (num t) = .ok (num gb) ∧ gb = -hb := by
  refine ⟨⟨_, lha_eval ast lon ra, mod360_nonneg _, mod360_lt _, -⌊(ast + lon - ra) / 360⌋, ?_⟩,
    ⟨_, gsra_eval lam eps beta, mod360_nonneg _, mod360_lt _⟩,
    _, _, _, _, hlon_eval t, mod360_nonneg _, mod360_lt _, glon_eval t, mod360_nonneg _, mod360_lt _, ?_,
    hlat_eval t, glat_eval t, rfl⟩
  · unfold mod360; push_cast; ring
  · have h0 : 0 ≤ helioLon t := mod360_nonneg _
    have h1 : helioLon t < 360 := mod360_lt _
    by_cases h : helioLon t < 180
    · left; exact mod360_of_mem (by linarith) (by linarith)
    · right
      have := mod360_add_int (helioLon t - 180) 1
      push_cast at this
      rw [show helioLon t - 180 + 360 * 1 = helioLon t + 180 by ring] at this
      rw [this]
      exact mod360_of_mem (by linarith) (by linarith)

end Verif.Props
