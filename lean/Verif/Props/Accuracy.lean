import Verif.Spec.SunDirection
import Verif.Props.Direction
import Verif.Props.Sky
import Mathlib.Analysis.InnerProductSpace.PiL2

/-!
# C71: the computed azimuth and elevation angle point at the sun
-/

namespace Verif.Props

open Verif.Spec Pysolar Pysolar.Solar Pysolar.Solartime Pysolar.Constants Real

/-! ## Vectors as elements of the Euclidean space -/

/-- A `Vec3` as an element of Euclidean space. -/
noncomputable def toE (v : Vec3) : EuclideanSpace ℝ (Fin 3) := !₂[v.x, v.y, v.z]

theorem inner_toE (u v : Vec3) : inner ℝ (toE u) (toE v) = u.dot v := by
  simp [toE, PiLp.inner_apply, Fin.sum_univ_three, Vec3.dot]
  ring

theorem norm_toE_sq (v : Vec3) : ‖toE v‖ ^ 2 = v.dot v := by
  rw [← inner_toE, real_inner_self_eq_norm_sq]

theorem norm_toE (v : Vec3) : ‖toE v‖ = √(v.dot v) := by
  rw [← norm_toE_sq, Real.sqrt_sq (norm_nonneg _)]

theorem toE_sub (u v : Vec3) : toE (u.sub v) = toE u - toE v := by
  ext i
  fin_cases i <;> simp [toE, Vec3.sub]

theorem toE_smul (k : ℝ) (v : Vec3) : toE (v.smul k) = k • toE v := by
  ext i
  fin_cases i <;> simp [toE, Vec3.smul]

theorem norm_toE_sub_toHorizon (lat : ℝ) (u v : Vec3) :
    ‖toE (toHorizon lat u) - toE (toHorizon lat v)‖ = ‖toE u - toE v‖ := by
  have h : (toHorizon lat u).sub (toHorizon lat v) = toHorizon lat (u.sub v) := by
    ext <;> simp [toHorizon, Vec3.sub] <;> ring
  rw [← toE_sub, ← toE_sub, h, norm_toE, norm_toE, toHorizon_dot]

/-- Directions with the same longitude differ by at most the difference in latitude. -/
theorem norm_sph_sub_lat (lon a b : ℝ) : ‖toE (sph lon a) - toE (sph lon b)‖ ≤ |rad (a - b)| := by
  rw [← toE_sub, norm_toE]
  apply Real.sqrt_le_iff.mpr
  refine ⟨abs_nonneg _, ?_⟩
  have h : ((sph lon a).sub (sph lon b)).dot ((sph lon a).sub (sph lon b)) = 2 - 2 * cos (rad (a - b)) := by
    rw [rad_sub, cos_sub]
    simp only [sph, Vec3.sub, Vec3.dot]
    have h1 := sin_sq_add_cos_sq (rad a)
    have h2 := sin_sq_add_cos_sq (rad b)
    have h3 := sin_sq_add_cos_sq (rad lon)
    linear_combination ((cos (rad a) - cos (rad b)) ^ 2) * h3 + h1 + h2
  rw [h, sq_abs]
  have := one_sub_sq_div_two_le_cos (x := rad (a - b))
  linarith

/-- Directions with the same latitude differ by at most the difference in longitude. -/
theorem norm_sph_sub_lon (lat a b : ℝ) : ‖toE (sph a lat) - toE (sph b lat)‖ ≤ |rad (a - b)| := by
  rw [← toE_sub, norm_toE]
  apply Real.sqrt_le_iff.mpr
  refine ⟨abs_nonneg _, ?_⟩
  have h : ((sph a lat).sub (sph b lat)).dot ((sph a lat).sub (sph b lat))
      = cos (rad lat) ^ 2 * (2 - 2 * cos (rad (a - b))) := by
    rw [rad_sub, cos_sub]
    simp only [sph, Vec3.sub, Vec3.dot]
    have h1 := sin_sq_add_cos_sq (rad a)
    have h2 := sin_sq_add_cos_sq (rad b)
    linear_combination (cos (rad lat) ^ 2) * (h1 + h2)
  rw [h, sq_abs]
  have := one_sub_sq_div_two_le_cos (x := rad (a - b))
  have h1 := cos_sq_le_one (rad lat)
  have h2 := sq_nonneg (cos (rad lat))
  have h3 := cos_le_one (rad (a - b))
  nlinarith

/-- A vector close to a unit vector makes a small angle with it. -/
theorem angle_le {u w : Vec3} (hu : u.dot u = 1) {x e : ℝ} (hx0 : 0 ≤ x) (hx1 : x ≤ 90)
    (he : ‖toE u - toE w‖ ≤ e) (hw : 0 < ‖toE w‖)
    (hc : e ^ 2 / 2 ≤ (1 - cos (rad x)) * ‖toE w‖) : angleBetween u w ≤ x := by
  have h0 : ‖toE u‖ = 1 := by rw [norm_toE, hu, Real.sqrt_one]
  have h1 : ‖toE u - toE w‖ ^ 2 = 1 - 2 * u.dot w + ‖toE w‖ ^ 2 := by
    rw [norm_sub_sq_real, h0, inner_toE]
    ring
  have h2 : ‖toE u - toE w‖ ^ 2 ≤ e ^ 2 := pow_le_pow_left₀ (norm_nonneg _) he 2
  have h3 : cos (rad x) * ‖toE w‖ ≤ u.dot w := by nlinarith [sq_nonneg (1 - ‖toE w‖)]
  unfold angleBetween
  rw [hu, Real.sqrt_one, one_mul, ← norm_toE, ← rad_le_rad, rad_deg]
  have h4 : cos (rad x) ≤ u.dot w / ‖toE w‖ := by rwa [le_div_iff₀ hw]
  calc arccos (u.dot w / ‖toE w‖) ≤ arccos (cos (rad x)) := antitone_arccos h4
    _ = rad x := by
      apply arccos_cos
      · rw [← rad_zero, rad_le_rad]; exact hx0
      · rw [← rad_180, rad_le_rad]; linarith

/-! ## Periodicity of directions -/

theorem sph_mod360 (a b : ℝ) : sph (mod360 a) b = sph a b := by
  have hs : sin (rad (mod360 a)) = sin (rad a) := by rw [rad_mod360, sin_sub_int_mul_two_pi]
  have hc : cos (rad (mod360 a)) = cos (rad a) := by rw [rad_mod360, cos_sub_int_mul_two_pi]
  simp only [sph, hs, hc]

theorem sph_add_turns (a b : ℝ) (k : ℤ) : sph (a + 360 * k) b = sph a b := by
  rw [← sph_mod360, mod360_add_int, sph_mod360]

theorem toMeridian_sph (t ra dec : ℝ) : toMeridian t (sph ra dec) = sph (t - ra) dec := by
  simp only [toMeridian, sph, rad_sub, cos_sub, sin_sub]
  ext <;> simp only <;> ring

theorem norm_sph (a b : ℝ) : ‖toE (sph a b)‖ = 1 := by rw [norm_toE, sph_unit, Real.sqrt_one]

/-! ## The observer -/

theorem observer_eq {tp lat elev : ℝ} (h1 : -90 < lat) (h2 : lat < 90) :
    observer lat elev = ⟨rhoOf tp lat elev, 0, zetaOf tp lat elev⟩ := by
  have hc := cos_rad_pos h1 h2
  obtain ⟨x, y, ⟨he, k, hk, hx, hy⟩, e1, e2⟩ := C25_ellipsoid tp lat elev h1 h2
  rw [prd_eval] at e1
  rw [pad_eval] at e2
  have e1 : rhoOf tp lat elev = x + elev / 6378140 * cos (rad lat) := num_injective (Except.ok.inj e1)
  have e2 : zetaOf tp lat elev = y + elev / 6378140 * sin (rad lat) := num_injective (Except.ok.inj e2)
  have hf : (0.99664719 : ℝ) ≠ 0 := by norm_num
  have hy' : y = k * 0.99664719 ^ 2 * sin (rad lat) := by
    rw [div_eq_iff (by positivity)] at hy
    linarith
  have hN : k ^ 2 * (cos (rad lat) ^ 2 + 0.99664719 ^ 2 * sin (rad lat) ^ 2) = 1 := by
    rw [← he, hx, hy']
    field_simp
  have hpos : 0 < cos (rad lat) ^ 2 + 0.99664719 ^ 2 * sin (rad lat) ^ 2 := by positivity
  have hsq : √(cos (rad lat) ^ 2 + 0.99664719 ^ 2 * sin (rad lat) ^ 2) = 1 / k := by
    rw [Real.sqrt_eq_iff_mul_self_eq hpos.le (by positivity)]
    field_simp
    linarith
  unfold observer
  simp only
  rw [hsq, e1, e2, hx, hy']
  ext <;> simp only
  · field_simp
  · field_simp

theorem norm_observer_le {lat elev : ℝ} (he : |elev| ≤ 50000) : ‖toE (observer lat elev)‖ ≤ 1.008 := by
  set N := √(cos (rad lat) ^ 2 + 0.99664719 ^ 2 * sin (rad lat) ^ 2) with hN
  have hs := sin_sq_add_cos_sq (rad lat)
  have hpos : 0 < cos (rad lat) ^ 2 + 0.99664719 ^ 2 * sin (rad lat) ^ 2 := by
    norm_num
    nlinarith [sq_nonneg (cos (rad lat)), sq_nonneg (sin (rad lat))]
  have hNpos : 0 < N := Real.sqrt_pos.mpr hpos
  have hNsq : N ^ 2 = cos (rad lat) ^ 2 + 0.99664719 ^ 2 * sin (rad lat) ^ 2 := Real.sq_sqrt hpos.le
  have e : toE (observer lat elev) = toE ⟨cos (rad lat) / N, 0, 0.99664719 ^ 2 * sin (rad lat) / N⟩
      + (elev / 6378140) • toE ⟨cos (rad lat), 0, sin (rad lat)⟩ := by
    ext i
    fin_cases i <;> simp [toE, observer, ← hN]
  have n1 : ‖toE ⟨cos (rad lat) / N, 0, 0.99664719 ^ 2 * sin (rad lat) / N⟩‖ ≤ 1 := by
    rw [norm_toE]
    apply Real.sqrt_le_one.mpr
    simp only [Vec3.dot]
    rw [show cos (rad lat) / N * (cos (rad lat) / N) + 0 * 0
      + 0.99664719 ^ 2 * sin (rad lat) / N * (0.99664719 ^ 2 * sin (rad lat) / N)
      = (cos (rad lat) ^ 2 + 0.99664719 ^ 4 * sin (rad lat) ^ 2) / N ^ 2 by field_simp; ring,
      div_le_one (by positivity), hNsq]
    norm_num
    nlinarith [sq_nonneg (sin (rad lat))]
  have n2 : ‖toE ⟨cos (rad lat), 0, sin (rad lat)⟩‖ = 1 := by
    rw [norm_toE]
    simp only [Vec3.dot]
    rw [show cos (rad lat) * cos (rad lat) + 0 * 0 + sin (rad lat) * sin (rad lat) = 1 by linarith,
      Real.sqrt_one]
  rw [e]
  refine (norm_add_le _ _).trans ?_
  rw [norm_smul, n2, Real.norm_eq_abs, abs_div, abs_of_pos (by norm_num : (0 : ℝ) < 6378140), mul_one]
  have : |elev| / 6378140 ≤ 0.008 := by
    rw [div_le_iff₀ (by norm_num)]
    norm_num
    linarith
  norm_num at *
  linarith

/-! ## From the code's formulas to the vector -/

/-- The code's hour angle, as a plain difference. -/
theorem sph_lhaOf (tp lon dec : ℝ) (c : Civil) :
    sph (lhaOf tp lon c) dec = sph (astOf c + lon - raOf tp c) dec := by
  unfold lhaOf
  rw [sph_mod360]

theorem equatorial_eq (tp : ℝ) {c : Civil} (h : c.Valid) :
    sph (raOf tp c) (decOf c) = rotX (oblOf c) (sph (lamOf c) (betaOf c)) := by
  have hb := abs_le.mp (betaOf_bound h)
  obtain ⟨ra, dec, e1, e2, e3, -⟩ := C20_ecliptic_to_equatorial tp (lamOf c) (oblOf c) (betaOf c)
    (by norm_num at *; linarith) (by norm_num at *; linarith)
  rw [gsra_eval] at e1
  rw [gsd_eval] at e2
  have e1 : raOf tp c = ra := num_injective (Except.ok.inj e1)
  have e2 : decOf c = dec := num_injective (Except.ok.inj e2)
  rw [e1, e2, e3]

/-- A vector with given hour angle and declination is a positive multiple of the direction. -/
theorem eq_smul_sph {v : Vec3} {H d : ℝ} (h1 : HasHourAngle v H) (h2 : HasDeclination v d) :
    ∃ n, 0 < n ∧ v = (sph H d).smul n := by
  obtain ⟨r, hr, hx, hy⟩ := h1
  obtain ⟨n, hn, hz, hxy⟩ := h2
  have : √(v.x ^ 2 + v.y ^ 2) = r := by
    rw [hx, hy, show (r * cos (rad H)) ^ 2 + (r * sin (rad H)) ^ 2
      = r ^ 2 * (sin (rad H) ^ 2 + cos (rad H) ^ 2) by ring, sin_sq_add_cos_sq, mul_one,
      Real.sqrt_sq hr.le]
  rw [this] at hxy
  refine ⟨n, hn, ?_⟩
  ext
  · simp only [Vec3.smul, sph]; rw [hx, hxy]; ring
  · simp only [Vec3.smul, sph]; rw [hy, hxy]; ring
  · exact hz

theorem parOf_bounds {c : Civil} (h : c.Valid) :
    0 ≤ parOf c ∧ parOf c ≤ 0.0026 ∧ parOf c = 8.794 / 3600 * sunDist (jmeOf c) := by
  have hb := sunDist_bounds (abs_jmeOf h)
  have hR := sunDist_ne h
  have e : parOf c = 8.794 / 3600 * sunDist (jmeOf c) := by
    unfold parOf
    field_simp
  refine ⟨?_, ?_, e⟩
  · rw [e]; norm_num at *; linarith
  · rw [e]; norm_num at *; linarith

/-- The parallax sine used by the code against the rigorous one. -/
theorem parallax_error {c : Civil} (h : c.Valid) :
    |sin (rad (parOf c)) - sin (rad (8.794 / 3600)) / sunDist (jmeOf c)| ≤ 2.7e-6 := by
  obtain ⟨h0, h1, e⟩ := parOf_bounds h
  have hb := sunDist_bounds (abs_jmeOf h)
  set R := sunDist (jmeOf c) with hR
  have hR0 : 0 < R := by norm_num at *; linarith
  have hpi := pi_lt_d4
  have hpi3 := pi_gt_d4
  set q : ℝ := rad (8.794 / 3600) with hq
  have hq0 : 0 < q := by rw [hq]; unfold rad; positivity
  have hq1 : q ≤ 4.2636e-5 := by rw [hq]; unfold rad; norm_num at *; linarith
  have e' : rad (parOf c) = q * R := by rw [e, hq]; unfold rad; ring
  rw [e']
  have hqR : q * R ≤ 4.4e-5 := by norm_num at *; nlinarith
  have s1 := sin_le (x := q * R) (by positivity)
  have s2 := sin_gt_sub_cube (x := q * R) (by positivity)
  have s3 := sin_le (x := q) hq0.le
  have s4 := sin_gt_sub_cube (x := q) hq0
  have c1 : (q * R) ^ 3 ≤ (4.4e-5) ^ 3 := pow_le_pow_left₀ (by positivity) hqR 3
  have c2 : q ^ 3 ≤ (4.2636e-5) ^ 3 := pow_le_pow_left₀ hq0.le hq1 3
  have u1 : q / R ≤ q * R + 2.65e-6 := by
    rw [div_le_iff₀ hR0]
    norm_num at *
    nlinarith [mul_nonneg hq0.le (sub_nonneg.mpr hb.1), mul_nonneg hq0.le (sub_nonneg.mpr hb.2)]
  have u2 : q * R - 2.65e-6 ≤ q / R := by
    rw [le_div_iff₀ hR0]
    norm_num at *
    nlinarith [mul_nonneg hq0.le (sub_nonneg.mpr hb.1), mul_nonneg hq0.le (sub_nonneg.mpr hb.2)]
  have u3 : sin q / R ≤ q / R := div_le_div_of_nonneg_right s3 hR0.le
  have u4 : q / R - 1e-9 ≤ sin q / R := by
    have : q - 9e-10 ≤ sin q := by norm_num at *; linarith
    have h2 : (q - 9e-10) / R ≤ sin q / R := div_le_div_of_nonneg_right this hR0.le
    have h3 : (9e-10 : ℝ) / R ≤ 1e-9 := by rw [div_le_iff₀ hR0]; norm_num at *; linarith
    rw [sub_div] at h2
    linarith
  rw [abs_le]
  norm_num at *
  constructor <;> linarith

/-- The sidereal time used by the code against the rigorous one. -/
theorem sidereal_close {c : Civil} (h : c.Valid) {κ : ℝ} {k : ℤ}
    (hk : |mod360 (280.46061837 + 360.98564736629 * (jdOf c - 2451545)
      + 0.000387933 * ((jdOf c - 2451545) / 36525) * ((jdOf c - 2451545) / 36525)
        * (1 - (jdOf c - 2451545) / 36525 / 38710000)) - greenwichMeanSidereal (jdOf c) + 360 * k| ≤ κ) :
    |astOf c - (greenwichMeanSidereal (jdOf c) + nutPsi (jceOf c) * cos (rad (oblOf c))) + 360 * k|
      ≤ κ + 0.01162 := by
  obtain ⟨l, o, e, hl, -⟩ := C23_bounds 0 (jceOf c) (abs_jceOf h)
  rw [nutation_eval] at e
  have e := congrArg Nutation.longitude (Except.ok.inj e)
  have e : nutPsi (jceOf c) = l := num_injective e
  unfold astOf
  rw [e]
  have h1 : |l * (cos (oblOf c) - cos (rad (oblOf c)))| ≤ 0.00581 * 2 := by
    rw [abs_mul]
    refine mul_le_mul hl ?_ (abs_nonneg _) (by norm_num)
    have a := abs_le.mp (abs_cos_le_one (oblOf c))
    have b := abs_le.mp (abs_cos_le_one (rad (oblOf c)))
    rw [abs_le]
    constructor <;> linarith
  rw [abs_le] at *
  norm_num at *
  constructor <;> linarith

/-- The sun's equatorial direction of the specification is the code's. -/
theorem spec_sun_eq (tp : ℝ) {c : Civil} (h : c.Valid) :
    rotX (meanObliquity (jmeOf c / 10) / 3600 + nutEps (jceOf c))
      (sph (deg (vsop (jmeOf c) heliocentric_longitude_coeffs / 10 ^ 8) + 180 + nutPsi (jceOf c)
        - 20.4898 / 3600 / sunDist (jmeOf c))
        (-deg (vsop (jmeOf c) heliocentric_latitude_coeffs / 10 ^ 8)))
      = sph (raOf tp c) (decOf c) := by
  rw [equatorial_eq tp h]
  have e1 : meanObliquity (jmeOf c / 10) / 3600 + nutEps (jceOf c) = oblOf c := by
    unfold oblOf meanObliquity meanObl; ring
  have e2 : -deg (vsop (jmeOf c) heliocentric_latitude_coeffs / 10 ^ 8) = betaOf c := by
    unfold betaOf helioLat; norm_num
  have hR := sunDist_ne h
  obtain ⟨k1, hk1⟩ := mod360_eq (helioLon (jmeOf c) + 180)
  obtain ⟨k2, hk2⟩ := mod360_eq (deg (vsop (jmeOf c) heliocentric_longitude_coeffs / 100000000))
  have e3 : deg (vsop (jmeOf c) heliocentric_longitude_coeffs / 10 ^ 8) + 180 + nutPsi (jceOf c)
        - 20.4898 / 3600 / sunDist (jmeOf c) = lamOf c + 360 * ((k1 + k2 : ℤ) : ℝ) := by
    unfold lamOf
    rw [hk1]
    unfold helioLon
    rw [hk2, show (10 : ℝ) ^ 8 = 100000000 by norm_num,
      show (-20.4898 : ℝ) / (3600 * sunDist (jmeOf c)) = -(20.4898 / 3600 / sunDist (jmeOf c)) by
        field_simp]
    push_cast
    ring
  rw [e1, e2, e3, sph_add_turns]

theorem rhoOf_bounds {tp lat elev : ℝ} (h1 : -90 < lat) (h2 : lat < 90) (he : |elev| ≤ 50000) :
    0 ≤ rhoOf tp lat elev ∧ rhoOf tp lat elev ≤ 1.01 ∧ |zetaOf tp lat elev| ≤ 1.01 := by
  have hc := cos_rad_pos h1 h2
  have hn := norm_observer_le (lat := lat) he
  have ho := observer_eq (tp := tp) (elev := elev) h1 h2
  have hsq : rhoOf tp lat elev ^ 2 + zetaOf tp lat elev ^ 2 ≤ 1.008 ^ 2 := by
    have h3 := pow_le_pow_left₀ (norm_nonneg _) hn 2
    rw [norm_toE_sq, ho] at h3
    simp only [Vec3.dot] at h3
    linarith
  refine ⟨?_, ?_, ?_⟩
  · have h3 : (observer lat elev).x = rhoOf tp lat elev := by rw [ho]
    rw [← h3]
    unfold observer
    simp only
    set N := √(cos (rad lat) ^ 2 + 0.99664719 ^ 2 * sin (rad lat) ^ 2) with hN
    have hs := sin_sq_add_cos_sq (rad lat)
    have hN1 : N ≤ 1 := by
      apply Real.sqrt_le_one.mpr
      norm_num
      nlinarith [sq_nonneg (sin (rad lat))]
    have hN0 : 0 < N := Real.sqrt_pos.mpr (by positivity)
    have h4 : cos (rad lat) ≤ cos (rad lat) / N := by
      rw [le_div_iff₀ hN0]
      nlinarith
    have h5 : -0.008 * cos (rad lat) ≤ elev / 6378140 * cos (rad lat) := by
      apply mul_le_mul_of_nonneg_right _ hc.le
      rw [abs_le] at he
      rw [le_div_iff₀ (by norm_num)]
      norm_num at *
      linarith
    norm_num at *
    linarith
  · norm_num at *
    nlinarith [sq_nonneg (zetaOf tp lat elev)]
  · rw [abs_le]
    norm_num at *
    constructor <;> nlinarith [sq_nonneg (rhoOf tp lat elev)]

/-- Distance between the code's direction (a unit vector) and the vector to the sun. -/
theorem direction_error_of (tp : ℝ) {c : Civil} (h : c.Valid) {lat lon elev κ : ℝ} (he : |elev| ≤ 50000)
    (hb : 0 ≤ rhoOf tp lat elev ∧ rhoOf tp lat elev ≤ 1.01 ∧ |zetaOf tp lat elev| ≤ 1.01)
    (ho : ‖toE ⟨rhoOf tp lat elev, 0, zetaOf tp lat elev⟩ - toE (observer lat elev)‖ ≤ 1e-4) {k : ℤ}
    (hk : |mod360 (280.46061837 + 360.98564736629 * (jdOf c - 2451545)
      + 0.000387933 * ((jdOf c - 2451545) / 36525) * ((jdOf c - 2451545) / 36525)
        * (1 - (jdOf c - 2451545) / 36525 / 38710000)) - greenwichMeanSidereal (jdOf c) + 360 * k| ≤ κ) :
    ‖toE (horizontal (teaOf tp lat lon elev c) (aziOf tp lat lon elev c))
        - toE (sunDirection lat lon elev (jdOf c) (jdeOf c))‖
      ≤ rad (0.003 + 0.01162 + κ) + 4.86e-5 ∧
    0.9999 ≤ ‖toE (sunDirection lat lon elev (jdOf c) (jdeOf c))‖ := by
  obtain ⟨hr0, hr1, hz1⟩ := hb
  obtain ⟨hp0, hp1, -⟩ := parOf_bounds h
  have hO := norm_observer_le (lat := lat) he
  set o : Vec3 := ⟨rhoOf tp lat elev, 0, zetaOf tp lat elev⟩ with ho'
  have hO' : ‖toE o‖ ≤ 1.0081 := by
    have h3 := norm_sub_norm_le (toE o) (toE (observer lat elev))
    norm_num at *
    linarith
  have hd := decOf_bound h
  have hpe := parallax_error h
  set s := sin (rad (parOf c)) with hs
  have hpi := pi_lt_d4
  have hs0 : 0 ≤ s := by
    apply sin_nonneg_of_nonneg_of_le_pi
    · rw [← rad_zero, rad_le_rad]; exact hp0
    · rw [← rad_180, rad_le_rad]; linarith
  have hs1 : s ≤ 4.54e-5 := by
    have : s ≤ rad (parOf c) := sin_le (by rw [← rad_zero, rad_le_rad]; exact hp0)
    unfold rad at this
    norm_num at *
    nlinarith
  -- the code's declination and hour angle
  have hpsra := psra_eval (tp := tp) (rhoOf tp lat elev) (parOf c) (lhaOf tp lon c) (decOf c)
  obtain ⟨d', dt, ed, hdt, herr⟩ := C27_error_partial tp (rhoOf tp lat elev) (zetaOf tp lat elev)
    (parOf c) (lhaOf tp lon c) (decOf c) hd hr0 hr1 hz1 hp0 hp1 _ hpsra
  rw [tsd_eval] at ed
  have ed : topoDec tp lat lon elev c = d' := num_injective (Except.ok.inj ed)
  set w0 := fromObserver (rhoOf tp lat elev) (zetaOf tp lat elev) (parOf c) (lhaOf tp lon c) (decOf c)
    with hw0
  have hcd : 0.9 ≤ cos (rad (decOf c)) := by
    have hrd : |rad (decOf c)| ≤ 0.4207 := by
      unfold rad
      rw [abs_div, abs_mul, abs_of_pos pi_pos, abs_of_pos (by norm_num : (0 : ℝ) < 180)]
      rw [div_le_iff₀ (by norm_num)]
      nlinarith [abs_nonneg (decOf c)]
    have h1 := one_sub_sq_div_two_le_cos (x := rad (decOf c))
    have h2 : rad (decOf c) ^ 2 ≤ 0.4207 ^ 2 := by
      rw [← sq_abs]
      exact pow_le_pow_left₀ (abs_nonneg _) hrd 2
    norm_num at h2 ⊢
    linarith
  have hne : ¬ (w0.x = 0 ∧ w0.y = 0) := by
    rintro ⟨hx, hy⟩
    simp only [hw0, fromObserver, sph] at hx hy
    have h3 : cos (rad (decOf c)) ^ 2 = (rhoOf tp lat elev * s) ^ 2 := by
      have := sin_sq_add_cos_sq (rad (lhaOf tp lon c))
      have hx' : cos (rad (decOf c)) * cos (rad (lhaOf tp lon c)) = rhoOf tp lat elev * s := by linarith
      rw [← hx']
      linear_combination (-cos (rad (decOf c)) ^ 2) * this
        + (cos (rad (decOf c)) * sin (rad (lhaOf tp lon c))) * hy
    have h4 : rhoOf tp lat elev * s ≤ 1.01 * 4.54e-5 := mul_le_mul hr1 hs1 hs0 (by norm_num)
    have h5 := mul_nonneg hr0 hs0
    norm_num at *
    nlinarith
  obtain ⟨p, ep, H', eH, hH⟩ := C26_parallax_right_ascension tp (rhoOf tp lat elev) (zetaOf tp lat elev)
    (parOf c) (lhaOf tp lon c) (decOf c) hne
  rw [psra_eval] at ep
  have ep : psraOf tp lat lon elev c = p := num_injective (Except.ok.inj ep)
  rw [tlha_eval] at eH
  have eH : topoH tp lat lon elev c = H' := by
    rw [← num_injective eH, ← ep]; rfl
  obtain ⟨n, hn, ew0⟩ := eq_smul_sph hH hdt
  have hw0' : w0 = (sph (lhaOf tp lon c) (decOf c)).sub (o.smul s) := by
    rw [hw0, ho']
    ext <;> simp [fromObserver, Vec3.sub, Vec3.smul, mul_comm, hs]
  rw [← hw0] at ew0
  -- the code's direction
  have hd90 : -90 < topoDec tp lat lon elev c ∧ topoDec tp lat lon elev c < 90 := by
    have hb : 0 < cos (rad (decOf c)) - zetaOf tp lat elev * s * cos (rad (lhaOf tp lon c)) := by
      have h3 : |zetaOf tp lat elev * s * cos (rad (lhaOf tp lon c))| ≤ 1.01 * 4.54e-5 * 1 := by
        rw [abs_mul, abs_mul, abs_of_nonneg hs0]
        exact mul_le_mul (mul_le_mul hz1 hs1 hs0 (by norm_num)) (abs_cos_le_one _) (abs_nonneg _)
          (by norm_num)
      rw [abs_le] at h3
      norm_num at *
      linarith
    unfold topoDec
    rw [← hs, arg_eq_arctan hb]
    constructor
    · rw [← rad_lt_rad, rad_deg, rad_neg, rad_90]; exact neg_pi_div_two_lt_arctan _
    · rw [← rad_lt_rad, rad_deg, rad_90]; exact arctan_lt_pi_div_two _
  have hu : horizontal (teaOf tp lat lon elev c) (aziOf tp lat lon elev c)
      = toHorizon lat (sph H' d') := by
    have := azimuth_direction tp lat (topoH tp lat lon elev c) (topoDec tp lat lon elev c) hd90.1 hd90.2
    rw [← ed, ← eH]
    exact this
  -- the vector to the sun
  set θ := greenwichMeanSidereal (jdOf c) + nutPsi (jceOf c) * cos (rad (oblOf c)) with hθ
  set q := sin (rad (8.794 / 3600)) / sunDist (jmeOf c) with hq
  have hw : sunDirection lat lon elev (jdOf c) (jdeOf c)
      = toHorizon lat ((sph (θ + lon - raOf tp c) (decOf c)).sub ((observer lat elev).smul q)) := by
    have e0 := spec_sun_eq tp h
    have e1 : meanObliquity (jmeOf c / 10) / 3600 + nutEps (jceOf c) = oblOf c := by
      unfold oblOf meanObliquity meanObl; ring
    have e2 : sunDist (jmeOf c) = vsop (jmeOf c) sun_earth_distance_coeffs / 10 ^ 8 := by
      unfold sunDist; norm_num
    unfold sunDirection
    rw [← longitude_table, ← latitude_table, ← radius_table, ← nutation_table, ← multiples_table]
    simp only
    rw [← jceOf, ← jmeOf, ← e2, ← nutPsi, ← nutEps, e0, e1, toMeridian_sph]
  have hsid := sidereal_close h hk
  rw [← hθ] at hsid
  -- distances
  have n1 : ‖toE (sph H' d') - toE (sph H' dt)‖ ≤ rad 0.003 := by
    refine (norm_sph_sub_lat _ _ _).trans ?_
    unfold rad
    rw [abs_div, abs_mul, abs_of_pos pi_pos, abs_of_pos (by norm_num : (0 : ℝ) < 180)]
    exact div_le_div_of_nonneg_right (mul_le_mul_of_nonneg_right herr pi_pos.le) (by norm_num)
  have nw0 : ‖toE w0‖ = n := by
    rw [ew0, toE_smul, norm_smul, norm_sph, mul_one, Real.norm_eq_abs, abs_of_pos hn]
  have n2 : |n - 1| ≤ 4.58e-5 := by
    rw [← nw0, ← norm_sph (lhaOf tp lon c) (decOf c)]
    refine (abs_norm_sub_norm_le _ _).trans ?_
    rw [hw0', toE_sub, toE_smul, sub_sub_cancel_left, norm_neg, norm_smul, Real.norm_eq_abs,
      abs_of_nonneg hs0]
    calc s * ‖toE o‖ ≤ 4.54e-5 * 1.0081 := mul_le_mul hs1 hO' (norm_nonneg _) (by norm_num)
      _ ≤ 4.58e-5 := by norm_num
  have n3 : ‖toE (sph H' dt) - toE w0‖ ≤ 4.58e-5 := by
    rw [ew0, toE_smul, ← one_smul ℝ (toE (sph H' dt)), smul_smul, mul_one, ← sub_smul, norm_smul, norm_sph,
      mul_one, Real.norm_eq_abs, abs_sub_comm]
    exact n2
  set m := (sph (θ + lon - raOf tp c) (decOf c)).sub ((observer lat elev).smul q) with hm
  have n4 : ‖toE w0 - toE m‖ ≤ rad (κ + 0.01162) + 2.8e-6 := by
    rw [hw0', hm, sph_lhaOf, ← sph_add_turns (astOf c + lon - raOf tp c) _ k, toE_sub, toE_sub, toE_smul,
      toE_smul]
    have e : toE (sph (astOf c + lon - raOf tp c + 360 * k) (decOf c)) - s • toE o
        - (toE (sph (θ + lon - raOf tp c) (decOf c)) - q • toE (observer lat elev))
        = (toE (sph (astOf c + lon - raOf tp c + 360 * k) (decOf c))
          - toE (sph (θ + lon - raOf tp c) (decOf c)))
          - ((s - q) • toE (observer lat elev) + s • (toE o - toE (observer lat elev))) := by
      rw [sub_smul, smul_sub]
      abel
    rw [e]
    refine (norm_sub_le _ _).trans (add_le_add ?_ ?_)
    · refine (norm_sph_sub_lon _ _ _).trans ?_
      rw [show astOf c + lon - raOf tp c + 360 * k - (θ + lon - raOf tp c) = astOf c - θ + 360 * k by ring]
      unfold rad
      rw [abs_div, abs_mul, abs_of_pos pi_pos, abs_of_pos (by norm_num : (0 : ℝ) < 180)]
      exact div_le_div_of_nonneg_right (mul_le_mul_of_nonneg_right hsid pi_pos.le) (by norm_num)
    · refine (norm_add_le _ _).trans ?_
      rw [norm_smul, norm_smul, Real.norm_eq_abs, Real.norm_eq_abs, abs_of_nonneg hs0]
      have h3 : |s - q| * ‖toE (observer lat elev)‖ ≤ 2.7e-6 * 1.008 :=
        mul_le_mul hpe hO (norm_nonneg _) (by norm_num)
      have h4 : s * ‖toE o - toE (observer lat elev)‖ ≤ 4.54e-5 * 1e-4 :=
        mul_le_mul hs1 ho (norm_nonneg _) (by norm_num)
      norm_num at *
      linarith
  constructor
  · rw [hu, hw, norm_toE_sub_toHorizon]
    have e : toE (sph H' d') - toE m
        = (toE (sph H' d') - toE (sph H' dt)) + (toE (sph H' dt) - toE w0) + (toE w0 - toE m) := by abel
    rw [e]
    refine (norm_add₃_le).trans ?_
    have : rad (0.003 + 0.01162 + κ) = rad 0.003 + rad (κ + 0.01162) := by
      rw [← rad_add]; congr 1; ring
    rw [this]
    norm_num at *
    linarith
  · rw [hw, norm_toE, toHorizon_dot, ← norm_toE, hm, toE_sub, toE_smul]
    have h3 := norm_sub_norm_le (toE (sph (θ + lon - raOf tp c) (decOf c))) (q • toE (observer lat elev))
    rw [norm_sph, norm_smul, Real.norm_eq_abs] at h3
    have hq1 : |q| ≤ 4.9e-5 := by
      rw [abs_le] at hpe ⊢
      norm_num at *
      constructor <;> linarith
    have h4 : |q| * ‖toE (observer lat elev)‖ ≤ 4.9e-5 * 1.008 :=
      mul_le_mul hq1 hO (norm_nonneg _) (by norm_num)
    norm_num at *
    linarith

/-- The same between the poles. -/
theorem direction_error (tp : ℝ) {c : Civil} (h : c.Valid) {lat lon elev κ : ℝ} (h1 : -90 < lat)
    (h2 : lat < 90) (he : |elev| ≤ 50000) {k : ℤ}
    (hk : |mod360 (280.46061837 + 360.98564736629 * (jdOf c - 2451545)
      + 0.000387933 * ((jdOf c - 2451545) / 36525) * ((jdOf c - 2451545) / 36525)
        * (1 - (jdOf c - 2451545) / 36525 / 38710000)) - greenwichMeanSidereal (jdOf c) + 360 * k| ≤ κ) :
    ‖toE (horizontal (teaOf tp lat lon elev c) (aziOf tp lat lon elev c))
        - toE (sunDirection lat lon elev (jdOf c) (jdeOf c))‖
      ≤ rad (0.003 + 0.01162 + κ) + 4.86e-5 ∧
    0.9999 ≤ ‖toE (sunDirection lat lon elev (jdOf c) (jdeOf c))‖ :=
  direction_error_of tp h he (rhoOf_bounds (tp := tp) h1 h2 he)
    (by rw [← observer_eq (tp := tp) h1 h2]; norm_num) hk

/-- At a pole the tangent of the latitude is large, with the sign of the latitude (as `math.tan` of the double nearest
to a right angle is, about 1.6e16); `tp` is the value of the tangent at its poles. -/
def PoleTan (tp lat : ℝ) : Prop := (lat = 90 → 10 ^ 6 ≤ tp) ∧ (lat = -90 → tp ≤ -10 ^ 6)

/-- At the poles. -/
theorem direction_error_pole (tp : ℝ) {c : Civil} (h : c.Valid) {lat lon elev κ : ℝ} (hl : lat = 90 ∨ lat = -90)
    (ht : PoleTan tp lat) (he : |elev| ≤ 50000) {k : ℤ}
    (hk : |mod360 (280.46061837 + 360.98564736629 * (jdOf c - 2451545)
      + 0.000387933 * ((jdOf c - 2451545) / 36525) * ((jdOf c - 2451545) / 36525)
        * (1 - (jdOf c - 2451545) / 36525 / 38710000)) - greenwichMeanSidereal (jdOf c) + 360 * k| ≤ κ) :
    ‖toE (horizontal (teaOf tp lat lon elev c) (aziOf tp lat lon elev c))
        - toE (sunDirection lat lon elev (jdOf c) (jdeOf c))‖
      ≤ rad (0.003 + 0.01162 + κ) + 4.86e-5 ∧
    0.9999 ≤ ‖toE (sunDirection lat lon elev (jdOf c) (jdeOf c))‖ := by
  obtain ⟨x, hx, hc, hs, ht'⟩ : ∃ x : ℝ, (x = 1 ∨ x = -1) ∧ cos (rad lat) = 0 ∧ sin (rad lat) = x ∧ 10 ^ 6 ≤ x * tp := by
    rcases hl with rfl | rfl
    · exact ⟨1, .inl rfl, by rw [rad_90, cos_pi_div_two], by rw [rad_90, sin_pi_div_two], by simpa using ht.1 rfl⟩
    · refine ⟨-1, .inr rfl, by rw [rad_neg, rad_90, cos_neg, cos_pi_div_two],
        by rw [rad_neg, rad_90, sin_neg, sin_pi_div_two], ?_⟩
      linarith [ht.2 rfl]
  have hx2 : x * x = 1 := by rcases hx with rfl | rfl <;> norm_num
  set u := 0.99664719 * tp with hu
  have hxu : 9 * 10 ^ 5 ≤ x * u := by rw [hu]; norm_num at *; linarith
  have huu : u * u = (x * u) * (x * u) := by linear_combination (-u * u) * hx2
  have hsq : x * u ≤ √(1 + u ^ 2) := le_sqrt_of_sq_le (by nlinarith)
  have hsq1 : √(1 + u ^ 2) ≤ x * u + 1 := by
    rw [sqrt_le_left (by linarith)]
    nlinarith
  have hq0 : 0 < √(1 + u ^ 2) := lt_of_lt_of_le (by norm_num) (hxu.trans hsq)
  have hcu : 0 ≤ cos (arctan u) ∧ cos (arctan u) ≤ 2e-6 := by
    rw [cos_arctan]
    refine ⟨by positivity, ?_⟩
    rw [div_le_iff₀ hq0]
    norm_num at *
    linarith
  have hsu : |sin (arctan u) - x| ≤ 2e-6 := by
    have e1 : sin (arctan u) - x = x * ((x * u - √(1 + u ^ 2)) / √(1 + u ^ 2)) := by
      rw [sin_arctan]
      field_simp
      linear_combination (-u) * hx2
    have hx1 : |x| = 1 := by rcases hx with rfl | rfl <;> norm_num
    rw [e1, abs_mul, hx1, one_mul, abs_div, abs_of_pos hq0, div_le_iff₀ hq0, abs_sub_comm, abs_of_nonneg (by linarith)]
    norm_num at *
    linarith
  have er : rhoOf tp lat elev = cos (arctan u) := by
    unfold rhoOf
    rw [tanP, if_pos hc, hc, hu]
    ring
  have ez : zetaOf tp lat elev = 0.99664719 * sin (arctan u) + elev / 6378140 * x := by
    unfold zetaOf
    rw [tanP, if_pos hc, hs, hu]
    ring
  have eo : observer lat elev = ⟨0, 0, 0.99664719 * x + elev / 6378140 * x⟩ := by
    unfold observer
    simp only
    rw [hc, hs, show (0 : ℝ) ^ 2 + 0.99664719 ^ 2 * x ^ 2 = 0.99664719 ^ 2 by
      rw [show x ^ 2 = x * x by ring, hx2]; ring, sqrt_sq (by norm_num)]
    ext <;> simp only <;> ring
  have hel : |elev / 6378140 * x| ≤ 0.008 := by
    have hx1 : |x| = 1 := by rcases hx with rfl | rfl <;> norm_num
    rw [abs_mul, hx1, mul_one, abs_div, abs_of_pos (by norm_num : (0 : ℝ) < 6378140), div_le_iff₀ (by norm_num)]
    norm_num at *
    linarith
  refine direction_error_of tp h he ⟨?_, ?_, ?_⟩ ?_ hk
  · rw [er]; exact hcu.1
  · rw [er]; norm_num at *; linarith [hcu.2]
  · rw [ez, abs_le]
    have h3 := neg_one_le_sin (arctan u)
    have h4 := sin_le_one (arctan u)
    rw [abs_le] at hel
    norm_num at *
    constructor <;> linarith
  · rw [er, ez, eo, ← toE_sub]
    have e2 : (Vec3.sub ⟨cos (arctan u), 0, 0.99664719 * sin (arctan u) + elev / 6378140 * x⟩
        ⟨0, 0, 0.99664719 * x + elev / 6378140 * x⟩) = ⟨cos (arctan u), 0, 0.99664719 * (sin (arctan u) - x)⟩ := by
      ext <;> simp only [Vec3.sub] <;> ring
    rw [e2]
    refine le_of_sq_le_sq ?_ (by norm_num)
    rw [norm_toE_sq]
    simp only [Vec3.dot]
    rw [abs_le] at hsu
    norm_num at *
    nlinarith

/-! ## C71 -/

theorem dtVal_bounds (Y M : ℤ) : 0 ≤ dtVal Y M ∧ dtVal Y M ≤ 70 := by
  have hall : ∀ x ∈ delta_t.flatten, 0 ≤ x ∧ x ≤ 70 := by decide +kernel
  unfold dtVal
  rw [List.getD_eq_getElem?_getD]
  rcases h : delta_t.flatten[dtClamp Y M]? with _ | x
  · simp
  · exact hall x (List.mem_of_getElem? h)

theorem jdOf_bounds {c : Civil} (h : c.Valid) : 1721424.5 ≤ jdOf c ∧ jdOf c ≤ 5373485.5 := by
  have hm := micros_bounds h
  have hl := taiMinusUtc_bounds c.year c.month
  have hdt := dtVal_bounds c.year c.month
  have h1 : (86400000000 : ℝ) ≤ c.micros := by exact_mod_cast hm.1
  have h2 : (c.micros : ℝ) < 3652060 * 86400000000 := by exact_mod_cast hm.2
  have h3 : (10 : ℝ) ≤ taiMinusUtc c.year c.month := by exact_mod_cast hl.1
  have h4 : (taiMinusUtc c.year c.month : ℝ) ≤ 37 := by exact_mod_cast hl.2
  have h5 : (0 : ℝ) ≤ (dtVal c.year c.month : ℝ) := by exact_mod_cast hdt.1
  have h6 : (dtVal c.year c.month : ℝ) ≤ 70 := by exact_mod_cast hdt.2
  unfold jdOf epochMicros usPerDay
  push_cast
  constructor <;> norm_num <;> linarith

theorem angle_of_error {u w : Vec3} (hu : u.dot u = 1) {κ x : ℝ} (hκ : 0 ≤ κ) (hx : x ≤ 1)
    (he : ‖toE u - toE w‖ ≤ rad (0.003 + 0.01162 + κ) + 4.86e-5) (hw : 0.9999 ≤ ‖toE w‖)
    (hxe : 0.01742 + 1.0001 * κ ≤ x) : angleBetween u w ≤ x := by
  have hw0 : 0 < ‖toE w‖ := lt_of_lt_of_le (by norm_num) hw
  have hx0 : 0 ≤ x := le_trans (by positivity) hxe
  refine angle_le hu hx0 (by linarith) he hw0 ?_
  have hpi := pi_gt_d4
  have hpi' := pi_lt_d4
  set E := rad (0.003 + 0.01162 + κ) + 4.86e-5 with hE
  set X := rad x with hX
  have hE0 : 0 ≤ E := le_trans (norm_nonneg _) he
  have h1 : 1.0001 * E ≤ X := by
    have : (0.01742 + 1.0001 * κ) * π ≤ x * π := mul_le_mul_of_nonneg_right hxe pi_pos.le
    rw [hX, hE]
    unfold rad
    rw [le_div_iff₀ (by norm_num)]
    norm_num at *
    nlinarith
  have hX0 : 0 ≤ X := le_trans (by positivity) h1
  have hX1 : X ≤ 0.0175 := by
    rw [hX]
    unfold rad
    rw [div_le_iff₀ (by norm_num)]
    norm_num at *
    nlinarith
  have hcb := Real.cos_bound (x := X) (by rw [abs_of_nonneg hX0]; norm_num at *; linarith)
  rw [abs_of_nonneg hX0] at hcb
  have hcb := (abs_le.mp hcb).2
  have hX2 : X ^ 2 ≤ 0.0175 ^ 2 := pow_le_pow_left₀ hX0 hX1 2
  have h2 : (1.0001 * E) ^ 2 ≤ X ^ 2 := pow_le_pow_left₀ (by positivity) h1 2
  have h3 : X ^ 2 * 0.49998 ≤ 1 - cos X := by
    have : X ^ 4 ≤ X ^ 2 * 0.0175 ^ 2 := by
      rw [show X ^ 4 = X ^ 2 * X ^ 2 by ring]
      exact mul_le_mul_of_nonneg_left hX2 (sq_nonneg _)
    norm_num at *
    nlinarith
  have h4 : X ^ 2 * 0.49998 * 0.9999 ≤ (1 - cos X) * ‖toE w‖ :=
    mul_le_mul h3 hw (by norm_num) (by linarith [cos_le_one X])
  refine le_trans ?_ h4
  norm_num at *
  nlinarith [sq_nonneg E]

/-- C71: for every aware datetime of the years 1 to 9999, every place between the poles and every
elevation up to 50 km, the azimuth and the elevation angle point within 0.032 degrees of the direction of
the sun from the observer. -/
theorem C71_direction (tp : ℝ) (d : DateTime) (c : Civil) (h : UtcFields d c) (lat lon elev : ℝ)
    (h1 : -90 < lat) (h2 : lat < 90) (he : |elev| ≤ 50000) :
    ∃ jd jde dec H a e,
      get_julian_solar_day (mathB tp) (.dt d) = .ok (num jd) ∧
      get_julian_ephemeris_day (mathB tp) (.dt d) = .ok (num jde) ∧
      get_topocentric_position (mathB tp) (num lat) (num lon) (.dt d) (num elev) = .ok (num dec, num H) ∧
      get_azimuth (mathB tp) (num lat) (num lon) (.dt d) (num elev) = .ok (num a) ∧
      get_topocentric_elevation_angle (mathB tp) (num lat) (num dec) (num H) = .ok (num e) ∧
      angleBetween (horizontal e a) (sunDirection lat lon elev jd jde) ≤ 0.032 := by
  refine ⟨jdOf c, jdeOf c, _, _, _, _, jd_eq h, jde_eq h, topo_eval h lat lon elev,
    azimuth_eval h lat lon elev, tea_eval _ _ _, ?_⟩
  have hj := jdOf_bounds h.1
  obtain ⟨t, ht, k, hk⟩ := C33_all_dates tp (jdOf c) hj.1 hj.2
  rw [mst_eval] at ht
  rw [← num_injective ht] at hk
  obtain ⟨e1, e2⟩ := direction_error tp h.1 (lon := lon) h1 h2 he (k := k) hk.le
  exact angle_of_error (horizontal_unit _ _) (by norm_num) (by norm_num) e1 e2 (by norm_num)

/-- C71 with the poles included. -/
theorem C71_direction_poles (tp : ℝ) (d : DateTime) (c : Civil) (h : UtcFields d c) (lat lon elev : ℝ)
    (h1 : |lat| ≤ 90) (ht : PoleTan tp lat) (he : |elev| ≤ 50000) :
    ∃ jd jde dec H a e,
      get_julian_solar_day (mathB tp) (.dt d) = .ok (num jd) ∧
      get_julian_ephemeris_day (mathB tp) (.dt d) = .ok (num jde) ∧
      get_topocentric_position (mathB tp) (num lat) (num lon) (.dt d) (num elev) = .ok (num dec, num H) ∧
      get_azimuth (mathB tp) (num lat) (num lon) (.dt d) (num elev) = .ok (num a) ∧
      get_topocentric_elevation_angle (mathB tp) (num lat) (num dec) (num H) = .ok (num e) ∧
      angleBetween (horizontal e a) (sunDirection lat lon elev jd jde) ≤ 0.032 := by
  by_cases hp : lat = 90 ∨ lat = -90
  · refine ⟨jdOf c, jdeOf c, _, _, _, _, jd_eq h, jde_eq h, topo_eval h lat lon elev,
      azimuth_eval h lat lon elev, tea_eval _ _ _, ?_⟩
    have hj := jdOf_bounds h.1
    obtain ⟨t, ht', k, hk⟩ := C33_all_dates tp (jdOf c) hj.1 hj.2
    rw [mst_eval] at ht'
    rw [← num_injective ht'] at hk
    obtain ⟨e1, e2⟩ := direction_error_pole tp h.1 (lon := lon) hp ht he (k := k) hk.le
    exact angle_of_error (horizontal_unit _ _) (by norm_num) (by norm_num) e1 e2 (by norm_num)
  · push Not at hp
    have h3 := abs_le.1 h1
    exact C71_direction tp d c h lat lon elev (lt_of_le_of_ne h3.1 (Ne.symm hp.2)) (lt_of_le_of_ne h3.2 hp.1) he

/-- At the north pole, the tangent being 10^16 there. -/
example : |(90 : ℝ)| ≤ 90 ∧ PoleTan (10 ^ 16) 90 := by
  refine ⟨by norm_num, fun _ => by norm_num, fun h => by norm_num at h⟩

/-- C71: within 0.018 degrees for Julian days within a century of J2000. -/
theorem C71_direction_near_J2000 (tp : ℝ) (d : DateTime) (c : Civil) (h : UtcFields d c)
    (lat lon elev : ℝ) (h1 : -90 < lat) (h2 : lat < 90) (he : |elev| ≤ 50000) (jd : ℝ)
    (hjd : get_julian_solar_day (mathB tp) (.dt d) = .ok (num jd))
    (hj1 : 2451545 - 36525 ≤ jd) (hj2 : jd ≤ 2451545 + 36525) :
    ∃ jde dec H a e,
      get_julian_ephemeris_day (mathB tp) (.dt d) = .ok (num jde) ∧
      get_topocentric_position (mathB tp) (num lat) (num lon) (.dt d) (num elev) = .ok (num dec, num H) ∧
      get_azimuth (mathB tp) (num lat) (num lon) (.dt d) (num elev) = .ok (num a) ∧
      get_topocentric_elevation_angle (mathB tp) (num lat) (num dec) (num H) = .ok (num e) ∧
      angleBetween (horizontal e a) (sunDirection lat lon elev jd jde) ≤ 0.018 := by
  have e0 := num_injective (Except.ok.inj ((jd_eq h).symm.trans hjd))
  rw [← jdOf] at e0
  subst e0
  refine ⟨jdeOf c, _, _, _, _, jde_eq h, topo_eval h lat lon elev,
    azimuth_eval h lat lon elev, tea_eval _ _ _, ?_⟩
  obtain ⟨t, ht, k, hk⟩ := C33_near_J2000 tp (jdOf c) hj1 hj2
  rw [mst_eval] at ht
  rw [← num_injective ht] at hk
  obtain ⟨e1, e2⟩ := direction_error tp h.1 (lon := lon) h1 h2 he (k := k) hk.le
  exact angle_of_error (horizontal_unit _ _) (by norm_num) (by norm_num) e1 e2 (by norm_num)

/-- The hypotheses hold for the sample datetime at a place in Massachusetts. -/
example : UtcFields sampleDT sampleUTC ∧ (-90 : ℝ) < 42.2 ∧ (42.2 : ℝ) < 90 ∧ |(62 : ℝ)| ≤ 50000 :=
  ⟨sample_utc, by norm_num, by norm_num, by norm_num⟩

end Verif.Props
