import Verif.Spec.Almanac
import Verif.Proofs.FastHour
import Verif.Proofs.SkyMotion

/-!
# The computed position of the sun against the formulas of the Astronomical Almanac
-/

namespace Verif

open Verif.Spec Verif.Props Pysolar Pysolar.Solar Pysolar.Constants Pysolar.Solartime Real

/-! ## Time -/

theorem alm_time {c : Civil} (h : c.Valid) (h1 : 1950 ≤ c.year) (h2 : c.year ≤ 2050) :
    ∃ (η η' : ℝ) (k : ℤ), |η| ≤ 3 / 86400 ∧ 0 ≤ η' ∧ η' ≤ 70 / 86400 ∧
      jdOf c - 2451545 = daysJ2000 c + η ∧ 365250 * jmeOf c = daysJ2000 c + η' ∧
      360 * daysJ2000 c = 15 * hoursUT c - 180 + 360 * k ∧ |daysJ2000 c| ≤ 18630 := by
  obtain ⟨N, r, f, η, η', hr0, hr3, hN, hf, hf0, hf1, hη, hη0, hη1, hj, hj'⟩ := days_of_year h (by omega) (by omega)
  have ed : daysJ2000 c = N + yday c.date + f - 1.5 := by
    have ho' : ymd2ord c.year c.month c.day = daysBeforeYear c.year + yday c.date := ymd2ord_eq c.date
    have h3 : ymd2ord 2000 1 1 = 730120 := by decide +kernel
    have hN2 : N = daysBeforeYear c.year - 730119 := by
      have : daysBeforeYear c.year = (c.year - 1) * 365 + (c.year - 1) / 4 - (c.year - 1) / 100 + (c.year - 1) / 400 := rfl
      omega
    have hf2 : f = ((c.hour : ℝ) * 3600 + c.minute * 60 + c.second + (c.micro : ℝ) / 1000000) / 86400 := by linarith
    rw [hN2, hf2]
    unfold daysJ2000 Civil.micros
    rw [ho', h3]
    push_cast
    ring
  have hy := yday_bounds h.2.2.1
  have hl : yearLen c.date.year ≤ 366 := by unfold yearLen; split <;> norm_num
  have n1 : (1 : ℝ) ≤ yday c.date := by exact_mod_cast hy.1
  have n2 : (yday c.date : ℝ) ≤ 366 := by exact_mod_cast hy.2.trans hl
  have N1 : -18263 ≤ N := by omega
  have N2 : N ≤ 18263 := by omega
  have N1' : (-18263 : ℝ) ≤ N := by exact_mod_cast N1
  have N2' : (N : ℝ) ≤ 18263 := by exact_mod_cast N2
  refine ⟨η, η', N + yday c.date - 1, hη, hη0, hη1, by rw [hj, ed], ?_, ?_, ?_⟩
  · rw [ed, ← hj']; unfold jmeOf jceOf; ring
  · rw [ed]; unfold hoursUT; push_cast; linarith
  · rw [ed, abs_le]; norm_num at *; constructor <;> linarith

/-! ## Longitude -/

/-- The longitude table without its constant, linear and two largest periodic terms. -/
def lonTail2 : List (List (ℚ × ℚ × ℚ)) :=
  (heliocentric_longitude_coeffs.head!).tail.tail.tail :: (heliocentric_longitude_coeffs.tail.head!).tail ::
    heliocentric_longitude_coeffs.tail.tail

theorem lon_head3 : heliocentric_longitude_coeffs
    = ((175347046, 0, 0) :: (3341656, 4.6692568, 6283.07585) :: (34894, 4.6261, 12566.1517) ::
        (heliocentric_longitude_coeffs.head!).tail.tail.tail) ::
      ((628331966747, 0, 0) :: (heliocentric_longitude_coeffs.tail.head!).tail) ::
        heliocentric_longitude_coeffs.tail.tail := by
  decide +kernel

theorem lonTail2_ampl : ampl 0.0511 lonTail2 ≤ 39837 := by decide +kernel

/-- Argument of the second harmonic, in degrees. -/
noncomputable def ano2D (t : ℝ) : ℝ := deg (4.6261 + 12566.1517 * t)

theorem lon_main2 (t : ℝ) : vsop t heliocentric_longitude_coeffs
    = 175347046 + 628331966747 * t + 3341656 * cos (4.6692568 + 6283.07585 * t)
      + 34894 * cos (4.6261 + 12566.1517 * t) + vsop t lonTail2 := by
  conv_lhs => rw [lon_head3]
  unfold lonTail2
  rw [vsop_cons, vsop_cons, rowSum_cons, rowSum_cons, rowSum_cons, rowSum_cons, vsop_cons, vsop_cons]
  simp
  norm_num
  ring

theorem lon_deg2 {t : ℝ} (h : |t| ≤ 0.0511) :
    |deg (vsop t heliocentric_longitude_coeffs / 100000000) + 180
      - (muD t + ampD * cos (rad (anoD t)) + deg 0.00034894 * cos (rad (ano2D t)))| ≤ 0.02283 := by
  have h1 : |vsop t lonTail2| ≤ 39837 := by
    refine (abs_vsop_le _ _).trans ((vsopBound_le (c := 0.0511) (by norm_num at *; exact h) _).trans ?_)
    exact_mod_cast lonTail2_ampl
  have e : deg (vsop t heliocentric_longitude_coeffs / 100000000) + 180
      - (muD t + ampD * cos (rad (anoD t)) + deg 0.00034894 * cos (rad (ano2D t)))
      = deg (vsop t lonTail2 / 100000000) := by
    unfold muD ampD anoD ano2D
    rw [rad_deg, rad_deg, lon_main2]
    unfold deg
    ring
  rw [e]
  unfold deg
  rw [abs_div, abs_mul, abs_div, abs_of_pos pi_pos, abs_of_pos (by norm_num : (0 : ℝ) < 180),
    abs_of_pos (by norm_num : (0 : ℝ) < 100000000), div_le_iff₀ pi_pos]
  have := pi_gt_d4
  norm_num at *
  linarith

theorem ano2D_close {t : ℝ} (h : |t| ≤ 0.0511) : |ano2D t - (265.056 + 719987.46 * t)| ≤ 0.002 := by
  have h1 := pi_gt_d20
  have h2 := pi_lt_d20
  have hp := pi_pos
  have e : ano2D t - (265.056 + 719987.46 * t)
      = ((4.6261 * 180 - 265.056 * π) + (12566.1517 * 180 - 719987.46 * π) * t) / π := by
    unfold ano2D deg
    field_simp
    ring
  have b1 : |12566.1517 * 180 - 719987.46 * π| ≤ 0.05 := by
    rw [abs_le]; norm_num at *; constructor <;> linarith
  have b2 : |4.6261 * 180 - 265.056 * π| ≤ 0.003 := by
    rw [abs_le]; norm_num at *; constructor <;> linarith
  rw [e, abs_div, abs_of_pos hp, div_le_iff₀ hp]
  refine (abs_add_le _ _).trans ?_
  rw [abs_mul]
  have : |12566.1517 * 180 - 719987.46 * π| * |t| ≤ 0.05 * 0.0511 :=
    mul_le_mul b1 h (abs_nonneg _) (by norm_num)
  norm_num at *
  linarith

/-- Two sine waves of nearly equal amplitude and phase (degrees). -/
theorem wave_close {A B a b δ : ℝ} (hB : 0 ≤ B) (h : |a - b| ≤ δ) :
    |A * cos (rad a) - B * cos (rad b)| ≤ |A - B| + B * (δ * 0.017454) := by
  have hp := pi_lt_d6
  have hp0 := pi_pos
  have e : A * cos (rad a) - B * cos (rad b) = (A - B) * cos (rad a) + B * (cos (rad a) - cos (rad b)) := by ring
  rw [e]
  refine (abs_add_le _ _).trans (add_le_add ?_ ?_)
  · rw [abs_mul]
    exact mul_le_of_le_one_right (abs_nonneg _) (abs_cos_le_one _)
  · rw [abs_mul, abs_of_nonneg hB]
    refine mul_le_mul_of_nonneg_left ((lip_cos _ _).trans ?_) hB
    rw [← rad_sub, abs_rad]
    unfold rad
    have h0 : 0 ≤ |a - b| := abs_nonneg _
    have h1 : |a - b| * π ≤ δ * 3.141593 := mul_le_mul h hp.le hp0.le (h0.trans h)
    have h2 : 0 ≤ δ := h0.trans h
    norm_num at *
    linarith

theorem amp2D_close : |deg 0.00034894 - 0.02| ≤ 0.00001 := by
  have h1 := pi_gt_d6
  have h2 := pi_lt_d6
  have e : deg 0.00034894 - 0.02 = (0.00034894 * 180 - 0.02 * π) / π := by
    unfold deg; field_simp
  rw [e, abs_div, abs_of_pos pi_pos, div_le_iff₀ pi_pos, abs_le]
  norm_num at *
  constructor <;> linarith

theorem cos_sub_quarter (x : ℝ) : sin (rad x) = cos (rad (x - 90)) := by
  rw [rad_sub, rad_90, cos_sub_pi_div_two]

/-- Apparent longitude of the sun. -/
theorem alm_lam {c : Civil} (h : c.Valid) (h1 : 1950 ≤ c.year) (h2 : c.year ≤ 2050) :
    ∃ k : ℤ, |lamOf c - almLongitude (daysJ2000 c) - 360 * k| ≤ 0.038 := by
  obtain ⟨η, η', -, -, hη0, hη1, -, hj, -, hn⟩ := alm_time h h1 h2
  set n := daysJ2000 c
  have ht : |jmeOf c| ≤ 0.0511 := by
    have hn' := abs_le.mp hn
    rw [abs_le]
    norm_num at *
    constructor <;> linarith
  have ht' : |jmeOf c| ≤ 0.101 := ht.trans (by norm_num)
  have a1 := abs_le.mp (lon_deg2 ht)
  have a2 := abs_le.mp (nutPsi_abs h)
  have hR := sunDist_bounds (abs_jmeOf h)
  obtain ⟨k1, e1⟩ := mod360_eq (deg (vsop (jmeOf c) heliocentric_longitude_coeffs / 100000000))
  obtain ⟨k2, e2⟩ := mod360_eq (helioLon (jmeOf c) + 180)
  have a3 : -0.00587 ≤ -20.4898 / (3600 * sunDist (jmeOf c)) ∧ -20.4898 / (3600 * sunDist (jmeOf c)) ≤ -0.0055 := by
    have hp : 0 < 3600 * sunDist (jmeOf c) := by norm_num at *; linarith
    constructor
    · rw [le_div_iff₀ hp]; norm_num at *; linarith
    · rw [div_le_iff₀ hp]; norm_num at *; linarith
  have m := abs_le.mp (muD_close ht')
  have m' := abs_le.mp (anoD_close ht')
  have m2 := abs_le.mp (ano2D_close ht)
  have hn' := abs_le.mp hn
  have p1 : |anoD (jmeOf c) - (almAnomaly n - 90)| ≤ 0.167 := by
    unfold almAnomaly
    rw [abs_le]
    generalize jmeOf c = t at *
    norm_num at *
    constructor <;> linarith
  have p2 : |ano2D (jmeOf c) - (2 * almAnomaly n - 90 - 360)| ≤ 0.34 := by
    unfold almAnomaly
    rw [abs_le]
    generalize jmeOf c = t at *
    norm_num at *
    constructor <;> linarith
  have w1 := wave_close (A := ampD) (B := 1.915) (by norm_num) p1
  have w2 := wave_close (A := deg 0.00034894) (B := 0.02) (by norm_num) p2
  have q1 : |ampD - 1.915| ≤ 0.0004 := by
    have := ampD_bounds
    rw [abs_le]; norm_num at *; constructor <;> linarith
  have q2 := amp2D_close
  rw [show 2 * almAnomaly n - 90 - 360 = 2 * almAnomaly n - 90 + 360 * ((-1 : ℤ) : ℝ) by push_cast; ring,
    cos_rad_add_turns, ← cos_sub_quarter] at w2
  rw [← cos_sub_quarter] at w1
  have w1' := abs_le.mp (w1.trans (add_le_add_left q1 _))
  have w2' := abs_le.mp (w2.trans (add_le_add_left q2 _))
  refine ⟨-k1 - k2, ?_⟩
  unfold lamOf almLongitude
  rw [e2]
  unfold helioLon
  rw [e1]
  push_cast
  clear w1 w2 q1 q2 p1 p2 e1 e2
  generalize ampD * cos (rad (anoD (jmeOf c))) = x1 at *
  generalize deg 0.00034894 * cos (rad (ano2D (jmeOf c))) = x2 at *
  generalize sin (rad (almAnomaly n)) = x3 at *
  generalize sin (rad (2 * almAnomaly n)) = x4 at *
  generalize -20.4898 / (3600 * sunDist (jmeOf c)) = x5 at *
  generalize nutPsi (jceOf c) = x6 at *
  generalize deg (vsop (jmeOf c) heliocentric_longitude_coeffs / 100000000) = x7 at *
  generalize muD (jmeOf c) = x8 at *
  generalize jmeOf c = t at *
  rw [abs_le]
  norm_num at *
  constructor <;> linarith

/-! ## Obliquity -/

theorem alm_obl {c : Civil} (h : c.Valid) (h1 : 1950 ≤ c.year) (h2 : c.year ≤ 2050) :
    |oblOf c - almObliquity (daysJ2000 c)| ≤ 0.004 := by
  obtain ⟨η, η', -, -, hη0, hη1, -, hj, -, hn⟩ := alm_time h h1 h2
  set n := daysJ2000 c
  have hn' := abs_le.mp hn
  have a2 := abs_le.mp (nutEps_abs h)
  set u := jmeOf c / 10 with hu
  have hu1 : |u| ≤ 0.00511 := by
    rw [hu, abs_le]; norm_num at *; constructor <;> linarith
  have hj' : 3652500 * u = n + η' := by rw [hu]; linarith
  have b : |meanObl u - (84381.448 - 4680.93 * u)| ≤ 0.1 := by
    have hp : ∀ k : ℕ, |u ^ (k + 2)| ≤ 0.00511 ^ 2 := fun k => by
      rw [abs_pow]
      calc |u| ^ (k + 2) ≤ 0.00511 ^ (k + 2) := by gcongr
        _ ≤ 0.00511 ^ 2 := pow_le_pow_of_le_one (by norm_num) (by norm_num) (by omega)
    have e1 := abs_le.mp hu1
    have e2 := abs_le.mp (hp 0)
    have e3 := abs_le.mp (hp 1)
    have e4 := abs_le.mp (hp 2)
    have e5 := abs_le.mp (hp 3)
    have e6 := abs_le.mp (hp 4)
    have e7 := abs_le.mp (hp 5)
    have e8 := abs_le.mp (hp 6)
    have e9 := abs_le.mp (hp 7)
    have e10 := abs_le.mp (hp 8)
    unfold meanObl
    rw [abs_le]
    norm_num at e1 e2 e3 e4 e5 e6 e7 e8 e9 e10 ⊢
    constructor <;> linarith
  have b' := abs_le.mp b
  unfold oblOf almObliquity
  rw [← hu, abs_le]
  norm_num at *
  constructor <;> linarith

/-! ## Distance -/

/-- The distance table without its constant and two largest periodic terms. -/
def distTail : List (List (ℚ × ℚ × ℚ)) :=
  (sun_earth_distance_coeffs.head!).tail.tail.tail :: sun_earth_distance_coeffs.tail

theorem dist_head3 : sun_earth_distance_coeffs
    = ((100013989, 0, 0) :: (1670700, 3.0984635, 6283.07585) :: (13956, 3.05525, 12566.1517) ::
        (sun_earth_distance_coeffs.head!).tail.tail.tail) :: sun_earth_distance_coeffs.tail := by
  decide +kernel

theorem distTail_ampl : ampl 0.0511 distTail ≤ 16638 := by decide +kernel

theorem dist_main (t : ℝ) : sunDist t
    = 1.00013989 + 0.016707 * cos (3.0984635 + 6283.07585 * t)
      + 0.00013956 * cos (3.05525 + 12566.1517 * t) + vsop t distTail / 100000000 := by
  unfold sunDist
  conv_lhs => rw [dist_head3]
  unfold distTail
  rw [vsop_cons, rowSum_cons, rowSum_cons, rowSum_cons, vsop_cons]
  simp
  norm_num
  ring

theorem alm_dist {c : Civil} (h : c.Valid) (h1 : 1950 ≤ c.year) (h2 : c.year ≤ 2050) :
    |sunDist (jmeOf c) - almDistance (daysJ2000 c)| ≤ 0.00023 := by
  obtain ⟨η, η', -, -, hη0, hη1, -, hj, -, hn⟩ := alm_time h h1 h2
  set n := daysJ2000 c
  have hn' := abs_le.mp hn
  have ht : |jmeOf c| ≤ 0.0511 := by
    rw [abs_le]
    norm_num at *
    constructor <;> linarith
  have ht' : |jmeOf c| ≤ 0.101 := ht.trans (by norm_num)
  have m := abs_le.mp (muD_close ht')
  have m' := abs_le.mp (anoD_close ht')
  have m2 := abs_le.mp (ano2D_close ht)
  have hp1 := pi_gt_d6
  have hp2 := pi_lt_d6
  have hp0 := pi_pos
  rw [dist_main]
  have h3 : |vsop (jmeOf c) distTail| ≤ 16638 := by
    refine (abs_vsop_le _ _).trans ((vsopBound_le (c := 0.0511) (by norm_num at *; exact ht) _).trans ?_)
    exact_mod_cast distTail_ampl
  generalize jmeOf c = t at *
  have f1 : (3.0984635 + 6283.07585 * t : ℝ) = rad (anoD t - deg 1.5707933) := by
    unfold anoD; rw [rad_sub, rad_deg, rad_deg]; ring
  have f2 : (3.05525 + 12566.1517 * t : ℝ) = rad (ano2D t - deg 1.57085) := by
    unfold ano2D; rw [rad_sub, rad_deg, rad_deg]; ring
  have d1 : |deg 1.5707933 - 90| ≤ 0.001 := by
    have e : deg 1.5707933 - 90 = (1.5707933 * 180 - 90 * π) / π := by unfold deg; field_simp
    rw [e, abs_div, abs_of_pos hp0, div_le_iff₀ hp0, abs_le]
    norm_num at *; constructor <;> linarith
  have d2 : |deg 1.57085 - 90| ≤ 0.004 := by
    have e : deg 1.57085 - 90 = (1.57085 * 180 - 90 * π) / π := by unfold deg; field_simp
    rw [e, abs_div, abs_of_pos hp0, div_le_iff₀ hp0, abs_le]
    norm_num at *; constructor <;> linarith
  have d1' := abs_le.mp d1
  have d2' := abs_le.mp d2
  have p1 : |anoD t - deg 1.5707933 - (almAnomaly n - 180)| ≤ 0.168 := by
    unfold almAnomaly
    rw [abs_le]
    norm_num at *
    constructor <;> linarith
  have p2 : |ano2D t - deg 1.57085 - (2 * almAnomaly n - 180 - 360)| ≤ 0.35 := by
    unfold almAnomaly
    rw [abs_le]
    norm_num at *
    constructor <;> linarith
  have w1 := wave_close (A := 0.016707) (B := 0.01671) (by norm_num) p1
  have w2 := wave_close (A := 0.00013956) (B := 0.00014) (by norm_num) p2
  have e180 : ∀ x : ℝ, cos (rad (x - 180)) = -cos (rad x) := fun x => by
    rw [rad_sub, rad_180, cos_sub_pi]
  rw [show 2 * almAnomaly n - 180 - 360 = 2 * almAnomaly n - 180 + 360 * ((-1 : ℤ) : ℝ) by push_cast; ring,
    cos_rad_add_turns, e180, ← f2] at w2
  rw [e180, ← f1] at w1
  rw [show |(0.016707 : ℝ) - 0.01671| = 0.000003 by rw [abs_of_neg] <;> norm_num] at w1
  rw [show |(0.00013956 : ℝ) - 0.00014| = 0.00000044 by rw [abs_of_neg] <;> norm_num] at w2
  have w1' := abs_le.mp w1
  have w2' := abs_le.mp w2
  have h3' := abs_le.mp h3
  unfold almDistance
  clear w1 w2 f1 f2 p1 p2 m m' m2 d1 d2 d1' d2'
  generalize cos (3.0984635 + 6283.07585 * t) = x1 at *
  generalize cos (3.05525 + 12566.1517 * t) = x2 at *
  rw [abs_le]
  norm_num at *
  constructor <;> linarith

/-! ## Sidereal time and direction -/

theorem alm_sidereal {c : Civil} (h : c.Valid) (h1 : 1950 ≤ c.year) (h2 : c.year ≤ 2050) :
    ∃ k : ℤ, |astOf c - almSidereal c - 360 * k| ≤ 0.0186 := by
  obtain ⟨η, η', k, hη, hη0, hη1, hj, -, hk, hn⟩ := alm_time h h1 h2
  set n := daysJ2000 c with hndef
  have hn' := abs_le.mp hn
  have hη' := abs_le.mp hη
  have hc : |nutPsi (jceOf c) * cos (oblOf c)| ≤ 0.00581 := by
    rw [abs_mul]
    exact (mul_le_of_le_one_right (abs_nonneg _) (abs_cos_le_one _)).trans (nutPsi_abs h)
  have hq : |0.000387933 * ((jdOf c - 2451545) / 36525) * ((jdOf c - 2451545) / 36525)
      * (1 - (jdOf c - 2451545) / 36525 / 38710000)| ≤ 0.000105 := by
    have hu : |(jdOf c - 2451545) / 36525| ≤ 0.5101 := by
      rw [abs_div, abs_of_pos (by norm_num : (0:ℝ) < 36525), div_le_iff₀ (by norm_num), abs_le]
      norm_num at *; constructor <;> linarith
    generalize (jdOf c - 2451545) / 36525 = u at *
    have h' : |1 - u / 38710000| ≤ 1.0001 := by
      have := abs_le.mp hu
      rw [abs_le]; norm_num at *; constructor <;> linarith
    rw [abs_mul, abs_mul, abs_mul]
    calc |(0.000387933 : ℝ)| * |u| * |u| * |1 - u / 38710000|
        ≤ 0.000387933 * 0.5101 * 0.5101 * 1.0001 := by
          rw [abs_of_pos (by norm_num : (0:ℝ) < 0.000387933)]
          gcongr
      _ ≤ 0.000105 := by norm_num
  obtain ⟨k1, hk1⟩ := mod360_eq (280.46061837 + 360.98564736629 * (jdOf c - 2451545)
    + 0.000387933 * ((jdOf c - 2451545) / 36525) * ((jdOf c - 2451545) / 36525)
      * (1 - (jdOf c - 2451545) / 36525 / 38710000))
  refine ⟨k - k1, ?_⟩
  unfold astOf almSidereal
  rw [hk1, ← hndef]
  have hc' := abs_le.mp hc
  have hq' := abs_le.mp hq
  generalize nutPsi (jceOf c) * cos (oblOf c) = y at *
  generalize 0.000387933 * ((jdOf c - 2451545) / 36525) * ((jdOf c - 2451545) / 36525)
          * (1 - (jdOf c - 2451545) / 36525 / 38710000) = q at *
  rw [hj]
  push_cast
  clear hk1 hc hq
  rw [abs_le]
  norm_num at *
  constructor <;> linarith

theorem toMeridian_dot (t : ℝ) (u v : Vec3) : (toMeridian t u).dot (toMeridian t v) = u.dot v := by
  simp only [toMeridian, Vec3.dot]
  have := sin_sq_add_cos_sq (rad t)
  linear_combination (u.x * v.x + u.y * v.y) * this

theorem angleBetween_toMeridian (t : ℝ) (u v : Vec3) :
    angleBetween (toMeridian t u) (toMeridian t v) = angleBetween u v := by
  unfold angleBetween
  rw [toMeridian_dot, toMeridian_dot, toMeridian_dot]

theorem angleBetween_toMeridian_time (s t : ℝ) (k : ℤ) {u : Vec3} (hu : u.dot u = 1) :
    angleBetween (toMeridian s u) (toMeridian t u) ≤ |s - t - 360 * k| := by
  refine angleBetween_le ((toMeridian_dot _ _ _).trans hu) ((toMeridian_dot _ _ _).trans hu) ?_
  have e : rad (s - t - 360 * k) = rad s - rad t - k * (2 * π) := by unfold rad; ring
  rw [e, cos_sub_int_mul_two_pi, cos_sub]
  have h1 : (toMeridian s u).dot (toMeridian t u)
      = (u.x ^ 2 + u.y ^ 2) * (cos (rad s) * cos (rad t) + sin (rad s) * sin (rad t)) + u.z ^ 2 := by
    simp only [toMeridian, Vec3.dot]; ring
  have hu' : u.x ^ 2 + u.y ^ 2 + u.z ^ 2 = 1 := by
    rw [← hu]; simp only [Vec3.dot]; ring
  have h2 : cos (rad s) * cos (rad t) + sin (rad s) * sin (rad t) ≤ 1 := by
    rw [← cos_sub]; exact cos_le_one _
  rw [h1]
  nlinarith [sq_nonneg u.z]

/-- The geocentric direction, in the frame of the horizon. -/
theorem alm_geo (tp : ℝ) {c : Civil} (h : c.Valid) (h1 : 1950 ≤ c.year) (h2 : c.year ≤ 2050) (lat lon : ℝ) :
    angleBetween (sunENU lat (lhaOf tp lon c) (decOf c)) (almanacSun lat lon c) ≤ 0.0616 := by
  obtain ⟨k, hk⟩ := alm_lam h h1 h2
  obtain ⟨j, hj⟩ := alm_sidereal h h1 h2
  have ho := alm_obl h h1 h2
  have hb := betaOf_bound h
  have e : sph (lhaOf tp lon c) (decOf c)
      = toMeridian (astOf c + lon) (rotX (oblOf c) (sph (lamOf c) (betaOf c))) := by
    rw [← equatorial_eq tp h, toMeridian_sph]
    unfold lhaOf
    rw [sph_mod360]
  unfold sunENU almanacSun
  rw [angleBetween_toHorizon, e]
  have hu : (sph (lamOf c) (betaOf c)).dot (sph (lamOf c) (betaOf c)) = 1 := sph_unit _ _
  have s1 := angleBetween_toMeridian_time (astOf c + lon) (almSidereal c + lon) j
    (u := rotX (oblOf c) (sph (lamOf c) (betaOf c))) ((rotX_dot _ _ _).trans hu)
  have s2 := angleBetween_rotX_angle (almObliquity (daysJ2000 c)) (oblOf c) hu
  have s3 := angleBetween_sph_lat (lamOf c) (betaOf c) 0
  have s4 := angleBetween_sph_lon 0 (lamOf c) (almLongitude (daysJ2000 c) + 360 * k)
  rw [sph_add_turns] at s4
  have t1 := angleBetween_triangle (toMeridian (astOf c + lon) (rotX (oblOf c) (sph (lamOf c) (betaOf c))))
    (toMeridian (almSidereal c + lon) (rotX (oblOf c) (sph (lamOf c) (betaOf c))))
    (toMeridian (almSidereal c + lon)
      (rotX (almObliquity (daysJ2000 c)) (sph (almLongitude (daysJ2000 c)) 0)))
  rw [angleBetween_toMeridian] at t1
  have t2 := angleBetween_triangle (rotX (oblOf c) (sph (lamOf c) (betaOf c)))
    (rotX (almObliquity (daysJ2000 c)) (sph (lamOf c) (betaOf c)))
    (rotX (almObliquity (daysJ2000 c)) (sph (almLongitude (daysJ2000 c)) 0))
  rw [angleBetween_rotX] at t2
  have t3 := angleBetween_triangle (sph (lamOf c) (betaOf c)) (sph (lamOf c) 0) (sph (almLongitude (daysJ2000 c)) 0)
  rw [show astOf c + lon - (almSidereal c + lon) - 360 * j = astOf c - almSidereal c - 360 * j by ring] at s1
  rw [show lamOf c - (almLongitude (daysJ2000 c) + 360 * k) = lamOf c - almLongitude (daysJ2000 c) - 360 * k by ring] at s4
  rw [sub_zero] at s3
  norm_num at *
  linarith

end Verif
