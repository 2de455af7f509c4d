import Verif.Proofs.SunriseNum
import Verif.Proofs.SunriseEval

/-!
# The sun at the instants the sunrise formula is used for
-/

namespace Verif

open Verif.Spec Verif.Props Pysolar Pysolar.Solar Pysolar.Constants Pysolar.Solartime Real

theorem cos_shift (a w : ℝ) : |cos (a + w) - cos a| ≤ |sin a| * |w| + w ^ 2 / 2 := by
  have e : cos (a + w) - cos a = -(cos a * (1 - cos w)) - sin a * sin w := by rw [cos_add]; ring
  have h1 := one_sub_sq_div_two_le_cos (x := w)
  have h2 := cos_le_one w
  have a1 : |cos a * (1 - cos w)| ≤ w ^ 2 / 2 := by
    rw [abs_mul, abs_of_nonneg (by linarith : 0 ≤ 1 - cos w)]
    nlinarith [abs_cos_le_one a, abs_nonneg (cos a)]
  have a2 : |sin a * sin w| ≤ |sin a| * |w| := by
    rw [abs_mul]
    exact mul_le_mul_of_nonneg_left (abs_sin_le w) (abs_nonneg _)
  rw [e]
  have := abs_sub (-(cos a * (1 - cos w))) (sin a * sin w)
  rw [abs_neg] at this
  linarith

theorem sin_shift (a w : ℝ) : |sin (a + w) - sin a| ≤ |cos a| * |w| + w ^ 2 / 2 := by
  have e : sin (a + w) - sin a = -(sin a * (1 - cos w)) + cos a * sin w := by rw [sin_add]; ring
  have h1 := one_sub_sq_div_two_le_cos (x := w)
  have h2 := cos_le_one w
  have a1 : |sin a * (1 - cos w)| ≤ w ^ 2 / 2 := by
    rw [abs_mul, abs_of_nonneg (by linarith : 0 ≤ 1 - cos w)]
    nlinarith [abs_sin_le_one a, abs_nonneg (sin a)]
  have a2 : |cos a * sin w| ≤ |cos a| * |w| := by
    rw [abs_mul]
    exact mul_le_mul_of_nonneg_left (abs_sin_le w) (abs_nonneg _)
  rw [e]
  have := abs_add_le (-(sin a * (1 - cos w))) (cos a * sin w)
  rw [abs_neg] at this
  linarith

/-- An instant `x` days after midnight (UTC) of day `n` of the year `y`. -/
structure DayInstant (c : Civil) (y n : ℤ) (x : ℝ) : Prop where
  valid : c.Valid
  year1 : 1901 ≤ y
  year2 : y ≤ 2099
  day1 : 1 ≤ n
  day2 : n ≤ 366
  x1 : -0.514 ≤ x
  x2 : x ≤ 1.514
  days : ∃ (N r : ℤ) (η η' : ℝ), 0 ≤ r ∧ r ≤ 3 ∧ 4 * N = 1461 * (y - 2000) + r ∧ |η| ≤ 3 / 86400 ∧ 0 ≤ η' ∧
    η' ≤ 70 / 86400 ∧ jdOf c - 2451545 = N + n + x - 1.5 + η ∧ jdeOf c - 2451545 = N + n + x - 1.5 + η'

/-- Mean longitude and mean anomaly at such an instant. -/
theorem DayInstant.mean {c : Civil} {y n : ℤ} {x : ℝ} (h : DayInstant c y n x) :
    |jmeOf c| ≤ 0.101 ∧
    |muD (jmeOf c) - 360 * ((y - 2000 : ℤ) : ℝ) - (279.8504 + 0.9856474 * n)| ≤ 2.134 ∧
    |anoD (jmeOf c) - 360 * ((y - 2000 : ℤ) : ℝ) - (279.8504 + 0.9856474 * n - 12.9377)| ≤ 2.014 := by
  obtain ⟨-, y1, y2, n1, n2, x1, x2, N, r, η, η', r0, r3, hN, -, e0, e1, -, hj⟩ := h
  have y1' : (1901 : ℝ) ≤ y := by exact_mod_cast y1
  have y2' : (y : ℝ) ≤ 2099 := by exact_mod_cast y2
  have n1' : (1 : ℝ) ≤ n := by exact_mod_cast n1
  have n2' : (n : ℝ) ≤ 366 := by exact_mod_cast n2
  have r0' : (0 : ℝ) ≤ r := by exact_mod_cast r0
  have r3' : (r : ℝ) ≤ 3 := by exact_mod_cast r3
  have hN' : 4 * (N : ℝ) = 1461 * (y - 2000) + r := by exact_mod_cast hN
  have hjm : 365250 * jmeOf c = jdeOf c - 2451545 := by unfold jmeOf jceOf; ring
  rw [hj] at hjm
  have ht : |jmeOf c| ≤ 0.101 := by
    rw [abs_le]
    clear hj hN y1 y2 n1 n2 r0 r3
    generalize (r : ℝ) = r at *
    norm_num at *
    constructor <;> linarith
  have a1 := abs_le.mp (muD_close ht)
  have a2 := abs_le.mp (anoD_close ht)
  refine ⟨ht, ?_, ?_⟩
  · clear ht hj a2
    generalize jmeOf c = t at *
    generalize muD t = m at *
    push_cast
    generalize (N : ℝ) = N at *
    generalize (y : ℝ) = y at *
    generalize (n : ℝ) = n at *
    generalize (r : ℝ) = r at *
    clear hN y1 y2 n1 n2 r0 r3
    rw [abs_le]
    norm_num at *
    constructor <;> linarith
  · clear ht hj
    generalize jmeOf c = t at *
    generalize muD t = m at *
    generalize anoD t = a at *
    push_cast
    generalize (N : ℝ) = N at *
    generalize (y : ℝ) = y at *
    generalize (n : ℝ) = n at *
    generalize (r : ℝ) = r at *
    clear hN y1 y2 n1 n2 r0 r3
    rw [abs_le]
    norm_num at *
    constructor <;> linarith

theorem lamZ_close (n : ℤ) :
    |(279.8504 + 0.9856474 * n) + 1.91465 * cos (rad (279.8504 + 0.9856474 * n - 12.9377)) - (lamZ n : ℝ) / 1000000000|
      ≤ 1e-6 := by
  have h1 := cosD_near (y := 279.8504 + 0.9856474 * n - 12.9377) (q := anZ n) (by
    have : ((279.8504 : ℝ) + 0.9856474 * n - 12.9377) * 1000000000 - anZ n = 0 := by
      unfold anZ muZ; push_cast; ring
    rw [this, abs_zero]; norm_num)
  have h2 := fp_div (191465 * (expZ (degFp (anZ n))).1) (b := 10 ^ 11) (by norm_num)
  have e : ((cosD (anZ n) : ℚ) : ℝ) = (expZ (degFp (anZ n))).1 / 10 ^ 15 := by unfold cosD; push_cast; rfl
  rw [e] at h1
  have h1 := abs_le.mp h1
  have h2 := abs_le.mp h2
  unfold lamZ muZ
  generalize cos (rad (279.8504 + 0.9856474 * n - 12.9377)) = C at *
  push_cast at *
  rw [abs_le]
  norm_num at *
  constructor <;> linarith

theorem abs_rad_le {w b : ℝ} {r : ℝ} (h : |w| ≤ b) (hr : b * 3.1416 ≤ 180 * r) : |rad w| ≤ r := by
  have hp := pi_lt_d4
  have hp0 := pi_pos
  rw [abs_rad]
  unfold rad
  have h0 := abs_nonneg w
  have : |w| * π ≤ b * 3.1416 := mul_le_mul h (by norm_num at *; linarith) hp0.le (h0.trans h)
  rw [div_le_iff₀ (by norm_num)]
  linarith

/-- Longitude and anomaly at such an instant, relative to the middle of the range. -/
theorem DayInstant.sun {c : Civil} {y n : ℤ} {x : ℝ} (h : DayInstant c y n x) :
    ∃ (k : ℤ) (q w w2 : ℝ), lamOf c = muD (jmeOf c) + ampD * cos (rad (anoD (jmeOf c))) + q + 360 * k ∧ |q| ≤ 0.061 ∧
      |w| ≤ 2.2626 ∧ |w2| ≤ 2.014 ∧
      (∃ j : ℤ, lamOf c = (lamZ n : ℝ) / 1000000000 + w + 360 * j) ∧
      cos (rad (anoD (jmeOf c))) = cos (rad ((anZ n : ℝ) / 1000000000) + rad w2) := by
  obtain ⟨ht, hm, ha⟩ := h.mean
  obtain ⟨k, hk⟩ := lam_main h.valid ht
  have hz : (anZ n : ℝ) / 1000000000 = 279.8504 + 0.9856474 * n - 12.9377 := by
    unfold anZ muZ; push_cast; ring
  have hl := lamZ_close n
  rw [← hz] at hl ha
  set w2 := anoD (jmeOf c) - 360 * ((y - 2000 : ℤ) : ℝ) - (anZ n : ℝ) / 1000000000 with hw2
  have hcos : cos (rad (anoD (jmeOf c))) = cos (rad ((anZ n : ℝ) / 1000000000) + rad w2) := by
    have e : rad (anoD (jmeOf c)) = rad ((anZ n : ℝ) / 1000000000) + rad w2 + ((y - 2000 : ℤ) : ℝ) * (2 * π) := by
      rw [hw2]; unfold rad; ring
    rw [e, cos_add_int_mul_two_pi]
  have hc1 : |cos (rad (anoD (jmeOf c))) - cos (rad ((anZ n : ℝ) / 1000000000))| ≤ 0.0352 := by
    rw [hcos]
    have h1 := lip_cos (rad ((anZ n : ℝ) / 1000000000) + rad w2) (rad ((anZ n : ℝ) / 1000000000))
    rw [add_sub_cancel_left] at h1
    exact h1.trans (abs_rad_le ha (by norm_num))
  have hA := ampD_bounds
  have hAc : |ampD * cos (rad (anoD (jmeOf c))) - 1.91465 * cos (rad ((anZ n : ℝ) / 1000000000))| ≤ 0.0675 := by
    have e : ampD * cos (rad (anoD (jmeOf c))) - 1.91465 * cos (rad ((anZ n : ℝ) / 1000000000))
        = 1.91465 * (cos (rad (anoD (jmeOf c))) - cos (rad ((anZ n : ℝ) / 1000000000)))
          + (ampD - 1.91465) * cos (rad (anoD (jmeOf c))) := by ring
    rw [e]
    refine (abs_add_le _ _).trans ?_
    rw [abs_mul, abs_mul]
    have h1 : |(1.91465 : ℝ)| * |cos (rad (anoD (jmeOf c))) - cos (rad ((anZ n : ℝ) / 1000000000))| ≤ 1.91465 * 0.0352 := by
      rw [abs_of_pos (by norm_num : (0 : ℝ) < 1.91465)]
      gcongr
    have h2 : |ampD - 1.91465| * |cos (rad (anoD (jmeOf c)))| ≤ 0.00005 * 1 := by
      have : |ampD - 1.91465| ≤ 0.00005 := by rw [abs_le]; norm_num at *; constructor <;> linarith
      exact mul_le_mul this (abs_cos_le_one _) (abs_nonneg _) (by norm_num)
    norm_num at *
    linarith
  refine ⟨k, lamOf c - (muD (jmeOf c) + ampD * cos (rad (anoD (jmeOf c)))) - 360 * k,
    lamOf c - (lamZ n : ℝ) / 1000000000 - 360 * ((y - 2000 + k : ℤ) : ℝ), w2, by ring, hk, ?_, ha,
    ⟨y - 2000 + k, by ring⟩, hcos⟩
  have a1 := abs_le.mp hk
  have a2 := abs_le.mp hm
  have a3 := abs_le.mp hl
  have a4 := abs_le.mp hAc
  clear hk hm hl hAc hcos hc1 hA ha hw2 ht hz
  generalize ampD * cos (rad (anoD (jmeOf c))) = P at *
  generalize cos (rad ((anZ n : ℝ) / 1000000000)) = Q at *
  generalize (lamZ n : ℝ) / 1000000000 = L at *
  push_cast at *
  rw [abs_le]
  norm_num at *
  constructor <;> linarith

/-- The declination of the sunrise formula. -/
theorem DayInstant.dec {c : Civil} {y n : ℤ} {x : ℝ} (h : DayInstant c y n x) :
    |decOf c - sunriseDeclination n| ≤ 1.12 := by
  obtain ⟨ht, -⟩ := h.mean
  obtain ⟨k, q, w, w2, -, -, hw, -, ⟨j, hlam⟩, -⟩ := h.sun
  obtain ⟨s, hs1, hs2, hz⟩ := decOf_z h.valid ht
  have hchk := sunrise_checks n h.day1 h.day2
  unfold sunriseCheck at hchk
  simp only [decide_eq_true_eq] at hchk
  obtain ⟨g1, g2, -⟩ := hchk
  have e1 := abs_le.mp (sinD_err (lamZ n))
  have e2 := abs_le.mp (cosD_err (lamZ n))
  have hsin : sin (rad (lamOf c)) = sin (rad ((lamZ n : ℝ) / 1000000000) + rad w) := by
    have e : rad (lamOf c) = rad ((lamZ n : ℝ) / 1000000000) + rad w + (j : ℝ) * (2 * π) := by
      rw [hlam]; unfold rad; ring
    rw [e, sin_add_int_mul_two_pi]
  have hwr : |rad w| ≤ 0.0395 := abs_rad_le hw (by norm_num)
  have hwr2 : rad w ^ 2 ≤ 0.0395 ^ 2 := by rw [← sq_abs]; gcongr
  have hsh := sin_shift (rad ((lamZ n : ℝ) / 1000000000)) (rad w)
  rw [← hsin] at hsh
  have hsl : |sin (rad (lamOf c)) - sinD (lamZ n)| ≤ 0.0395 * |(cosD (lamZ n) : ℝ)| + 0.00079 := by
    have hC : |cos (rad ((lamZ n : ℝ) / 1000000000))| ≤ |(cosD (lamZ n) : ℝ)| + 2e-9 := by
      have := abs_sub_abs_le_abs_sub (cos (rad ((lamZ n : ℝ) / 1000000000))) (cosD (lamZ n))
      have := cosD_err (lamZ n)
      linarith
    have hp : |cos (rad ((lamZ n : ℝ) / 1000000000))| * |rad w| ≤ (|(cosD (lamZ n) : ℝ)| + 2e-9) * 0.0395 := by gcongr
    have hsh := abs_le.mp hsh
    rw [abs_le]
    norm_num at *
    constructor <;> linarith
  have hz' : |(rotX (oblOf c) (sph (lamOf c) (betaOf c))).z - 0.3978 * sinD (lamZ n)|
      ≤ 0.3978 * (0.0395 * |(cosD (lamZ n) : ℝ)| + 0.00079)
        + 0.0022 * (|(sinD (lamZ n) : ℝ)| + (0.0395 * |(cosD (lamZ n) : ℝ)| + 0.00079)) + 0.00003 := by
    generalize 0.0395 * |(cosD (lamZ n) : ℝ)| + 0.00079 = sl at *
    have hx : |sin (rad (lamOf c))| ≤ |(sinD (lamZ n) : ℝ)| + sl := by
      have := abs_sub_abs_le_abs_sub (sin (rad (lamOf c))) (sinD (lamZ n))
      linarith
    have hp : |(s - 0.3978) * sin (rad (lamOf c))| ≤ 0.0022 * (|(sinD (lamZ n) : ℝ)| + sl) := by
      rw [abs_mul]
      have : |s - 0.3978| ≤ 0.0022 := by rw [abs_le]; norm_num at *; constructor <;> linarith
      gcongr
    have hp := abs_le.mp hp
    have hsl := abs_le.mp hsl
    have hz := abs_le.mp hz
    rw [abs_le]
    norm_num at *
    constructor <;> linarith
  have g1' : ((0.3978 * sinD (lamZ n) + (0.3978 * (0.0395 * |cosD (lamZ n)| + 0.00079)
      + 0.0022 * (|sinD (lamZ n)| + (0.0395 * |cosD (lamZ n)| + 0.00079)) + 0.00004) : ℚ) : ℝ)
      ≤ ((sinD (⌊decQ n * 1000000000⌋ + 1118000000) : ℚ) : ℝ) := by exact_mod_cast g1
  have g2' : ((sinD (⌊decQ n * 1000000000⌋ - 1118000000) : ℚ) : ℝ)
      ≤ ((0.3978 * sinD (lamZ n) - (0.3978 * (0.0395 * |cosD (lamZ n)| + 0.00079)
      + 0.0022 * (|sinD (lamZ n)| + (0.0395 * |cosD (lamZ n)| + 0.00079)) + 0.00004) : ℚ) : ℝ) := by exact_mod_cast g2
  push_cast at g1' g2'
  have u1 := abs_le.mp (sinD_err (⌊decQ n * 1000000000⌋ + 1118000000))
  have u2 := abs_le.mp (sinD_err (⌊decQ n * 1000000000⌋ - 1118000000))
  have hz' := abs_le.mp hz'
  set z := (rotX (oblOf c) (sph (lamOf c) (betaOf c))).z with hzd
  have hle : z ≤ sin (rad (((⌊decQ n * 1000000000⌋ + 1118000000 : ℤ) : ℝ) / 1000000000)) := by
    generalize ((sinD (⌊decQ n * 1000000000⌋ + 1118000000) : ℚ) : ℝ) = X at *
    generalize sin (rad (((⌊decQ n * 1000000000⌋ + 1118000000 : ℤ) : ℝ) / 1000000000)) = Y at *
    clear g1 g2 g2' u2 hz hsl hsh hsin hlam hw hwr hwr2 e1 e2 hs1 hs2
    norm_num at *
    linarith
  have hge : sin (rad (((⌊decQ n * 1000000000⌋ - 1118000000 : ℤ) : ℝ) / 1000000000)) ≤ z := by
    generalize ((sinD (⌊decQ n * 1000000000⌋ - 1118000000) : ℚ) : ℝ) = X at *
    generalize sin (rad (((⌊decQ n * 1000000000⌋ - 1118000000 : ℤ) : ℝ) / 1000000000)) = Y at *
    clear g1 g2 g1' u1 hz hsl hsh hsin hlam hw hwr hwr2 e1 e2 hs1 hs2 hle
    norm_num at *
    linarith
  clear g1 g2 g1' g2' u1 u2 hz hz' hsl hsh hsin hlam hw hwr hwr2 e1 e2 hs1 hs2
  have hb := abs_le.mp (sunriseDeclination_abs n)
  have hq := abs_le.mp (decQ_close n)
  have f1 : ((⌊decQ n * 1000000000⌋ : ℤ) : ℝ) ≤ decQ n * 1000000000 := by
    have := Int.floor_le (decQ n * 1000000000)
    exact_mod_cast this
  have f2 : (decQ n : ℝ) * 1000000000 ≤ ((⌊decQ n * 1000000000⌋ : ℤ) : ℝ) + 1 := by
    have := (Int.lt_floor_add_one (decQ n * 1000000000)).le
    exact_mod_cast this
  have hp0 := pi_pos
  unfold decOf
  rw [← hzd]
  push_cast at hle hge
  generalize ((⌊decQ n * 1000000000⌋ : ℤ) : ℝ) = F at *
  generalize (decQ n : ℝ) = Q at *
  generalize sunriseDeclination n = D at *
  have r1 : -90 ≤ (F + 1118000000) / 1000000000 ∧ (F + 1118000000) / 1000000000 ≤ 90 := by
    norm_num at *; constructor <;> linarith
  have r2 : -90 ≤ (F - 1118000000) / 1000000000 ∧ (F - 1118000000) / 1000000000 ≤ 90 := by
    norm_num at *; constructor <;> linarith
  have k1 := deg_mono (monotone_arcsin hle)
  have k2 := deg_mono (monotone_arcsin hge)
  rw [arcsin_sin (by unfold rad; nlinarith) (by unfold rad; nlinarith), deg_rad] at k1 k2
  rw [abs_le]
  clear hle hge r1 r2
  norm_num at *
  constructor <;> linarith

/-- The equation of time of the sunrise formula. -/
theorem DayInstant.eot {c : Civil} {y n : ℤ} {x : ℝ} (h : DayInstant c y n x) :
    |-(ampD * cos (rad (anoD (jmeOf c)))) + 2.466 * sin (2 * rad (lamOf c)) - 15 * equationOfTime n| ≤ 0.334 := by
  obtain ⟨k, q, w, w2, -, -, hw, hw2, ⟨j, hlam⟩, hano⟩ := h.sun
  have hchk := sunrise_checks n h.day1 h.day2
  unfold sunriseCheck at hchk
  simp only [decide_eq_true_eq] at hchk
  obtain ⟨-, -, g⟩ := hchk
  have g' : ((|-1.91465 * cosD (anZ n) + 2.466 * sinD (2 * lamZ n) - eotQ n|
      + (1.9147 * (0.0352 * |sinD (anZ n)| + 0.00062) + 2.466 * (0.079 * |cosD (2 * lamZ n)| + 0.0032)) : ℚ) : ℝ)
      ≤ ((0.3335 : ℚ) : ℝ) := by exact_mod_cast g
  push_cast at g'
  have e1 := cosD_err (anZ n)
  have e2 := sinD_err (anZ n)
  have e3 := sinD_err (2 * lamZ n)
  have e4 := cosD_err (2 * lamZ n)
  have e5 := abs_le.mp (eotQ_close n)
  have hsin : sin (2 * rad (lamOf c)) = sin (rad (((2 * lamZ n : ℤ) : ℝ) / 1000000000) + rad (2 * w)) := by
    have e : 2 * rad (lamOf c) = rad (((2 * lamZ n : ℤ) : ℝ) / 1000000000) + rad (2 * w)
        + ((2 * j : ℤ) : ℝ) * (2 * π) := by
      rw [hlam]; unfold rad; push_cast; ring
    rw [e, sin_add_int_mul_two_pi]
  have hwr : |rad (2 * w)| ≤ 0.079 := abs_rad_le (b := 4.5252) (by
    rw [abs_mul, abs_of_pos (by norm_num : (0 : ℝ) < 2)]; norm_num at *; linarith) (by norm_num)
  have hwr' : |rad w2| ≤ 0.0352 := abs_rad_le hw2 (by norm_num)
  have hwr2 : rad (2 * w) ^ 2 ≤ 0.079 ^ 2 := by rw [← sq_abs]; gcongr
  have hwr2' : rad w2 ^ 2 ≤ 0.0352 ^ 2 := by rw [← sq_abs]; gcongr
  have s1 := sin_shift (rad (((2 * lamZ n : ℤ) : ℝ) / 1000000000)) (rad (2 * w))
  have s2 := cos_shift (rad ((anZ n : ℝ) / 1000000000)) (rad w2)
  rw [← hsin] at s1
  rw [← hano] at s2
  have p1 : |cos (rad (((2 * lamZ n : ℤ) : ℝ) / 1000000000))| * |rad (2 * w)|
      ≤ (|(cosD (2 * lamZ n) : ℝ)| + 2e-9) * 0.079 := by
    have : |cos (rad (((2 * lamZ n : ℤ) : ℝ) / 1000000000))| ≤ |(cosD (2 * lamZ n) : ℝ)| + 2e-9 := by
      have := abs_sub_abs_le_abs_sub (cos (rad (((2 * lamZ n : ℤ) : ℝ) / 1000000000))) (cosD (2 * lamZ n))
      linarith
    gcongr
  have p2 : |sin (rad ((anZ n : ℝ) / 1000000000))| * |rad w2| ≤ (|(sinD (anZ n) : ℝ)| + 2e-9) * 0.0352 := by
    have : |sin (rad ((anZ n : ℝ) / 1000000000))| ≤ |(sinD (anZ n) : ℝ)| + 2e-9 := by
      have := abs_sub_abs_le_abs_sub (sin (rad ((anZ n : ℝ) / 1000000000))) (sinD (anZ n))
      linarith
    gcongr
  have hA := ampD_bounds
  have hc : |(ampD - 1.91465) * cos (rad (anoD (jmeOf c)))| ≤ 0.00005 := by
    rw [abs_mul]
    have : |ampD - 1.91465| ≤ 0.00005 := by rw [abs_le]; norm_num at *; constructor <;> linarith
    exact (mul_le_of_le_one_right (abs_nonneg _) (abs_cos_le_one _)).trans this
  have s1 := abs_le.mp (s1.trans (add_le_add p1 (div_le_div_of_nonneg_right hwr2 (by norm_num))))
  have s2 := abs_le.mp (s2.trans (add_le_add p2 (div_le_div_of_nonneg_right hwr2' (by norm_num))))
  have hc := abs_le.mp hc
  have e1 := abs_le.mp e1
  have e3 := abs_le.mp e3
  have g1 := abs_le.mp (le_refl |-1.91465 * (cosD (anZ n) : ℝ) + 2.466 * sinD (2 * lamZ n) - eotQ n|)
  clear p1 p2 hwr hwr' hwr2 hwr2' hsin hano hlam hw hw2 g e2 e4 hA
  generalize hX : |-1.91465 * (cosD (anZ n) : ℝ) + 2.466 * sinD (2 * lamZ n) - eotQ n| = X at *
  have hX' : |-(1.91465 : ℝ) * (cosD (anZ n) : ℝ) + 2.466 * sinD (2 * lamZ n) - eotQ n| = X := hX
  generalize (cosD (anZ n) : ℝ) = a1 at *
  generalize (sinD (2 * lamZ n) : ℝ) = a2 at *
  generalize |(cosD (2 * lamZ n) : ℝ)| = a3 at *
  generalize |(sinD (anZ n) : ℝ)| = a4 at *
  generalize (eotQ n : ℝ) = a5 at *
  generalize cos (rad (anoD (jmeOf c))) = b1 at *
  generalize cos (rad ((anZ n : ℝ) / 1000000000)) = b2 at *
  generalize sin (2 * rad (lamOf c)) = b3 at *
  generalize sin (rad (((2 * lamZ n : ℤ) : ℝ) / 1000000000)) = b4 at *
  generalize equationOfTime n = b5 at *
  generalize hA : ampD * b1 = b6 at *
  have hc1 : b6 = 1.91465 * b1 + (ampD - 1.91465) * b1 := by rw [← hA]; ring
  generalize (ampD - 1.91465) * b1 = b7 at *
  rw [hc1, abs_le]
  clear hc1 hA hX hX'
  norm_num at *
  constructor <;> linarith

/-- The hour angle at an instant `x` days after midnight (UTC) of day `n`. -/
theorem DayInstant.hour (tp : ℝ) {c : Civil} {y n : ℤ} {x : ℝ} (h : DayInstant c y n x) (lon : ℝ) :
    ∃ j : ℤ, |lhaOf tp lon c - (360 * x + lon + 15 * equationOfTime n - 180) - 360 * j| ≤ 0.491 := by
  obtain ⟨ht, -⟩ := h.mean
  obtain ⟨k, r, -, -, hlam, hr, -, -, -, -⟩ := h.sun
  have heot := h.eot
  obtain ⟨hv, y1, y2, n1, n2, x1, x2, N, -, η, η', -, -, -, hη, hη0, hη1, hjd, hjde⟩ := h
  obtain ⟨o1, o2⟩ := obl_near hv ht
  have hcd : 0 < cos (rad (decOf c)) := lt_trans (by norm_num) (cos_dec_gt hv).1
  obtain ⟨i, hi⟩ := ra_close o1 o2 (betaOf_bound hv) hcd (equatorial_eq tp hv)
  have hmu := muD_close ht
  have hn : |nutPsi (jceOf c) * cos (oblOf c)| ≤ 0.00581 := by
    rw [abs_mul]
    exact (mul_le_of_le_one_right (abs_nonneg _) (abs_cos_le_one _)).trans (nutPsi_abs hv)
  have hjm : jmeOf c = (jdeOf c - 2451545) / 365250 := by unfold jmeOf jceOf; ring
  have hd : |jdOf c - 2451545| ≤ 36900 := by
    have : jdeOf c - 2451545 = 365250 * jmeOf c := by rw [hjm]; ring
    have := abs_le.mp ht
    have := abs_le.mp hη
    rw [abs_le]
    clear y1 y2 n1 n2
    norm_num at *
    constructor <;> linarith
  have hq : |0.000387933 * ((jdOf c - 2451545) / 36525) * ((jdOf c - 2451545) / 36525)
      * (1 - (jdOf c - 2451545) / 36525 / 38710000)| ≤ 0.0004 := by
    have hu : |(jdOf c - 2451545) / 36525| ≤ 1.0103 := by
      rw [abs_div, abs_of_pos (by norm_num : (0:ℝ) < 36525), div_le_iff₀ (by norm_num)]
      norm_num at *; linarith
    generalize (jdOf c - 2451545) / 36525 = u at *
    have h' : |1 - u / 38710000| ≤ 1.0001 := by
      have := abs_le.mp hu
      rw [abs_le]; norm_num at *; constructor <;> linarith
    rw [abs_mul, abs_mul, abs_mul]
    calc |(0.000387933 : ℝ)| * |u| * |u| * |1 - u / 38710000|
        ≤ 0.000387933 * 1.0103 * 1.0103 * 1.0001 := by
          rw [abs_of_pos (by norm_num : (0:ℝ) < 0.000387933)]
          gcongr
      _ ≤ 0.0004 := by norm_num
  have hmean : |280.46061837 + 0.98564736629 * (jdOf c - 2451545) - muD (jmeOf c)| ≤ 0.0071 := by
    have e1 : jdeOf c - 2451545 = jdOf c - 2451545 + (η' - η) := by linarith
    rw [hjm, e1] at hmu
    rw [hjm, e1]
    have := abs_le.mp hmu
    have := abs_le.mp hη
    have := abs_le.mp hd
    rw [abs_le]
    generalize muD _ = m at *
    generalize jdOf c - 2451545 = d at *
    clear hq hn hi hcd hlam hr o1 o2 ht heot hmu hη hd y1 y2 n1 n2
    norm_num at *
    constructor <;> linarith
  obtain ⟨k1, hk1⟩ := mod360_eq (280.46061837 + 360.98564736629 * (jdOf c - 2451545)
    + 0.000387933 * ((jdOf c - 2451545) / 36525) * ((jdOf c - 2451545) / 36525)
      * (1 - (jdOf c - 2451545) / 36525 / 38710000))
  obtain ⟨k2, hk2⟩ := mod360_eq (astOf c + lon - raOf tp c)
  refine ⟨N + n - 1 - k1 - k2 - k + i, ?_⟩
  have key : lhaOf tp lon c - (360 * x + lon + 15 * equationOfTime n - 180)
        - 360 * ((N + n - 1 - k1 - k2 - k + i : ℤ) : ℝ)
      = (280.46061837 + 0.98564736629 * (jdOf c - 2451545) - muD (jmeOf c))
        + 0.000387933 * ((jdOf c - 2451545) / 36525) * ((jdOf c - 2451545) / 36525)
          * (1 - (jdOf c - 2451545) / 36525 / 38710000)
        + nutPsi (jceOf c) * cos (oblOf c) + 360 * η - r
        + (-(ampD * cos (rad (anoD (jmeOf c)))) + 2.466 * sin (2 * rad (lamOf c)) - 15 * equationOfTime n)
        + (lamOf c - raOf tp c - 360 * i - 2.466 * sin (2 * rad (lamOf c))) := by
    unfold lhaOf
    rw [hk2]
    unfold astOf
    rw [hk1]
    have e1 : 360.98564736629 * (jdOf c - 2451545)
        = 0.98564736629 * (jdOf c - 2451545) + (360 * N + 360 * n + 360 * x - 540 + 360 * η) := by
      rw [hjd]; norm_num; ring
    rw [e1]
    push_cast
    linarith [hlam]
  rw [key]
  clear key hk1 hk2 hlam hjd hjde hmu hd hjm
  have t1 := abs_le.mp hmean
  have t2 := abs_le.mp hq
  have t3 := abs_le.mp hn
  have t4 := abs_le.mp hη
  have t5 := abs_le.mp hr
  have t6 := abs_le.mp heot
  have t8 := abs_le.mp hi
  clear hmean hq hn hη hr heot hi
  generalize 280.46061837 + 0.98564736629 * (jdOf c - 2451545) - muD (jmeOf c) = x1 at *
  generalize 0.000387933 * ((jdOf c - 2451545) / 36525) * ((jdOf c - 2451545) / 36525)
          * (1 - (jdOf c - 2451545) / 36525 / 38710000) = x2 at *
  generalize nutPsi (jceOf c) * cos (oblOf c) = x3 at *
  generalize -(ampD * cos (rad (anoD (jmeOf c)))) + 2.466 * sin (2 * rad (lamOf c)) - 15 * equationOfTime n = x5 at *
  generalize lamOf c - raOf tp c - 360 * i - 2.466 * sin (2 * rad (lamOf c)) = x7 at *
  clear hη0 hη1 hcd ht o1 o2 y1 y2 n1 n2
  rw [abs_le]
  norm_num at *
  constructor <;> linarith

end Verif
