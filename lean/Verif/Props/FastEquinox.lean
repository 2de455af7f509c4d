import Verif.Props.FastZenith

/-!
# C164: the fast azimuth on the equator at the equinox

`get_azimuth_fast` divides two numbers whose quotient is 1 or -1 when the sun stands due west or east, and passes the quotient
to `math.asin`. On the equator on the 81st day of a year (22 March) the sun stands due east or west the whole day, and in
double precision the quotient exceeds 1 at 418 of the 1440 minutes of the day on the meridian of Greenwich. The case proved
here is 12:05 UTC on 22 March 2007 at latitude 0 and longitude 0: ValueError, with the sun more than half a degree away from
the zenith.
-/

namespace Verif.Props

open Verif Verif.Spec Pysolar Pysolar.Solar Pysolar.Constants Chain

theorem b64_neg (x : ℝ) : b64 (-x) = -b64 x := by
  unfold b64
  rcases lt_trichotomy x 0 with h | h | h
  · rw [if_neg (by linarith), if_pos h, neg_neg]
  · subst h
    simp [b64pos_zero]
  · rw [if_pos (by linarith), if_neg (by linarith), neg_neg]

theorem eq_753 : b64 (7.53) = 8478026298524959 / 2 ^ 50 := by
  have := b64_near (x := 7.53) 8478026298524959 50 (by norm_num) (by norm_num) (by norm_num) (by rw [abs_lt]; constructor <;> norm_num)
  push_cast at this
  exact this

theorem eq_753_again : b64 (8478026298524959 / 2 ^ 50 * 1) = 8478026298524959 / 2 ^ 50 := by
  have := b64_near (x := 8478026298524959 / 2 ^ 50 * 1) 8478026298524959 50 (by norm_num) (by norm_num) (by norm_num) (by rw [abs_lt]; constructor <;> norm_num)
  push_cast at this
  exact this

theorem eq_minutes : b64 (725 - 8478026298524959 / 2 ^ 50) = 6310932860643574 / 2 ^ 43 := by
  have := b64_near (x := 725 - 8478026298524959 / 2 ^ 50) 6310932860643574 43 (by norm_num) (by norm_num) (by norm_num) (by rw [abs_lt]; constructor <;> norm_num)
  push_cast at this
  exact this

theorem eq_hours : b64 (6310932860643574 / 2 ^ 43 / 60) = 6731661718019812 / 2 ^ 49 := by
  have := b64_near (x := 6310932860643574 / 2 ^ 43 / 60) 6731661718019812 49 (by norm_num) (by norm_num) (by norm_num) (by rw [abs_lt]; constructor <;> norm_num)
  push_cast at this
  exact this

theorem eq_noon : b64 (12 - 6731661718019812 / 2 ^ 49) = 6076857097198592 / 2 ^ 57 := by
  have := b64_near (x := 12 - 6731661718019812 / 2 ^ 49) 6076857097198592 57 (by norm_num) (by norm_num) (by norm_num) (by rw [abs_lt]; constructor <;> norm_num)
  push_cast at this
  exact this

theorem eq_degrees : b64 (15 * (6076857097198592 / 2 ^ 57)) = 5697053528623680 / 2 ^ 53 := by
  have := b64_near (x := 15 * (6076857097198592 / 2 ^ 57)) 5697053528623680 53 (by norm_num) (by norm_num) (by norm_num) (by rw [abs_lt]; constructor <;> norm_num)
  push_cast at this
  exact this

theorem eq_radians : b64 (5697053528623680 / 2 ^ 53 * (5030569068109113 / 2 ^ 58)) = 6363669871158031 / 2 ^ 59 := by
  have := b64_near (x := 5697053528623680 / 2 ^ 53 * (5030569068109113 / 2 ^ 58)) 6363669871158031 59 (by norm_num) (by norm_num) (by norm_num) (by rw [abs_lt]; constructor <;> norm_num)
  push_cast at this
  exact this

theorem eq_C_again : b64 (9006650433187237 / 2 ^ 53) = 9006650433187237 / 2 ^ 53 := by
  have := b64_near (x := 9006650433187237 / 2 ^ 53) 9006650433187237 53 (by norm_num) (by norm_num) (by norm_num) (by rw [abs_lt]; constructor <;> norm_num)
  push_cast at this
  exact this

theorem eq_factor : b64 (180 / (7074237752028440 / 2 ^ 51)) = 8063664102031864 / 2 ^ 47 := by
  have := b64_near (x := 180 / (7074237752028440 / 2 ^ 51)) 8063664102031864 47 (by norm_num) (by norm_num) (by norm_num) (by rw [abs_lt]; constructor <;> norm_num)
  push_cast at this
  exact this

theorem eq_iv : Iv.trig (.mk 203637435877056992 203637435877056992)
    = some (.mk 18445620087167460540 18445620087167460796, .mk 203633299886693716 203633299886693972) := by decide +kernel

theorem eq_trig : b64 (Real.cos (6363669871158031 / 2 ^ 59)) = 9006650433187237 / 2 ^ 53 ∧
    0.01103898330637727 ≤ Real.sin (6363669871158031 / 2 ^ 59) ∧ Real.sin (6363669871158031 / 2 ^ 59) ≤ 0.0110389833063773 := by
  obtain ⟨x, hx, hc, hs⟩ := Iv.trig_ok eq_iv (v := .fin (6363669871158031 / 2 ^ 59)) ⟨_, rfl, by norm_num [Iv.one], by norm_num [Iv.one]⟩
  cases hx
  obtain ⟨c, hc0, hc1, hc2⟩ := hc
  obtain ⟨s, hs0, hs1, hs2⟩ := hs
  cases hc0
  cases hs0
  generalize Real.cos (6363669871158031 / 2 ^ 59) = c at *
  generalize Real.sin (6363669871158031 / 2 ^ 59) = s at *
  norm_num [Iv.one] at hc1 hc2 hs1 hs2
  refine ⟨?_, ?_, ?_⟩
  · have := b64_near (x := c) 9006650433187237 53 (by norm_num) (by norm_num; linarith) (by norm_num)
      (by rw [abs_lt]; constructor <;> norm_num <;> linarith)
    push_cast at this
    exact this
  · norm_num; linarith
  · norm_num; linarith

def equinox : Civil := ⟨2007, 3, 22, 12, 5, 0, 0⟩

theorem equinox_valid : equinox.Valid := civil_valid_of_check (by decide)

theorem lit64 (n : ℤ) (hn : |n| ≤ 2 ^ 53) : (rndB binary64).lit n = V.fin n := by
  show V.fin (b64 ((n : ℚ) : ℝ)) = _
  rw [show ((n : ℚ) : ℝ) = (n : ℝ) by push_cast; rfl, b64_int n hn]

theorem int64 {x : ℝ} (n : ℤ) (hn : |n| ≤ 2 ^ 53) (h : x = n) : b64 x = x := by rw [h, b64_int n hn]

theorem mul_zero64 (y : ℝ) : (rndB binary64).mul (V.fin y) (V.fin 0) = V.fin 0 :=
  vrnd64 (z := y * 0) (by rw [mul_zero]; norm_num) (by rw [mul_zero]; exact b64_zero)

theorem sin_zero64 : (rndB binary64).sin (V.fin 0) = .ok (V.fin 0) := sin64 _ 0 (by rw [Real.sin_zero]; exact b64_zero)
theorem cos_zero64 : (rndB binary64).cos (V.fin 0) = .ok (V.fin 1) := cos64 _ 1 (by rw [Real.cos_zero]; exact b64_one)
theorem rad_zero64 : (rndB binary64).radians (V.fin 0) = V.fin 0 :=
  rad64 (x := 0) (w := 0) (by norm_num) (by rw [zero_mul]; exact b64_zero)

/-- The 81st day of the year, less 81. -/
theorem eq_day : (rndB binary64).sub ((rndB binary64).lit (yday equinox.date)) ((rndB binary64).lit 81) = V.fin 0 := by
  have hy : yday equinox.date = 81 := by decide
  have l : (rndB binary64).lit 81 = V.fin 81 := by simpa using lit64 81 (by norm_num)
  rw [hy]
  have e : (rndB binary64).lit ((81 : ℤ) : ℚ) = V.fin 81 := by simpa using lit64 81 (by norm_num)
  rw [e, l]
  exact vrnd64 (z := 81 + -81) (by norm_num) (by rw [add_neg_cancel]; exact b64_zero)

/-- A finite number of moderate size. -/
theorem two_pi_div (q : ℚ) (h1 : 1 ≤ b64 q) : ∃ x : ℝ,
    (rndB binary64).divq ((rndB binary64).mul ((rndB binary64).lit 2) (rndB binary64).pi) q = V.fin x := by
  have l2 : (rndB binary64).lit 2 = V.fin 2 := by simpa using lit64 2 (by norm_num)
  have lp : (rndB binary64).pi = V.fin (7074237752028440 / 2 ^ 51) := congrArg V.fin b64_pi
  have a1 : (rndB binary64).mul (V.fin 2) (V.fin (7074237752028440 / 2 ^ 51)) = V.fin (7074237752028440 / 2 ^ 50) :=
    vrnd64 (by norm_num) ov_two_pi
  rw [l2, lp, a1]
  refine ⟨_, vrnd64 (z := 7074237752028440 / 2 ^ 50 / b64 q) ?_ rfl⟩
  rw [abs_div, abs_of_pos (lt_of_lt_of_le one_pos h1), div_le_iff₀ (lt_of_lt_of_le one_pos h1)]
  norm_num
  linarith

theorem eq_decl : get_declination (rndB binary64) ((rndB binary64).lit (yday equinox.date)) = .ok (V.fin 0) := by
  obtain ⟨x, hx⟩ := two_pi_div 365.0 (by
    have := b64_int 365 (by norm_num)
    norm_num at this ⊢
    rw [this]; norm_num)
  unfold get_declination
  have e : (rndB binary64).mul ((rndB binary64).divq ((rndB binary64).mul ((rndB binary64).lit 2) (rndB binary64).pi) 365.0)
      ((rndB binary64).sub ((rndB binary64).lit (yday equinox.date)) ((rndB binary64).lit 81)) = V.fin 0 := by
    rw [hx, eq_day, mul_zero64]
  refine bind_of_ok ((congrArg (rndB binary64).sin e).trans sin_zero64) ?_
  exact congrArg Except.ok (mul_zero64 (b64 _))

theorem eq_time : equation_of_time (rndB binary64) ((rndB binary64).lit (yday equinox.date))
    = .ok (V.fin (-(8478026298524959 / 2 ^ 50))) := by
  obtain ⟨x, hx⟩ := two_pi_div 364.0 (by
    have := b64_int 364 (by norm_num)
    norm_num at this ⊢
    rw [this]; norm_num)
  unfold equation_of_time
  have e : (rndB binary64).mul ((rndB binary64).divq ((rndB binary64).mul ((rndB binary64).lit 2) (rndB binary64).pi) 364.0)
      ((rndB binary64).sub ((rndB binary64).lit (yday equinox.date)) ((rndB binary64).lit 81)) = V.fin 0 := by
    rw [hx, eq_day, mul_zero64]
  have l753 : (rndB binary64).lit 7.53 = V.fin (8478026298524959 / 2 ^ 50) := by
    show V.fin (b64 ((7.53 : ℚ) : ℝ)) = _
    rw [← eq_753]
    norm_num
  have m1 : (rndB binary64).mul (V.fin (8478026298524959 / 2 ^ 50)) (V.fin 1) = V.fin (8478026298524959 / 2 ^ 50) :=
    vrnd64 (by norm_num) eq_753_again
  have again : b64 (-(8478026298524959 / 2 ^ 50)) = -(8478026298524959 / 2 ^ 50) := by
    rw [b64_neg, ← mul_one (8478026298524959 / 2 ^ 50 : ℝ), eq_753_again, mul_one]
  have m2 : (rndB binary64).sub (V.fin 0) (V.fin (8478026298524959 / 2 ^ 50)) = V.fin (-(8478026298524959 / 2 ^ 50)) :=
    vrnd64 (z := 0 + -(8478026298524959 / 2 ^ 50)) (by norm_num) (by rw [zero_add]; exact again)
  have m3 : (rndB binary64).sub (V.fin (-(8478026298524959 / 2 ^ 50))) (V.fin 0) = V.fin (-(8478026298524959 / 2 ^ 50)) :=
    vrnd64 (z := -(8478026298524959 / 2 ^ 50) + -0) (by norm_num) (by rw [neg_zero, add_zero]; exact again)
  have e2 : (rndB binary64).mul ((rndB binary64).lit 2) ((rndB binary64).mul ((rndB binary64).divq ((rndB binary64).mul
      ((rndB binary64).lit 2) (rndB binary64).pi) 364.0)
      ((rndB binary64).sub ((rndB binary64).lit (yday equinox.date)) ((rndB binary64).lit 81))) = V.fin 0 := by
    rw [e]
    exact mul_zero64 (b64 _)
  refine bind_of_ok ((congrArg (rndB binary64).sin e2).trans sin_zero64) (bind_of_ok ((congrArg (rndB binary64).cos e).trans
    cos_zero64) (bind_of_ok ((congrArg (rndB binary64).sin e).trans sin_zero64) ?_))
  have e3 : (rndB binary64).sub ((rndB binary64).sub ((rndB binary64).mul ((rndB binary64).lit 9.87) (V.fin 0))
      ((rndB binary64).mul ((rndB binary64).lit 7.53) (V.fin 1))) ((rndB binary64).mul ((rndB binary64).lit 1.5) (V.fin 0))
      = V.fin (-(8478026298524959 / 2 ^ 50)) := by
    have a : (rndB binary64).mul ((rndB binary64).lit 9.87) (V.fin 0) = V.fin 0 := mul_zero64 (b64 _)
    have b : (rndB binary64).mul ((rndB binary64).lit 1.5) (V.fin 0) = V.fin 0 := mul_zero64 (b64 _)
    rw [a, b, l753, m1, m2, m3]
  exact congrArg Except.ok e3

theorem eq_ha : get_hour_angle (rndB binary64) (.dt (utcDT equinox)) (V.fin 0) = .ok (V.fin (-(5697053528623680 / 2 ^ 53))) := by
  refine (ha_split _ rfl (utcDT_fields equinox_valid) _).trans (bind_of_ok eq_time ?_)
  have l12 : (rndB binary64).lit ((equinox.hour : ℤ) : ℚ) = V.fin 12 := by simpa [equinox] using lit64 12 (by norm_num)
  have l5 : (rndB binary64).lit ((equinox.minute : ℤ) : ℚ) = V.fin 5 := by simpa [equinox] using lit64 5 (by norm_num)
  have l60 : (rndB binary64).lit 60 = V.fin 60 := by simpa using lit64 60 (by norm_num)
  have l4 : (rndB binary64).lit 4 = V.fin 4 := by simpa using lit64 4 (by norm_num)
  have l15 : (rndB binary64).lit 15.0 = V.fin 15 := by
    have := lit64 15 (by norm_num)
    norm_num at this ⊢
    exact this
  have l12' : (rndB binary64).lit 12.0 = V.fin 12 := by
    have := lit64 12 (by norm_num)
    norm_num at this ⊢
    exact this
  have a1 : (rndB binary64).mul (V.fin 12) (V.fin 60) = V.fin 720 :=
    vrnd64 (z := 12 * 60) (by norm_num) (by rw [int64 720 (by norm_num) (by norm_num)]; norm_num)
  have a2 : (rndB binary64).add (V.fin 720) (V.fin 5) = V.fin 725 :=
    vrnd64 (z := 720 + 5) (by norm_num) (by rw [int64 725 (by norm_num) (by norm_num)]; norm_num)
  have a3 : (rndB binary64).add (V.fin 725) (V.fin 0) = V.fin 725 :=
    vrnd64 (z := 725 + 0) (by norm_num) (by rw [int64 725 (by norm_num) (by norm_num)]; norm_num)
  have a4 : (rndB binary64).add (V.fin 725) (V.fin (-(8478026298524959 / 2 ^ 50))) = V.fin (6310932860643574 / 2 ^ 43) :=
    vrnd64 (z := 725 + -(8478026298524959 / 2 ^ 50)) (by norm_num) eq_minutes
  have a5 : (rndB binary64).divq (V.fin (6310932860643574 / 2 ^ 43)) 60 = V.fin (6731661718019812 / 2 ^ 49) := by
    have e : b64 ((60 : ℚ) : ℝ) = 60 := by
      have := b64_int 60 (by norm_num)
      norm_num at this ⊢
      exact this
    show V.rnd binary64 (V.divNZ (.fin (6310932860643574 / 2 ^ 43)) (.fin (b64 ((60 : ℚ) : ℝ)))) = _
    rw [e]
    exact vrnd64 (by norm_num) eq_hours
  have a6 : (rndB binary64).sub (V.fin (6731661718019812 / 2 ^ 49)) (V.fin 12) = V.fin (-(6076857097198592 / 2 ^ 57)) :=
    vrnd64 (z := 6731661718019812 / 2 ^ 49 + -12) (by norm_num) (by
      rw [show (6731661718019812 / 2 ^ 49 + -12 : ℝ) = -(12 - 6731661718019812 / 2 ^ 49) by ring, b64_neg, eq_noon])
  have a7 : (rndB binary64).mul (V.fin 15) (V.fin (-(6076857097198592 / 2 ^ 57))) = V.fin (-(5697053528623680 / 2 ^ 53)) :=
    vrnd64 (z := 15 * -(6076857097198592 / 2 ^ 57)) (by norm_num) (by rw [mul_neg, b64_neg, eq_degrees])
  have e : (rndB binary64).mul ((rndB binary64).lit 15.0) ((rndB binary64).sub ((rndB binary64).divq
      ((rndB binary64).add ((rndB binary64).add ((rndB binary64).add ((rndB binary64).mul ((rndB binary64).lit ((equinox.hour : ℤ) : ℚ))
        ((rndB binary64).lit 60)) ((rndB binary64).lit ((equinox.minute : ℤ) : ℚ))) ((rndB binary64).mul ((rndB binary64).lit 4)
        (V.fin 0))) (V.fin (-(8478026298524959 / 2 ^ 50)))) 60) ((rndB binary64).lit 12.0))
      = V.fin (-(5697053528623680 / 2 ^ 53)) := by
    rw [l12, l5, l60, l4, l15, l12', a1, a2, mul_zero64, a3, a4, a5, a6, a7]
  exact congrArg Except.ok e

theorem deg64 {x : ℝ} (h : |x| ≤ 2) : (rndB binary64).degrees (V.fin x) = V.fin (b64 (x * (8063664102031864 / 2 ^ 47))) := by
  show V.rnd binary64 (.fin (x * b64 (180 / b64 Real.pi))) = _
  rw [b64_pi, eq_factor]
  refine vrnd64 ?_ rfl
  rw [abs_mul]
  calc |x| * _ ≤ 2 * 100 := by
        refine mul_le_mul h ?_ (abs_nonneg _) (by norm_num)
        rw [abs_of_nonneg (by positivity)]
        norm_num
    _ ≤ _ := by norm_num

/-- The hour angle in radians. -/
theorem eq_ha_rad : (rndB binary64).radians (V.fin (-(5697053528623680 / 2 ^ 53))) = V.fin (-(6363669871158031 / 2 ^ 59)) :=
  rad64 (x := -(5697053528623680 / 2 ^ 53)) (by rw [abs_neg, abs_of_nonneg (by norm_num)]; norm_num) (by rw [neg_mul, b64_neg, eq_radians])

theorem eq_arg : fastArg (rndB binary64) (V.fin 0) (V.fin 0) (V.fin (-(5697053528623680 / 2 ^ 53)))
    = .ok (V.fin (9006650433187237 / 2 ^ 53)) := by
  unfold fastArg
  rw [rad_zero64, eq_ha_rad]
  refine bind_of_ok cos_zero64 (bind_of_ok cos_zero64 (bind_of_ok (cos64 _ (9006650433187237 / 2 ^ 53) (by rw [Real.cos_neg]; exact eq_trig.1))
    (bind_of_ok sin_zero64 (bind_of_ok sin_zero64 ?_))))
  have m1 : (rndB binary64).mul (V.fin 1) (V.fin 1) = V.fin 1 :=
    vrnd64 (z := 1 * 1) (by norm_num) (by rw [mul_one]; exact b64_one)
  have m2 : (rndB binary64).mul (V.fin 1) (V.fin (9006650433187237 / 2 ^ 53)) = V.fin (9006650433187237 / 2 ^ 53) :=
    vrnd64 (z := 1 * (9006650433187237 / 2 ^ 53)) (by norm_num) (by rw [one_mul]; exact eq_C_again)
  have m3 : (rndB binary64).add (V.fin (9006650433187237 / 2 ^ 53)) (V.fin 0) = V.fin (9006650433187237 / 2 ^ 53) :=
    vrnd64 (z := 9006650433187237 / 2 ^ 53 + 0) (by norm_num) (by rw [add_zero]; exact eq_C_again)
  have e : (rndB binary64).add ((rndB binary64).mul ((rndB binary64).mul (V.fin 1) (V.fin 1)) (V.fin (9006650433187237 / 2 ^ 53)))
      ((rndB binary64).mul (V.fin 0) (V.fin 0)) = V.fin (9006650433187237 / 2 ^ 53) := by
    rw [m1, m2, mul_zero64, m3]
  exact congrArg Except.ok e

set_option exponentiation.threshold 2000 in
theorem b64_err_nonneg {x : ℝ} (h : 0 ≤ x) : x * (1 - 1 / 2 ^ 53) - 1 / 10 ^ 60 ≤ b64 x ∧ b64 x ≤ x * (1 + 1 / 2 ^ 53) + 1 / 10 ^ 60 := by
  have := abs_le.1 (b64_err x)
  rw [abs_of_nonneg h] at this
  have t : (1 : ℝ) / 2 ^ 1075 ≤ 1 / 10 ^ 60 := one_div_le_one_div_of_le (by positivity)
    (le_trans (by norm_num : (10 : ℝ) ^ 60 ≤ 2 ^ 200) (pow_le_pow_right₀ (by norm_num) (by norm_num)))
  constructor <;> linarith

/-- The altitude, converted to degrees and back to radians, and its cosine. -/
theorem eq_cos_alt {v w r : ℝ} (hv : v = b64 (Real.arcsin (9006650433187237 / 2 ^ 53)))
    (hw : w = b64 (v * (8063664102031864 / 2 ^ 47))) (hr : r = b64 (w * (5030569068109113 / 2 ^ 58))) :
    |v| ≤ 2 ∧ |w| ≤ 89.39 ∧ 0.01 ≤ b64 (Real.cos r) ∧ b64 (Real.cos r) ≤ 0.0110389833063750 := by
  have hA0 : 0 ≤ Real.arcsin (9006650433187237 / 2 ^ 53) := Real.arcsin_nonneg.2 (by norm_num)
  have hA1 : Real.arcsin (9006650433187237 / 2 ^ 53) ≤ 1.5708 := (Real.arcsin_le_pi_div_two _).trans (by
    have := Real.pi_lt_d4
    linarith)
  have hcA := Real.cos_arcsin (9006650433187237 / 2 ^ 53)
  have hq : Real.sqrt (1 - (9006650433187237 / 2 ^ 53) ^ 2) ≤ 0.011038983306373807 := by
    rw [Real.sqrt_le_left (by norm_num)]
    norm_num
  have hq2 : 0.011 ≤ Real.sqrt (1 - (9006650433187237 / 2 ^ 53) ^ 2) := by
    refine Real.le_sqrt_of_sq_le ?_
    norm_num
  rw [← hcA] at hq hq2
  have hA2 : Real.arcsin (9006650433187237 / 2 ^ 53) ≤ 1.55980 := by
    have hs := Real.sin_le (x := Real.pi / 2 - Real.arcsin (9006650433187237 / 2 ^ 53)) (by
      linarith [Real.arcsin_le_pi_div_two (9006650433187237 / 2 ^ 53)])
    rw [Real.sin_pi_div_two_sub] at hs
    have := Real.pi_lt_d4
    norm_num at *
    linarith
  generalize Real.arcsin (9006650433187237 / 2 ^ 53) = A at *
  have ev := b64_err_nonneg hA0
  rw [← hv] at ev
  have v0 : 0 ≤ v := by
    rw [hv]
    have := b64_mono hA0
    rwa [b64_zero] at this
  have ew := b64_err_nonneg (x := v * (8063664102031864 / 2 ^ 47)) (by positivity)
  rw [← hw] at ew
  have w0 : 0 ≤ w := by
    rw [hw]
    have := b64_mono (show (0 : ℝ) ≤ v * (8063664102031864 / 2 ^ 47) by positivity)
    rwa [b64_zero] at this
  have er := b64_err_nonneg (x := w * (5030569068109113 / 2 ^ 58)) (by positivity)
  rw [← hr] at er
  have hrA : |r - A| ≤ 1 / 10 ^ 15 := by
    rw [abs_le]
    constructor <;> norm_num at * <;> linarith
  have hl := abs_le.1 ((Real.abs_cos_sub_cos_le r A).trans hrA)
  have ec := b64_err_nonneg (x := Real.cos r) (by linarith)
  refine ⟨?_, ?_, ?_, ?_⟩
  · rw [abs_of_nonneg v0]; norm_num at *; linarith
  · rw [abs_of_nonneg w0]; norm_num at *; linarith
  · norm_num at *; linarith
  · norm_num at *; linarith

/-- The altitude in double precision. -/
theorem eq_alt : get_altitude_fast (rndB binary64) (V.fin 0) (V.fin 0) (.dt (utcDT equinox))
    = .ok (V.fin (b64 (b64 (Real.arcsin (9006650433187237 / 2 ^ 53)) * (8063664102031864 / 2 ^ 47)))) := by
  obtain ⟨hv, -⟩ := eq_cos_alt (v := b64 (Real.arcsin (9006650433187237 / 2 ^ 53))) rfl rfl rfl
  refine (alt_split _ rfl (utcDT_fields equinox_valid) _ _).trans ?_
  refine bind_of_ok eq_decl (bind_of_ok eq_ha (bind_of_ok eq_arg (bind_of_ok
      (a := V.fin (b64 (Real.arcsin (9006650433187237 / 2 ^ 53)))) (if_pos ⟨by norm_num, by norm_num⟩) ?_)))
  exact congrArg Except.ok (deg64 hv)

/-- C164 is false: at latitude and longitude 0 on 22 March 2007 at 12:05 UTC, `get_azimuth_fast` raises ValueError in IEEE double
precision. -/
theorem C164_refuted : get_azimuth_fast (rndB binary64) (V.fin 0) (V.fin 0) (.dt (utcDT equinox)) = .error .valueError := by
  obtain ⟨hv, hw, hc, hc1⟩ := eq_cos_alt (v := b64 (Real.arcsin (9006650433187237 / 2 ^ 53))) rfl rfl rfl
  have halt := eq_alt
  generalize b64 (b64 (Real.arcsin (9006650433187237 / 2 ^ 53)) * (8063664102031864 / 2 ^ 47)) = w at *
  have hr := rad64 (x := w) (hw.trans (by norm_num)) rfl
  generalize b64 (w * (5030569068109113 / 2 ^ 58)) = r at *
  have hS := eq_trig.2
  have eS := b64_err_nonneg (x := Real.sin (6363669871158031 / 2 ^ 59)) (by linarith [hS.1])
  have hsin : (rndB binary64).sin (V.fin (-(6363669871158031 / 2 ^ 59))) = .ok (V.fin (-b64 (Real.sin (6363669871158031 / 2 ^ 59)))) :=
    sin64 _ _ (by rw [Real.sin_neg, b64_neg])
  generalize Real.sin (6363669871158031 / 2 ^ 59) = S at *
  have l1 : 0.0110389833063772 ≤ b64 S := by norm_num at *; linarith
  have l2 : b64 S ≤ 0.012 := by norm_num at *; linarith
  generalize b64 S = T at *
  have eT := b64_err_nonneg (x := T) (by linarith)
  have l3 : 0.0110389833063771 ≤ b64 T := by norm_num at *; linarith
  have l4 : b64 T ≤ 0.013 := by norm_num at *; linarith
  have hm : (rndB binary64).mul ((rndB binary64).neg (V.fin 1)) (V.fin (-T)) = V.fin (b64 T) :=
    vrnd64 (z := -1 * -T) (by rw [neg_mul_neg, one_mul, abs_of_nonneg] <;> norm_num at * <;> linarith)
      (by rw [neg_mul_neg, one_mul])
  generalize b64 T = U at *
  have hcos : (rndB binary64).cos (V.fin r) = .ok (V.fin (b64 (Real.cos r))) := cos64 _ _ rfl
  generalize b64 (Real.cos r) = c at *
  have hc0 : 0 < c := by linarith
  have hq : 1 + 1 / 10 ^ 13 ≤ U / c := by
    rw [le_div_iff₀ hc0]
    norm_num at *
    nlinarith
  have eq := (b64_err_nonneg (x := U / c) (by linarith)).1
  have hbig : 1 < b64 (U / c) := by
    have : (1 + 1 / 10 ^ 13 : ℝ) * (1 - 1 / 2 ^ 53) ≤ U / c * (1 - 1 / 2 ^ 53) := mul_le_mul_of_nonneg_right hq (by norm_num)
    norm_num at *
    linarith
  have hq2 : U / c ≤ 2 := by
    rw [div_le_iff₀ hc0]
    linarith
  have hdiv : (rndB binary64).div (V.fin U) (V.fin c) = .ok (V.fin (b64 (U / c))) := by
    refine (if_neg hc0.ne').trans (congrArg Except.ok (vrnd64 ?_ rfl))
    rw [abs_of_nonneg (by linarith)]
    exact hq2.trans (by norm_num)
  unfold get_azimuth_fast
  refine bind_of_ok (tm_yday_eq (rndB binary64) rfl (utcDT_fields equinox_valid)) (bind_of_ok eq_decl (bind_of_ok eq_ha
    (bind_of_ok halt ?_)))
  rw [rad_zero64, eq_ha_rad, hr]
  refine bind_of_ok cos_zero64 (bind_of_ok hsin (bind_of_ok hcos (bind_of_ok
    ((congrArg (fun t => (rndB binary64).div t (V.fin c)) hm).trans hdiv) (bind_of_error ?_))))
  exact if_neg (by rw [not_and, not_le]; exact fun _ => hbig)

/-- The exact altitude there: the sun is more than half a degree away from the zenith. -/
theorem eq_exact_alt (tp : ℝ) : ∃ alt : ℝ, get_altitude_fast (mathB tp) (num 0) (num 0) (.dt (utcDT equinox)) = .ok (num alt) ∧
    alt ≤ 89.4 := by
  obtain ⟨-, hw, -, -⟩ := eq_cos_alt (v := b64 (Real.arcsin (9006650433187237 / 2 ^ 53))) rfl rfl rfl
  obtain ⟨_, _, alt, _, _, -, -, h, -, -, -, -, h' | h'⟩ := C103_fast_altitude binary64 tp (utcDT equinox) equinox
    (utcDT_fields equinox_valid) 0 0 (by norm_num) (by norm_num)
  · obtain ⟨a, ha, hb, -⟩ := h'
    have e : flt binary64 a = V.fin (b64 (b64 (Real.arcsin (9006650433187237 / 2 ^ 53)) * (8063664102031864 / 2 ^ 47))) :=
      Except.ok.inj (ha.symm.trans eq_alt)
    have e' : a = b64 (b64 (Real.arcsin (9006650433187237 / 2 ^ 53)) * (8063664102031864 / 2 ^ 47)) := V.fin.inj e
    have hb' := abs_le.1 hb
    have := abs_le.1 hw
    refine ⟨alt, h, ?_⟩
    norm_num at *
    linarith
  · have := h'.1.symm.trans eq_alt
    cases this

/-- C164, what holds for every floating-point arithmetic: `get_azimuth_fast` returns an azimuth, close to the exact one modulo 360°,
wherever the exact azimuth is at least 0.00003° / cos(altitude) away from due east and due west. Missing: the sun closer to due east
or west, where `C164_refuted` shows that the call can fail, the sun within a few hundredths of a degree of the zenith or the nadir,
and latitudes beyond 89.9°. -/
theorem C164_fast_azimuth_partial (F : F64) (tp : ℝ) (d : DateTime) (c : Civil) (h : UtcFields d c) (lat lon : ℝ)
    (hlat : |lat| ≤ 89.9) (hlon : |lon| ≤ 360) (alt az : ℝ)
    (halt : get_altitude_fast (mathB tp) (num lat) (num lon) (.dt d) = .ok (num alt))
    (haz : get_azimuth_fast (mathB tp) (num lat) (num lon) (.dt d) = .ok (num az))
    (hcos : 1 / 1000 ≤ Real.cos (rad alt))
    (hew : ∀ k : ℤ, 3 / 10 ^ 5 / Real.cos (rad alt) < |az - 90 - 180 * k|) :
    ∃ az', get_azimuth_fast (rndB F) (flt F lat) (flt F lon) (.dt d) = .ok (flt F az') ∧
      ∃ k : ℤ, |az' - az - 360 * k| ≤ 3 / 10 ^ 5 / Real.cos (rad alt) := by
  have hc : 0 < Real.cos (rad alt) := by linarith
  obtain ⟨az0, h0, h'⟩ := C104_fast_azimuth F tp d c h lat lon hlat hlon alt halt hcos
  have e : az0 = az := num_injective (Except.ok.inj (h0.symm.trans haz))
  subst e
  rcases h' with ⟨az', h1, k, h2⟩ | ⟨-, k, h2⟩
  · refine ⟨az', h1, k, ?_⟩
    rw [le_div_iff₀ hc, mul_comm]
    exact h2
  · have := hew k
    rw [div_lt_iff₀ hc, mul_comm] at this
    exact absurd h2 (not_le.2 this)

/-- The hypotheses hold in Massachusetts at the sample instant: azimuth between 120° and 240°. -/
example (F : F64) : ∃ az', get_azimuth_fast (rndB F) (flt F 42.2) (flt F (-71.1)) (.dt sampleDT) = .ok (flt F az') := by
  obtain ⟨alt, halt, hc⟩ := C104_outside_tropics 0 sampleDT sampleUTC sample_utc 42.2 (-71.1)
    (by rw [abs_of_pos] <;> norm_num) (by rw [abs_of_pos] <;> norm_num)
  have k1 : (ivSim 0).r (.mk 778452599910543078195 778452599910543078196) (V.fin 42.2) := ⟨_, rfl, by norm_num [Iv.one], by norm_num [Iv.one]⟩
  have k2 : (ivSim 0).r (.mk (-1311563503640749119898) (-1311563503640749119897)) (V.fin (-71.1)) := ⟨_, rfl, by norm_num [Iv.one], by norm_num [Iv.one]⟩
  have hw : (ivSim 0).rW (.dt sampleDT) (.dt sampleDT) := ⟨_, rfl, rfl⟩
  have hd : Iv.within (get_azimuth_fast ivB (.mk 778452599910543078195 778452599910543078196)
    (.mk (-1311563503640749119898) (-1311563503640749119897)) (.dt sampleDT)) 120 240 = true := by decide +kernel
  obtain ⟨az, haz, h1, h2⟩ := Iv.within_ok ((ivSim 0).toSim.get_azimuth_fast k1 k2 hw) hd
  have hew : ∀ k : ℤ, 3 / 10 ^ 5 / Real.cos (rad alt) < |az - 90 - 180 * k| := by
    intro k
    have : 3 / 10 ^ 5 / Real.cos (rad alt) ≤ 3 / 100 := by
      rw [div_le_iff₀ (by linarith)]
      linarith
    refine this.trans_lt ?_
    rw [lt_abs]
    push_cast at h1 h2
    rcases le_or_gt k 0 with hk | hk
    · left
      have : (k : ℝ) ≤ 0 := by exact_mod_cast hk
      linarith
    · right
      have : (1 : ℝ) ≤ k := by exact_mod_cast hk
      linarith
  obtain ⟨az', h, -⟩ := C164_fast_azimuth_partial F 0 sampleDT sampleUTC sample_utc 42.2 (-71.1)
    (by rw [abs_of_pos] <;> norm_num) (by norm_num [abs_of_neg]) alt az halt haz hc hew
  exact ⟨az', h⟩

end Verif.Props
