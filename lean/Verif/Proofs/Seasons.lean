import Verif.Proofs.FastHour
import Verif.Proofs.SkyAngles

/-!
# Longitude and declination of the sun by calendar date, 1901 to 2099
-/

namespace Verif

open Verif.Spec Verif.Props Pysolar Pysolar.Solar Pysolar.Constants Pysolar.Solartime Real

/-- Day number of a date counted in a common year. -/
def commonDay (c : Civil) : ℤ := daysBeforeMonthTable c.month + c.day

theorem leap_of_year {y : ℤ} (h1 : 1901 ≤ y) (h2 : y ≤ 2099) : isLeap y = true ↔ y % 4 = 0 := by
  unfold isLeap
  simp only [Bool.and_eq_true, decide_eq_true_eq, Bool.or_eq_true]
  constructor
  · exact fun h => h.1
  · intro h
    refine ⟨h, ?_⟩
    by_cases hh : y % 100 = 0
    · right; omega
    · left; exact hh

/-- Mean longitude `m` and true longitude of the sun by day number. -/
theorem lam_season {c : Civil} (h : c.Valid) (h1 : 1901 ≤ c.year) (h2 : c.year ≤ 2099) :
    ∃ (k : ℤ) (m w q : ℝ), lamOf c = m + ampD * cos (rad (m + w)) + q + 360 * k ∧
      -14.36 ≤ w ∧ w ≤ -11.52 ∧ |q| ≤ 0.061 ∧
      0.98564736 * commonDay c - 81.776 ≤ m ∧ m ≤ 0.98564736 * commonDay c - 78.276 ∧
      (3 ≤ c.month → 0.98564736 * commonDay c - 81.529 ≤ m) := by
  obtain ⟨ht, -⟩ := year_bounds h h1 h2
  obtain ⟨N, r, f, η, η', hr0, hr3, hN, -, hf0, hf1, -, hη0, hη1, -, hj⟩ := days_of_year h h1 h2
  obtain ⟨k, hk⟩ := lam_main h ht
  have hleap := leap_of_year h1 h2
  have hn : ∃ a : ℤ, 0 ≤ a ∧ a ≤ 4 ∧ 4 * yday c.date + r = 4 * commonDay c + a ∧ (3 ≤ c.month → 1 ≤ a) := by
    have hmod : (r + c.year) % 4 = 0 := by omega
    have hx : 2 < c.month ∧ c.year % 4 = 0 ∧ yday c.date = commonDay c + 1 ∨
        ¬ (2 < c.month ∧ c.year % 4 = 0) ∧ yday c.date = commonDay c := by
      have hyd : yday c.date = daysBeforeMonth c.year c.month + c.day := rfl
      rw [hyd]
      unfold commonDay daysBeforeMonth
      by_cases hc : c.month > 2 ∧ isLeap c.year = true
      · rw [if_pos hc]
        exact .inl ⟨hc.1, hleap.1 hc.2, by ring⟩
      · rw [if_neg hc, add_zero]
        exact .inr ⟨fun h' => hc ⟨h'.1, hleap.2 h'.2⟩, rfl⟩
    refine ⟨4 * yday c.date + r - 4 * commonDay c, ?_, ?_, by ring, ?_⟩ <;> omega
  obtain ⟨a, ha0, ha4, hna, ham⟩ := hn
  have hN' : (4 : ℝ) * N = 1461 * (c.year - 2000) + r := by exact_mod_cast hN
  have hna' : (4 : ℝ) * yday c.date + r = 4 * commonDay c + a := by exact_mod_cast hna
  have a0 : (0 : ℝ) ≤ a := by exact_mod_cast ha0
  have a4 : (a : ℝ) ≤ 4 := by exact_mod_cast ha4
  have am : 3 ≤ c.month → (1 : ℝ) ≤ a := fun hm => by exact_mod_cast ham hm
  have y1 : (1901 : ℝ) ≤ c.year := by exact_mod_cast h1
  have y2 : (c.year : ℝ) ≤ 2099 := by exact_mod_cast h2
  have mu := abs_le.mp (muD_close ht)
  have an := abs_le.mp (anoD_close ht)
  have e' : 365250 * jmeOf c = N + yday c.date + f - 1.5 + η' := by
    rw [← hj]; unfold jmeOf jceOf; ring
  have hcos : cos (rad (anoD (jmeOf c))) = cos (rad (muD (jmeOf c) - 360 * (c.year - 1999)
      + (anoD (jmeOf c) - muD (jmeOf c)))) := by
    have : muD (jmeOf c) - 360 * ((c.year : ℝ) - 1999) + (anoD (jmeOf c) - muD (jmeOf c))
        = anoD (jmeOf c) + 360 * ((1999 - c.year : ℤ) : ℝ) := by push_cast; ring
    rw [this, cos_rad_add_turns]
  have ht' := abs_le.mp ht
  refine ⟨k + (c.year - 1999), muD (jmeOf c) - 360 * (c.year - 1999), anoD (jmeOf c) - muD (jmeOf c),
    lamOf c - (muD (jmeOf c) + ampD * cos (rad (anoD (jmeOf c)))) - 360 * k, ?_, ?_, ?_, hk, ?_, ?_, ?_⟩
  · rw [← hcos]; push_cast; ring
  all_goals
    clear hcos hk hj hna hN hleap
    generalize (c.year : ℝ) = Y at *
    generalize (yday c.date : ℝ) = n at *
    generalize (commonDay c : ℝ) = n0 at *
    generalize (r : ℝ) = r' at *
    generalize (N : ℝ) = N' at *
    generalize (a : ℝ) = a' at *
    generalize jmeOf c = t at *
    try intro hm
    try have am := am hm
    norm_num at *
    linarith

/-! ## Signs and sizes of the declination -/

/-- Bounds of the sine of the declination by the sine of the longitude. -/
theorem decOf_z {c : Civil} (h : c.Valid) (ht : |jmeOf c| ≤ 0.101) :
    ∃ s, 0.3973 ≤ s ∧ s ≤ 0.4 ∧ |(rotX (oblOf c) (sph (lamOf c) (betaOf c))).z - s * sin (rad (lamOf c))| ≤ 3e-5 := by
  obtain ⟨o1, o2⟩ := obl_near h ht
  have hb := betaOf_bound h
  have hp := pi_gt_d4
  have hp' := pi_lt_d4
  have hx1 : 0.4087 ≤ rad (oblOf c) := by unfold rad; norm_num at *; nlinarith
  have hx2 : rad (oblOf c) ≤ 0.4096 := by unfold rad; norm_num at *; nlinarith
  refine ⟨sin (rad (oblOf c)), ?_, ?_, ?_⟩
  · have := sin_ge_cubic (x := rad (oblOf c)) (by norm_num at *; linarith)
    have hm : (0.4087 : ℝ) - 0.4087 ^ 3 / 6 ≤ rad (oblOf c) - rad (oblOf c) ^ 3 / 6 := by
      generalize rad (oblOf c) = x at *
      norm_num at *
      nlinarith [mul_nonneg (sub_nonneg.2 hx1) (by nlinarith : 0 ≤ 6 - (x ^ 2 + x * (4087/10000) + (4087/10000) ^ 2))]
    norm_num at *
    linarith
  · have := sin_le_quintic (x := rad (oblOf c)) (by norm_num at *; linarith)
    have h5 : rad (oblOf c) ^ 5 ≤ 0.4096 ^ 5 := by
      have : 0 ≤ rad (oblOf c) := by norm_num at *; linarith
      gcongr
    have h3 : (0.4087 : ℝ) ^ 3 ≤ rad (oblOf c) ^ 3 := by gcongr
    norm_num at *
    linarith
  · have hbr : |rad (betaOf c)| ≤ 1.75e-5 := by
      rw [abs_rad]; unfold rad; norm_num at *; nlinarith
    have c1 := one_sub_sq_div_two_le_cos (x := rad (betaOf c))
    have c2 := cos_le_one (rad (betaOf c))
    have s1 := abs_sin_le (rad (betaOf c))
    have hq : rad (betaOf c) ^ 2 ≤ 1e-8 := by
      rw [← sq_abs]
      calc |rad (betaOf c)| ^ 2 ≤ (1.75e-5) ^ 2 := by gcongr
        _ ≤ 1e-8 := by norm_num
    have e : (rotX (oblOf c) (sph (lamOf c) (betaOf c))).z - sin (rad (oblOf c)) * sin (rad (lamOf c))
        = -(sin (rad (oblOf c)) * sin (rad (lamOf c)) * (1 - cos (rad (betaOf c))))
          + cos (rad (oblOf c)) * sin (rad (betaOf c)) := by
      simp only [rotX, sph]; ring
    rw [e]
    have a1 : |sin (rad (oblOf c)) * sin (rad (lamOf c)) * (1 - cos (rad (betaOf c)))| ≤ 1e-8 := by
      rw [abs_mul, abs_mul]
      have := abs_sin_le_one (rad (oblOf c))
      have := abs_sin_le_one (rad (lamOf c))
      have : |1 - cos (rad (betaOf c))| ≤ 1e-8 := by
        rw [abs_le]; norm_num at *; constructor <;> linarith
      calc _ ≤ (1 : ℝ) * 1 * 1e-8 := by gcongr
        _ = _ := by norm_num
    have a2 : |cos (rad (oblOf c)) * sin (rad (betaOf c))| ≤ 1.75e-5 := by
      rw [abs_mul]
      exact (mul_le_of_le_one_left (abs_nonneg _) (abs_cos_le_one _)).trans (s1.trans hbr)
    have a1 := abs_le.mp a1
    have a2 := abs_le.mp a2
    rw [abs_le]
    norm_num at *
    constructor <;> linarith

theorem deg_arcsin_pos {z : ℝ} (hz : 5e-4 ≤ z) (h1 : z ≤ 1) : 0.028 ≤ deg (arcsin z) := by
  have h : z ≤ arcsin z := by
    have h0 : 0 ≤ arcsin z := arcsin_nonneg.2 (by norm_num at *; linarith)
    calc z = sin (arcsin z) := (sin_arcsin (by norm_num at *; linarith) h1).symm
      _ ≤ arcsin z := sin_le h0
  have hp := pi_lt_d4
  have hp0 := pi_pos
  unfold deg
  rw [le_div_iff₀ hp0]
  norm_num at *
  linarith

theorem deg_arcsin_big {z : ℝ} (hz : 0.3879 ≤ z) : 22.811 ≤ deg (arcsin z) := by
  have hp := pi_lt_d4
  have hp' := pi_gt_d4
  have hp0 := pi_pos
  have hx1 : 0.3981 ≤ rad 22.811 := by unfold rad; norm_num at *; linarith
  have hx2 : rad 22.811 ≤ 0.39814 := by unfold rad; norm_num at *; linarith
  have hs : sin (rad 22.811) ≤ 0.3879 := by
    have := sin_le_quintic (x := rad 22.811) (by norm_num at *; linarith)
    have h5 : rad 22.811 ^ 5 ≤ 0.39814 ^ 5 := by
      have : 0 ≤ rad 22.811 := by norm_num at *; linarith
      gcongr
    have h3 : (0.3981 : ℝ) ^ 3 ≤ rad 22.811 ^ 3 := by gcongr
    norm_num at *
    linarith
  have h2 : rad 22.811 ≤ arcsin z := by
    calc rad 22.811 = arcsin (sin (rad 22.811)) := by
          rw [arcsin_sin] <;> norm_num at * <;> linarith
      _ ≤ arcsin z := monotone_arcsin (hs.trans hz)
  have : deg (rad 22.811) ≤ deg (arcsin z) := deg_mono h2
  rwa [deg_rad] at this

theorem sin_rad_near {x : ℝ} (h1 : 0.08 ≤ x) (h2 : x ≤ 179.92) : 0.00139 ≤ sin (rad x) := by
  have hp := pi_gt_d4
  have hp0 := pi_pos
  have hm : sin (rad 0.08) ≤ sin (rad x) := by
    by_cases hx : x ≤ 90
    · apply sin_le_sin_of_le_of_le_pi_div_two
      · unfold rad; norm_num; linarith
      · unfold rad; norm_num at *; nlinarith
      · unfold rad; gcongr
    · rw [← sin_pi_sub (rad x)]
      apply sin_le_sin_of_le_of_le_pi_div_two
      · unfold rad; norm_num; linarith
      · unfold rad; norm_num at *; nlinarith
      · unfold rad; norm_num at *; nlinarith
  have h3 := sin_ge_cubic (x := rad 0.08) (by unfold rad; positivity)
  have hx1 : 0.001396 ≤ rad 0.08 := by unfold rad; norm_num at *; linarith
  have hp' := pi_lt_d4
  have hx2 : rad 0.08 ≤ 0.0014 := by unfold rad; norm_num at *; linarith
  have h5 : rad 0.08 ^ 3 ≤ 0.0014 ^ 3 := by
    have : 0 ≤ rad 0.08 := by unfold rad; positivity
    gcongr
  norm_num at *
  linarith

theorem sin_rad_solstice {x : ℝ} (h1 : 77.9 ≤ x) (h2 : x ≤ 102.2) : 0.9773 ≤ sin (rad x) := by
  have hp := pi_gt_d4
  have hp' := pi_lt_d4
  have e : sin (rad x) = cos (rad (x - 90)) := by
    rw [rad_sub, rad_90, cos_sub_pi_div_two]
  rw [e]
  have c1 := one_sub_sq_div_two_le_cos (x := rad (x - 90))
  have : |rad (x - 90)| ≤ 0.213 := by
    unfold rad
    rw [abs_le]
    norm_num at *
    constructor <;> nlinarith
  have hq : rad (x - 90) ^ 2 ≤ 0.213 ^ 2 := by rw [← sq_abs]; gcongr
  norm_num at *
  linarith

/-! ## The four seasons -/

theorem cos_rad_ge {x : ℝ} (h1 : -16.5 ≤ x) (h2 : x ≤ 16.5) : 0.958 ≤ cos (rad x) := by
  have hp := pi_gt_d4
  have hp' := pi_lt_d4
  have c1 := one_sub_sq_div_two_le_cos (x := rad x)
  have : |rad x| ≤ 0.28799 := by
    unfold rad
    rw [abs_le]
    norm_num at *
    constructor <;> nlinarith
  have hq : rad x ^ 2 ≤ 0.28799 ^ 2 := by rw [← sq_abs]; gcongr
  norm_num at *
  linarith

/-- From 22 March to 20 September. -/
theorem dec_summer {c : Civil} (h : c.Valid) (h1 : 1901 ≤ c.year) (h2 : c.year ≤ 2099)
    (hm : 3 ≤ c.month) (hd1 : 81 ≤ commonDay c) (hd2 : commonDay c ≤ 263) : 0.028 ≤ decOf c := by
  obtain ⟨ht, -⟩ := year_bounds h h1 h2
  obtain ⟨k, m, w, q, hl, w1, w2, hq, -, m2, m1⟩ := lam_season h h1 h2
  have m1 := m1 hm
  have d1 : (81 : ℝ) ≤ commonDay c := by exact_mod_cast hd1
  have d2 : (commonDay c : ℝ) ≤ 263 := by exact_mod_cast hd2
  generalize (commonDay c : ℝ) = n0 at *
  obtain ⟨A1, A2⟩ := ampD_bounds
  have hq := abs_le.mp hq
  have c1 := neg_one_le_cos (rad (m + w))
  have c2 := cos_le_one (rad (m + w))
  have hlo : 0.08 ≤ m + ampD * cos (rad (m + w)) + q := by
    by_cases hx : m ≤ 2.2
    · have := cos_rad_ge (x := m + w) (by norm_num at *; linarith) (by norm_num at *; linarith)
      norm_num at *
      nlinarith
    · norm_num at *
      nlinarith
  have hhi : m + ampD * cos (rad (m + w)) + q ≤ 179.92 := by
    by_cases hx : 177.94 ≤ m
    · have e : cos (rad (m + w)) = -cos (rad (m + w - 180)) := by
        have : rad (m + w) = rad (m + w - 180) + π := by unfold rad; ring
        rw [this, cos_add_pi]
      have := cos_rad_ge (x := m + w - 180) (by norm_num at *; linarith) (by norm_num at *; linarith)
      rw [e]
      rw [e] at c1 c2
      norm_num at *
      nlinarith
    · norm_num at *
      nlinarith
  have hs := sin_rad_near hlo hhi
  rw [← sin_rad_add_turns _ k, ← hl] at hs
  obtain ⟨s, s1, s2, hz⟩ := decOf_z h ht
  have hz := (abs_le.mp hz).1
  have hu := (unit_z ((rotX_dot (oblOf c) _ _).trans (sph_unit (lamOf c) (betaOf c)))).2
  unfold decOf
  refine deg_arcsin_pos ?_ hu
  norm_num at *
  nlinarith

/-- From 25 September to 31 December and from 1 January to 18 March. -/
theorem dec_winter {c : Civil} (h : c.Valid) (h1 : 1901 ≤ c.year) (h2 : c.year ≤ 2099)
    (hd : 3 ≤ c.month ∧ 268 ≤ commonDay c ∧ commonDay c ≤ 365 ∨ 1 ≤ commonDay c ∧ commonDay c ≤ 77) :
    decOf c ≤ -0.028 := by
  obtain ⟨ht, -⟩ := year_bounds h h1 h2
  obtain ⟨k, m, w, q, hl, w1, w2, hq, m0, m2, m1⟩ := lam_season h h1 h2
  obtain ⟨A1, A2⟩ := ampD_bounds
  have hq := abs_le.mp hq
  have c1 := neg_one_le_cos (rad (m + w))
  have c2 := cos_le_one (rad (m + w))
  have key : ∃ j : ℤ, 0.08 ≤ m + ampD * cos (rad (m + w)) + q + 180 - 360 * j ∧
      m + ampD * cos (rad (m + w)) + q + 180 - 360 * j ≤ 179.92 := by
    rcases hd with ⟨hm, hd1, hd2⟩ | ⟨hd1, hd2⟩
    · have m1 := m1 hm
      have d1 : (268 : ℝ) ≤ commonDay c := by exact_mod_cast hd1
      have d2 : (commonDay c : ℝ) ≤ 365 := by exact_mod_cast hd2
      generalize (commonDay c : ℝ) = n0 at *
      refine ⟨1, ?_, ?_⟩ <;> push_cast <;> clear hl <;> norm_num at * <;> nlinarith
    · have d1 : (1 : ℝ) ≤ commonDay c := by exact_mod_cast hd1
      have d2 : (commonDay c : ℝ) ≤ 77 := by exact_mod_cast hd2
      generalize (commonDay c : ℝ) = n0 at *
      refine ⟨0, ?_, ?_⟩ <;> push_cast <;> clear hl m1 <;> norm_num at * <;> nlinarith
  obtain ⟨j, hlo, hhi⟩ := key
  have hs := sin_rad_near hlo hhi
  have e : m + ampD * cos (rad (m + w)) + q + 180 - 360 * j = lamOf c + 180 + 360 * ((-k - j : ℤ) : ℝ) := by
    rw [hl]; push_cast; ring
  rw [e, sin_rad_add_turns, show rad (lamOf c + 180) = rad (lamOf c) + π by unfold rad; ring, sin_add_pi] at hs
  obtain ⟨s, s1, s2, hz⟩ := decOf_z h ht
  have hz := (abs_le.mp hz).2
  have hu := (unit_z ((rotX_dot (oblOf c) _ _).trans (sph_unit (lamOf c) (betaOf c)))).1
  have := deg_arcsin_pos (z := -(rotX (oblOf c) (sph (lamOf c) (betaOf c))).z) (by norm_num at *; nlinarith)
    (by linarith)
  rw [arcsin_neg] at this
  unfold decOf
  unfold deg at *
  rw [neg_mul, neg_div] at this
  linarith

/-- From 12 June to 30 June. -/
theorem dec_june {c : Civil} (h : c.Valid) (h1 : 1901 ≤ c.year) (h2 : c.year ≤ 2099)
    (hm : 3 ≤ c.month) (hd1 : 163 ≤ commonDay c) (hd2 : commonDay c ≤ 181) : 22.811 ≤ decOf c := by
  obtain ⟨ht, -⟩ := year_bounds h h1 h2
  obtain ⟨k, m, w, q, hl, w1, w2, hq, -, m2, m1⟩ := lam_season h h1 h2
  have m1 := m1 hm
  have d1 : (163 : ℝ) ≤ commonDay c := by exact_mod_cast hd1
  have d2 : (commonDay c : ℝ) ≤ 181 := by exact_mod_cast hd2
  generalize (commonDay c : ℝ) = n0 at *
  obtain ⟨A1, A2⟩ := ampD_bounds
  have hq := abs_le.mp hq
  have c2 := cos_le_one (rad (m + w))
  have hp0 := pi_pos
  have c0 : 0 ≤ cos (rad (m + w)) := by
    apply cos_nonneg_of_neg_pi_div_two_le_of_le <;> unfold rad <;> norm_num at * <;> nlinarith
  have hs := sin_rad_solstice (x := m + ampD * cos (rad (m + w)) + q) (by clear hl; norm_num at *; nlinarith)
    (by clear hl; norm_num at *; nlinarith)
  rw [← sin_rad_add_turns _ k, ← hl] at hs
  obtain ⟨s, s1, s2, hz⟩ := decOf_z h ht
  have hz := (abs_le.mp hz).1
  unfold decOf
  refine deg_arcsin_big ?_
  norm_num at *
  nlinarith

/-- From 13 December to 30 December. -/
theorem dec_december {c : Civil} (h : c.Valid) (h1 : 1901 ≤ c.year) (h2 : c.year ≤ 2099)
    (hm : 3 ≤ c.month) (hd1 : 347 ≤ commonDay c) (hd2 : commonDay c ≤ 364) : decOf c ≤ -22.811 := by
  obtain ⟨ht, -⟩ := year_bounds h h1 h2
  obtain ⟨k, m, w, q, hl, w1, w2, hq, -, m2, m1⟩ := lam_season h h1 h2
  have m1 := m1 hm
  have d1 : (347 : ℝ) ≤ commonDay c := by exact_mod_cast hd1
  have d2 : (commonDay c : ℝ) ≤ 364 := by exact_mod_cast hd2
  generalize (commonDay c : ℝ) = n0 at *
  obtain ⟨A1, A2⟩ := ampD_bounds
  have hq := abs_le.mp hq
  have c2 := neg_one_le_cos (rad (m + w))
  have hp0 := pi_pos
  have c0 : cos (rad (m + w)) ≤ 0 := by
    apply cos_nonpos_of_pi_div_two_le_of_le <;> unfold rad <;> norm_num at * <;> nlinarith
  have hs := sin_rad_solstice (x := m + ampD * cos (rad (m + w)) + q - 180) (by clear hl; norm_num at *; nlinarith)
    (by clear hl; norm_num at *; nlinarith)
  have e : m + ampD * cos (rad (m + w)) + q - 180 = lamOf c - 180 + 360 * ((-k : ℤ) : ℝ) := by
    rw [hl]; push_cast; ring
  rw [e, sin_rad_add_turns, show rad (lamOf c - 180) = rad (lamOf c) - π by unfold rad; ring, sin_sub_pi] at hs
  obtain ⟨s, s1, s2, hz⟩ := decOf_z h ht
  have hz := (abs_le.mp hz).2
  have := deg_arcsin_big (z := -(rotX (oblOf c) (sph (lamOf c) (betaOf c))).z) (by norm_num at *; nlinarith)
  rw [arcsin_neg] at this
  unfold decOf
  unfold deg at *
  rw [neg_mul, neg_div] at this
  linarith

end Verif
