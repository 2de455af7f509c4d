import Verif.Proofs.FastAcc
import Verif.Proofs.FastEval
import Verif.Props.Accuracy
import Verif.Props.Horizon

/-!
# Hour angle of the sun against the fast formula; size of the topocentric corrections
-/

namespace Verif

open Verif.Spec Verif.Props Pysolar Pysolar.Solar Pysolar.Constants Pysolar.Solartime Real

/-! ## Topocentric corrections -/

theorem topo_small (tp : ℝ) {c : Civil} (h : c.Valid) {lat lon elev : ℝ} (h1 : -90 < lat) (h2 : lat < 90)
    (he : |elev| ≤ 50000) :
    |topoDec tp lat lon elev c - decOf c| ≤ 0.011 ∧ |topoH tp lat lon elev c - lhaOf tp lon c| ≤ 0.0066 := by
  obtain ⟨hr0, hr1, hz⟩ := rhoOf_bounds (tp := tp) h1 h2 he
  obtain ⟨hs0, hs1⟩ := sin_par h
  obtain ⟨hcd, hsd⟩ := cos_dec_gt h
  have hdb := decOf_bound h
  have hp := pi_gt_d4
  have hp0 := pi_pos
  set s := sin (rad (parOf c)) with hs
  set rho := rhoOf tp lat elev with hrho
  set z := zetaOf tp lat elev with hzeta
  set H := rad (lhaOf tp lon c) with hH
  have hcH := abs_cos_le_one H
  have hsH := abs_sin_le_one H
  have hrs : |rho * s| ≤ 1.01e-4 := by
    rw [abs_of_nonneg (by positivity)]
    norm_num at *
    nlinarith
  have hzs : |z * s| ≤ 1.01e-4 := by
    rw [abs_mul, abs_of_nonneg hs0]
    norm_num at *
    nlinarith [abs_nonneg z]
  have hrc : |rho * s * cos H| ≤ 1.01e-4 := by
    rw [abs_mul]; exact (mul_le_of_le_one_right (abs_nonneg _) hcH).trans hrs
  have hrsn : |rho * s * sin H| ≤ 1.01e-4 := by
    rw [abs_mul]; exact (mul_le_of_le_one_right (abs_nonneg _) hsH).trans hrs
  have hzc : |z * s * cos H| ≤ 1.01e-4 := by
    rw [abs_mul]; exact (mul_le_of_le_one_right (abs_nonneg _) hcH).trans hzs
  have hx1 : 0.8998 < cos (rad (decOf c)) - rho * s * cos H := by
    have := (abs_le.mp hrc).2
    norm_num at *; linarith
  have hx2 : 0.8998 < cos (rad (decOf c)) - z * s * cos H := by
    have := (abs_le.mp hzc).2
    norm_num at *; linarith
  have hp1 : |rad (psraOf tp lat lon elev c)| ≤ 1.13e-4 := by
    unfold psraOf
    rw [rad_deg, Verif.arg_eq_arctan (by linarith)]
    refine (abs_arctan_le _).trans ?_
    rw [abs_div, abs_neg, ← hs, ← hH, ← hrho, abs_of_pos (by linarith : 0 < cos (rad (decOf c)) - rho * s * cos H),
      div_le_iff₀ (by linarith)]
    norm_num at *
    linarith
  constructor
  · have hcp : 1 - 1e-8 ≤ cos (rad (psraOf tp lat lon elev c)) := by
      have := one_sub_sq_div_two_le_cos (x := rad (psraOf tp lat lon elev c))
      have h' : rad (psraOf tp lat lon elev c) ^ 2 ≤ 1.13e-4 ^ 2 := by
        rw [← sq_abs]; gcongr
      norm_num at *
      linarith
    have hcp1 := cos_le_one (rad (psraOf tp lat lon elev c))
    unfold topoDec
    rw [Verif.arg_eq_arctan (by linarith)]
    have hd : decOf c = deg (arctan (sin (rad (decOf c)) / cos (rad (decOf c)))) := by
      rw [← tan_eq_sin_div_cos, arctan_tan, deg_rad]
      · have := (abs_le.mp hdb).1
        unfold rad; norm_num at *; nlinarith
      · have := (abs_le.mp hdb).2
        unfold rad; norm_num at *; nlinarith
    rw [← hs, ← hH, ← hzeta]
    set Q := cos (rad (psraOf tp lat lon elev c))
    have e : |(sin (rad (decOf c)) - z * s) * Q / (cos (rad (decOf c)) - z * s * cos H)
        - sin (rad (decOf c)) / cos (rad (decOf c))| ≤ 1.85e-4 := by
      rw [div_sub_div _ _ (by linarith) (by linarith), abs_div,
        abs_of_pos (by apply mul_pos <;> linarith : 0 < (cos (rad (decOf c)) - z * s * cos H) * cos (rad (decOf c))),
        div_le_iff₀ (by apply mul_pos <;> linarith)]
      have hden : 0.8098 ≤ (cos (rad (decOf c)) - z * s * cos H) * cos (rad (decOf c)) := by
        norm_num at *; nlinarith
      have hnum : (sin (rad (decOf c)) - z * s) * Q * cos (rad (decOf c))
          - (cos (rad (decOf c)) - z * s * cos H) * sin (rad (decOf c))
          = -(sin (rad (decOf c)) * cos (rad (decOf c)) * (1 - Q)) - z * s * (Q * cos (rad (decOf c)))
            + z * s * cos H * sin (rad (decOf c)) := by ring
      rw [hnum]
      have a1 : |sin (rad (decOf c)) * cos (rad (decOf c)) * (1 - Q)| ≤ 0.42 * 1 * 1e-8 := by
        rw [abs_mul, abs_mul]
        have := abs_cos_le_one (rad (decOf c))
        have : |1 - Q| ≤ 1e-8 := by rw [abs_le]; constructor <;> norm_num at * <;> linarith
        gcongr
      have a2 : |z * s * (Q * cos (rad (decOf c)))| ≤ 1.01e-4 * 1 := by
        rw [abs_mul, abs_mul Q]
        have := abs_cos_le_one (rad (decOf c))
        have hQ := abs_cos_le_one (rad (psraOf tp lat lon elev c))
        gcongr
        exact mul_le_one₀ hQ (abs_nonneg _) this
      have a3 : |z * s * cos H * sin (rad (decOf c))| ≤ 1.01e-4 * 0.42 := by
        rw [abs_mul]
        gcongr
      have := abs_le.mp a1
      have := abs_le.mp a2
      have := abs_le.mp a3
      rw [abs_le]
      norm_num at *
      constructor <;> linarith
    have e' := (lip_arctan _ _).trans e
    nth_rw 3 [hd]
    rw [show ∀ x y : ℝ, deg x - deg y = deg (x - y) from fun x y => by unfold deg; ring]
    unfold deg
    rw [abs_div, abs_mul, abs_of_pos hp0, div_le_iff₀ hp0]
    norm_num at *
    linarith
  · have : topoH tp lat lon elev c - lhaOf tp lon c = -psraOf tp lat lon elev c := by unfold topoH; ring
    rw [this, abs_neg]
    unfold rad at hp1
    rw [abs_div, abs_mul, abs_of_pos hp0, abs_of_pos (by norm_num : (0:ℝ) < 180), div_le_iff₀ (by norm_num)] at hp1
    norm_num at *
    nlinarith

/-! ## Hour angle -/

/-- `a cos b + a' sin b` is at most the length of `(a, a')`. -/
theorem cs_le {a b r : ℝ} (B : ℝ) (hr : 0 ≤ r) (h : a ^ 2 + b ^ 2 ≤ r ^ 2) : |a * cos B + b * sin B| ≤ r := by
  rw [← sq_le_sq₀ (abs_nonneg _) hr, sq_abs]
  have := sin_sq_add_cos_sq B
  nlinarith [sq_nonneg (a * sin B - b * cos B)]

/-- The eccentricity term against the one of the fast formula. -/
theorem ecc_close {A w B : ℝ} (hA1 : 1.9146 ≤ A) (hA2 : A ≤ 1.9147) (hw1 : -15.71 ≤ w) (hw2 : w ≤ -11.48) :
    |-(A * cos (rad (B + w))) + 1.8825 * cos (rad B) + 0.375 * sin (rad B)| ≤ 0.1496 := by
  have hp := pi_gt_d4
  have hp' := pi_lt_d4
  have h1 : 0.2003 ≤ rad (-w) ∧ rad (-w) ≤ 0.2742 := by
    unfold rad; norm_num at *; constructor <;> nlinarith
  have e : rad w = -rad (-w) := by unfold rad; ring
  have : rad (B + w) = rad B - rad (-w) := by unfold rad; ring
  rw [this, cos_sub]
  set x := rad (-w)
  have c1 := one_sub_sq_div_two_le_cos (x := x)
  have c2 := cos_le_one x
  have s1 := sin_ge_cubic (x := x) (by norm_num at *; linarith)
  have s2 := sin_le_quintic (x := x) (by norm_num at *; linarith)
  obtain ⟨hx1, hx2⟩ := h1
  have hx0 : 0 ≤ x := by norm_num at *; linarith
  have hc : 0.9624 ≤ cos x := by
    have : x ^ 2 ≤ 0.2742 ^ 2 := by gcongr
    norm_num at *; linarith
  have hsu : sin x ≤ 0.27081 := by
    have hm : x - x ^ 3 / 6 + x ^ 5 / 120 ≤ 0.27081 := by
      have : x ^ 5 ≤ 0.2742 ^ 5 := by gcongr
      have : x - x ^ 3 / 6 ≤ 0.2742 - 0.2742 ^ 3 / 6 := by
        nlinarith [mul_nonneg (sub_nonneg.2 hx2) (by nlinarith : 0 ≤ 6 - (x ^ 2 + x * 0.2742 + 0.2742 ^ 2))]
      norm_num at *; linarith
    linarith
  have hsl : 0.1968 ≤ sin x := by
    have : x ^ 3 ≤ 0.2742 ^ 3 := by gcongr
    norm_num at *; linarith
  have ha : |1.8825 - A * cos x| ≤ 0.0399 := by
    rw [abs_le]; norm_num at *; constructor <;> nlinarith
  have hb : |0.375 - A * sin x| ≤ 0.1438 := by
    rw [abs_le]; norm_num at *; constructor <;> nlinarith
  have := cs_le (a := 1.8825 - A * cos x) (b := 0.375 - A * sin x) (r := 0.1496) (rad B) (by norm_num) (by
    have a2 : (1.8825 - A * cos x) ^ 2 ≤ 0.0399 ^ 2 := by rw [← sq_abs]; gcongr
    have b2 : (0.375 - A * sin x) ^ 2 ≤ 0.1438 ^ 2 := by rw [← sq_abs]; gcongr
    norm_num at *; linarith)
  refine le_trans (le_of_eq ?_) this
  congr 1
  ring

/-- Longitude of the sun against the angles of the fast formulas. -/
theorem lam_year {c : Civil} (h : c.Valid) (h1 : 1901 ≤ c.year) (h2 : c.year ≤ 2099) :
    ∃ (k : ℤ) (w r : ℝ), -15.71 ≤ w ∧ w ≤ -11.48 ∧ |r| ≤ 0.061 ∧
      lamOf c = muD (jmeOf c) + ampD * cos (rad (360 / 364 * (yday c.date - 81) + w)) + r + 360 * k ∧
      (∃ j : ℤ, |lamOf c - 360 / 365 * (yday c.date - 81) - 360 * j| ≤ 4.12) ∧
      (∃ j : ℤ, |lamOf c - 360 / 364 * (yday c.date - 81) - 360 * j| ≤ 4.89) := by
  obtain ⟨ht, ⟨a1, a2⟩, ⟨b1, b2⟩, ⟨c1, c2⟩⟩ := year_bounds h h1 h2
  obtain ⟨k, hk⟩ := lam_main h ht
  obtain ⟨A1, A2⟩ := ampD_bounds
  have hA := abs_cos_le_one (rad (anoD (jmeOf c)))
  have hAc : |ampD * cos (rad (anoD (jmeOf c)))| ≤ 1.9147 := by
    rw [abs_mul, abs_of_nonneg (by norm_num at *; linarith : 0 ≤ ampD)]
    nlinarith [abs_nonneg (cos (rad (anoD (jmeOf c))))]
  have hcos : cos (rad (anoD (jmeOf c))) = cos (rad (360 / 364 * (yday c.date - 81)
      + (anoD (jmeOf c) - 360 * (c.year - 1999) - 360 / 364 * (yday c.date - 81)))) := by
    have : (360 / 364 * ((yday c.date : ℝ) - 81)
      + (anoD (jmeOf c) - 360 * (c.year - 1999) - 360 / 364 * (yday c.date - 81)))
      = anoD (jmeOf c) + 360 * ((1999 - c.year : ℤ) : ℝ) := by push_cast; ring
    rw [this, cos_rad_add_turns]
  have hk' := abs_le.mp hk
  have hA' := abs_le.mp hAc
  refine ⟨k, anoD (jmeOf c) - 360 * (c.year - 1999) - 360 / 364 * (yday c.date - 81),
    lamOf c - (muD (jmeOf c) + ampD * cos (rad (anoD (jmeOf c)))) - 360 * k, c1, c2, hk, ?_,
    ⟨k + (c.year - 1999), ?_⟩, ⟨k + (c.year - 1999), ?_⟩⟩
  · rw [← hcos]; ring
  · push_cast
    generalize ampD * cos (rad (anoD (jmeOf c))) = E at *
    clear hcos hk hAc hA A1 A2 b1 b2 c1 c2
    generalize (c.year : ℝ) = y at *
    generalize (yday c.date : ℝ) = n at *
    rw [abs_le]
    norm_num at *
    constructor <;> linarith
  · push_cast
    generalize ampD * cos (rad (anoD (jmeOf c))) = E at *
    clear hcos hk hAc hA A1 A2 a1 a2 c1 c2
    generalize (c.year : ℝ) = y at *
    generalize (yday c.date : ℝ) = n at *
    rw [abs_le]
    norm_num at *
    constructor <;> linarith

theorem dec_fast {c : Civil} (h : c.Valid) (h1 : 1901 ≤ c.year) (h2 : c.year ≤ 2099) :
    |decOf c - decF (yday c.date)| ≤ 2.05 := by
  obtain ⟨ht, -⟩ := year_bounds h h1 h2
  obtain ⟨o1, o2⟩ := obl_near h ht
  obtain ⟨-, -, -, -, -, -, -, ⟨j, hj⟩, -⟩ := lam_year h h1 h2
  have := dec_close o1 o2 (betaOf_bound h) hj
  have e : decF (yday c.date) = 23.45 * sin (rad (360 / 365 * ((yday c.date : ℝ) - 81))) := by
    unfold decF rad
    congr 2
    ring
  rw [e]
  exact this

theorem hour_fast (tp : ℝ) {c : Civil} (h : c.Valid) (h1 : 1901 ≤ c.year) (h2 : c.year ≤ 2099) (lon : ℝ) :
    ∃ k : ℤ, |lhaOf tp lon c - haF lon c - 360 * k| ≤ 0.98 := by
  obtain ⟨ht, -⟩ := year_bounds h h1 h2
  obtain ⟨o1, o2⟩ := obl_near h ht
  obtain ⟨k, w, r, w1, w2, hr, hlam, -, ⟨j, hj⟩⟩ := lam_year h h1 h2
  obtain ⟨N, ri, f, η, η', -, -, -, hf, hf0, hf1, hη, hη0, hη1, hjd, hjde⟩ := days_of_year h h1 h2
  have hcd : 0 < cos (rad (decOf c)) := lt_trans (by norm_num) (cos_dec_gt h).1
  obtain ⟨i, hi⟩ := ra_close o1 o2 (betaOf_bound h) hcd (equatorial_eq tp h)
  have hmu := muD_close ht
  have hn : |nutPsi (jceOf c) * cos (oblOf c)| ≤ 0.00581 := by
    rw [abs_mul]
    exact (mul_le_of_le_one_right (abs_nonneg _) (abs_cos_le_one _)).trans (nutPsi_abs h)
  have hA := ampD_bounds
  have hecc := ecc_close (B := 360 / 364 * ((yday c.date : ℝ) - 81)) hA.1 hA.2 w1 w2
  -- the term of the obliquity
  have hobl : |2.466 * sin (2 * rad (lamOf c)) - 2.4675 * sin (2 * rad (360 / 364 * ((yday c.date : ℝ) - 81)))|
      ≤ 0.4226 := by
    have hp' := pi_lt_d4
    have hp0 := pi_pos
    have e : sin (2 * rad (lamOf c)) = sin (2 * rad (lamOf c - 360 * j)) := by
      have : 2 * rad (lamOf c) = 2 * rad (lamOf c - 360 * j) + ((2 * j : ℤ) : ℝ) * (2 * π) := by
        unfold rad; push_cast; ring
      rw [this, sin_add_int_mul_two_pi]
    rw [e]
    have hl := lip_sin (2 * rad (lamOf c - 360 * j)) (2 * rad (360 / 364 * ((yday c.date : ℝ) - 81)))
    have hb : |2 * rad (lamOf c - 360 * j) - 2 * rad (360 / 364 * ((yday c.date : ℝ) - 81))| ≤ 0.1707 := by
      have : 2 * rad (lamOf c - 360 * j) - 2 * rad (360 / 364 * ((yday c.date : ℝ) - 81))
          = 2 * rad (lamOf c - 360 / 364 * (yday c.date - 81) - 360 * j) := by unfold rad; ring
      rw [this, abs_mul, abs_rad]
      unfold rad
      norm_num at *
      nlinarith
    have hs := abs_sin_le_one (2 * rad (360 / 364 * ((yday c.date : ℝ) - 81)))
    have := abs_le.mp (hl.trans hb)
    have := abs_le.mp hs
    rw [abs_le]
    norm_num at *
    constructor <;> linarith
  have heot : eotF (yday c.date) / 4 = 2.4675 * sin (2 * rad (360 / 364 * ((yday c.date : ℝ) - 81)))
      - 1.8825 * cos (rad (360 / 364 * ((yday c.date : ℝ) - 81)))
      - 0.375 * sin (rad (360 / 364 * ((yday c.date : ℝ) - 81))) := by
    have : 2 * π / 364 * ((yday c.date : ℝ) - 81) = rad (360 / 364 * ((yday c.date : ℝ) - 81)) := by
      unfold rad; ring
    unfold eotF
    rw [this]
    norm_num
    ring
  -- sidereal time
  have hjm : jmeOf c = (jdeOf c - 2451545) / 365250 := by unfold jmeOf jceOf; ring
  have hd : |jdOf c - 2451545| ≤ 36900 := by
    have : jdeOf c - 2451545 = 365250 * jmeOf c := by rw [hjm]; ring
    have := abs_le.mp ht
    have := abs_le.mp hη
    rw [abs_le]
    norm_num at *
    constructor <;> linarith
  have hq : |0.000387933 * ((jdOf c - 2451545) / 36525) * ((jdOf c - 2451545) / 36525)
      * (1 - (jdOf c - 2451545) / 36525 / 38710000)| ≤ 0.0004 := by
    have hu : |(jdOf c - 2451545) / 36525| ≤ 1.0103 := by
      rw [abs_div, abs_of_pos (by norm_num : (0:ℝ) < 36525), div_le_iff₀ (by norm_num)]
      norm_num at *; linarith
    generalize (jdOf c - 2451545) / 36525 = u at *
    have h' : |1 - u / 38710000| ≤ 1.0001 := by
      have := abs_le.mp hu
      rw [abs_le]; norm_num at *; constructor <;> linarith
    rw [abs_mul, abs_mul, abs_mul]
    calc |(0.000387933 : ℝ)| * |u| * |u| * |1 - u / 38710000|
        ≤ 0.000387933 * 1.0103 * 1.0103 * 1.0001 := by
          rw [abs_of_pos (by norm_num : (0:ℝ) < 0.000387933)]
          gcongr
      _ ≤ 0.0004 := by norm_num
  have hmean : |280.46061837 + 0.98564736629 * (jdOf c - 2451545) - muD (jmeOf c)| ≤ 0.0071 := by
    have e1 : jdeOf c - 2451545 = jdOf c - 2451545 + (η' - η) := by linarith
    rw [hjm, e1] at hmu
    rw [hjm, e1]
    have := abs_le.mp hmu
    have := abs_le.mp hη
    have := abs_le.mp hd
    rw [abs_le]
    generalize muD _ = m at *
    generalize jdOf c - 2451545 = d at *
    clear hq hobl hecc hA hn hi hcd hf hf0 hf1 hj hlam hr w1 w2 o1 o2 ht heot hmu hη hd
    norm_num at *
    constructor <;> linarith
  have hha : haF lon c = ((c.hour : ℝ) * 60 + c.minute) / 4 + lon + eotF (yday c.date) / 4 - 180 := by
    unfold haF solF; ring
  have hsec : 0 ≤ ((c.second : ℝ) + (c.micro : ℝ) / 1000000) / 240 ∧
      ((c.second : ℝ) + (c.micro : ℝ) / 1000000) / 240 ≤ 0.25 := by
    obtain ⟨-, -, -, -, -, -, s0, s1, m0, m1⟩ := h.2
    have a0 : (0 : ℝ) ≤ c.second := by exact_mod_cast s0
    have a1 : (c.second : ℝ) ≤ 59 := by exact_mod_cast s1
    have b0 : (0 : ℝ) ≤ c.micro := by exact_mod_cast m0
    have b1 : (c.micro : ℝ) ≤ 999999 := by exact_mod_cast m1
    constructor
    · positivity
    · norm_num; linarith
  obtain ⟨k1, hk1⟩ := mod360_eq (280.46061837 + 360.98564736629 * (jdOf c - 2451545)
    + 0.000387933 * ((jdOf c - 2451545) / 36525) * ((jdOf c - 2451545) / 36525)
      * (1 - (jdOf c - 2451545) / 36525 / 38710000))
  obtain ⟨k2, hk2⟩ := mod360_eq (astOf c + lon - raOf tp c)
  refine ⟨N + yday c.date - 1 - k1 - k2 - k + i, ?_⟩
  have key : lhaOf tp lon c - haF lon c - 360 * ((N + yday c.date - 1 - k1 - k2 - k + i : ℤ) : ℝ)
      = (280.46061837 + 0.98564736629 * (jdOf c - 2451545) - muD (jmeOf c))
        + 0.000387933 * ((jdOf c - 2451545) / 36525) * ((jdOf c - 2451545) / 36525)
          * (1 - (jdOf c - 2451545) / 36525 / 38710000)
        + nutPsi (jceOf c) * cos (oblOf c) + 360 * η
        + ((c.second : ℝ) + (c.micro : ℝ) / 1000000) / 240 - r
        + (-(ampD * cos (rad (360 / 364 * ((yday c.date : ℝ) - 81) + w)))
            + 1.8825 * cos (rad (360 / 364 * ((yday c.date : ℝ) - 81)))
            + 0.375 * sin (rad (360 / 364 * ((yday c.date : ℝ) - 81))))
        + (2.466 * sin (2 * rad (lamOf c)) - 2.4675 * sin (2 * rad (360 / 364 * ((yday c.date : ℝ) - 81))))
        + (lamOf c - raOf tp c - 360 * i - 2.466 * sin (2 * rad (lamOf c))) := by
    unfold lhaOf
    rw [hk2]
    unfold astOf
    rw [hk1, hha, heot]
    have e1 : 360.98564736629 * (jdOf c - 2451545)
        = 0.98564736629 * (jdOf c - 2451545) + (360 * N + 360 * yday c.date + 360 * f - 540 + 360 * η) := by
      rw [hjd]; norm_num; ring
    rw [e1, hf]
    push_cast
    linarith [hlam]
  rw [key]
  clear key hk1 hk2 hha heot hf hlam hjd hjde hmu hd hjm hj
  have t1 := abs_le.mp hmean
  have t2 := abs_le.mp hq
  have t3 := abs_le.mp hn
  have t4 := abs_le.mp hη
  have t5 := abs_le.mp hr
  have t6 := abs_le.mp hecc
  have t7 := abs_le.mp hobl
  have t8 := abs_le.mp hi
  clear hmean hq hn hη hr hecc hobl hi
  generalize 280.46061837 + 0.98564736629 * (jdOf c - 2451545) - muD (jmeOf c) = x1 at *
  generalize 0.000387933 * ((jdOf c - 2451545) / 36525) * ((jdOf c - 2451545) / 36525)
          * (1 - (jdOf c - 2451545) / 36525 / 38710000) = x2 at *
  generalize nutPsi (jceOf c) * cos (oblOf c) = x3 at *
  generalize ((c.second : ℝ) + (c.micro : ℝ) / 1000000) / 240 = x4 at *
  generalize -(ampD * cos (rad (360 / 364 * ((yday c.date : ℝ) - 81) + w)))
            + 1.8825 * cos (rad (360 / 364 * ((yday c.date : ℝ) - 81)))
            + 0.375 * sin (rad (360 / 364 * ((yday c.date : ℝ) - 81))) = x5 at *
  generalize 2.466 * sin (2 * rad (lamOf c)) - 2.4675 * sin (2 * rad (360 / 364 * ((yday c.date : ℝ) - 81))) = x6 at *
  generalize lamOf c - raOf tp c - 360 * i - 2.466 * sin (2 * rad (lamOf c)) = x7 at *
  clear hf0 hf1 hη0 hη1 hcd hA ht o1 o2 w1 w2
  rw [abs_le]
  norm_num at *
  constructor <;> linarith

end Verif
