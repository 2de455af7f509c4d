import Verif.Proofs.SkyMotion

/-!
# The computed sun moves steadily: rates without an additive constant
-/

namespace Verif

open Verif.Spec Verif.Props Pysolar Pysolar.Solar Pysolar.Constants Pysolar.Solartime Real

/-! ## Nutation -/

/-- Rates of the fundamental arguments in degrees per century, within 80 centuries of J2000. -/
def fundamentalRates : List ℚ := [445268, 36002, 477202, 483204, 1936]

/-- Rate of the combination of the fundamental arguments of one row of multipliers. -/
def combineRate (y : List ℚ) : ℚ := (List.zipWith (fun (r n : ℚ) => r * |n|) fundamentalRates y).sum

/-- Rate of a sum over the rows of the tables. -/
def nutRate (sel : ℚ × ℚ × ℚ × ℚ → ℚ × ℚ) : List (ℚ × ℚ × ℚ × ℚ) → List (List ℚ) → ℚ
  | r :: rs, y :: ys => |(sel r).2| + (|(sel r).1| + |(sel r).2| * 80) * (combineRate y / 57) + nutRate sel rs ys
  | _, _ => 0

theorem cubic_lip {c0 c1 c2 c3 m S T : ℝ} (hS : |S| ≤ 80) (hT : |T| ≤ 80)
    (hm : |c1| + |c2| * 160 + |c3| * 19200 ≤ m) :
    |c0 + c1 * T + c2 * T ^ 2 + c3 * T ^ 3 - (c0 + c1 * S + c2 * S ^ 2 + c3 * S ^ 3)| ≤ m * |T - S| := by
  have e : c0 + c1 * T + c2 * T ^ 2 + c3 * T ^ 3 - (c0 + c1 * S + c2 * S ^ 2 + c3 * S ^ 3)
      = (c1 + c2 * (T + S) + c3 * (T ^ 2 + T * S + S ^ 2)) * (T - S) := by ring
  rw [e, abs_mul]
  refine mul_le_mul_of_nonneg_right (le_trans ?_ hm) (abs_nonneg _)
  have h1 : |T + S| ≤ 160 := (abs_add_le _ _).trans (by linarith)
  have h2 : |T ^ 2 + T * S + S ^ 2| ≤ 19200 := by
    refine (abs_add_le _ _).trans ?_
    have := abs_add_le (T ^ 2) (T * S)
    rw [abs_pow, abs_mul] at this
    rw [abs_pow]
    have h0 := abs_nonneg T
    have h0' := abs_nonneg S
    nlinarith
  refine (abs_add_le _ _).trans (add_le_add ((abs_add_le _ _).trans (add_le_add le_rfl ?_)) ?_)
  · rw [abs_mul]; gcongr
  · rw [abs_mul]; gcongr

theorem zip_lip {D : ℝ} (l : List (ℝ × ℝ × ℚ)) (h : ∀ p ∈ l, |p.1 - p.2.1| ≤ (p.2.2 : ℝ) * D) (y : List ℚ) :
    |(List.zipWith (fun x (n : ℚ) => x * (n : ℝ)) (l.map (·.1)) y).sum
        - (List.zipWith (fun x (n : ℚ) => x * (n : ℝ)) (l.map (·.2.1)) y).sum|
      ≤ (((List.zipWith (fun (r n : ℚ) => r * |n|) (l.map (·.2.2)) y).sum : ℚ) : ℝ) * D := by
  induction l generalizing y with
  | nil => simp
  | cons p l ih =>
    cases y with
    | nil => simp
    | cons n y =>
      have h1 := h p (by simp)
      have h2 := ih (fun q hq => h q (by simp [hq])) y
      simp only [List.map_cons, List.zipWith_cons_cons, List.sum_cons, Rat.cast_add, Rat.cast_mul, Rat.cast_abs]
      rw [show ∀ a b a' b' : ℝ, a + b - (a' + b') = (a - a') + (b - b') by intros; ring, add_mul]
      refine (abs_add_le _ _).trans (add_le_add ?_ h2)
      rw [← sub_mul, abs_mul]
      calc |p.1 - p.2.1| * |(n : ℝ)| ≤ (p.2.2 * D) * |(n : ℝ)| := by gcongr
        _ = p.2.2 * |(n : ℝ)| * D := by ring

theorem combine_lip {S T : ℝ} (hS : |S| ≤ 80) (hT : |T| ≤ 80) (y : List ℚ) :
    |combine T y - combine S y| ≤ (combineRate y : ℝ) * |T - S| := by
  refine zip_lip [(moonElongation T, moonElongation S, 445268), (sunAnomaly T, sunAnomaly S, 36002),
    (moonAnomaly T, moonAnomaly S, 477202), (moonLatitudeArg T, moonLatitudeArg S, 483204),
    (moonNode T, moonNode S, 1936)] ?_ y
  simp only [List.mem_cons, List.not_mem_nil, or_false]
  rintro p (rfl | rfl | rfl | rfl | rfl)
  · have := cubic_lip (c0 := 297.85036) (c1 := 445267.111480) (c2 := -0.0019142) (c3 := 1 / 189474) (m := 445268) hS hT
      (by norm_num [abs_of_pos, abs_of_neg])
    refine le_trans (le_of_eq ?_) (this.trans (by norm_num))
    congr 1
    unfold moonElongation
    ring
  · have := cubic_lip (c0 := 357.52772) (c1 := 35999.050340) (c2 := -0.0001603) (c3 := -1 / 300000) (m := 36002) hS hT
      (by norm_num [abs_of_pos, abs_of_neg])
    refine le_trans (le_of_eq ?_) (this.trans (by norm_num))
    congr 1
    unfold sunAnomaly
    ring
  · have := cubic_lip (c0 := 134.96298) (c1 := 477198.867398) (c2 := 0.0086972) (c3 := 1 / 56250) (m := 477202) hS hT
      (by norm_num [abs_of_pos, abs_of_neg])
    refine le_trans (le_of_eq ?_) (this.trans (by norm_num))
    congr 1
    unfold moonAnomaly
    ring
  · have := cubic_lip (c0 := 93.27191) (c1 := 483202.017538) (c2 := -0.0036825) (c3 := 1 / 327270) (m := 483204) hS hT
      (by norm_num [abs_of_pos, abs_of_neg])
    refine le_trans (le_of_eq ?_) (this.trans (by norm_num))
    congr 1
    unfold moonLatitudeArg
    ring
  · have := cubic_lip (c0 := 125.04452) (c1 := -1934.136261) (c2 := 0.0020708) (c3 := 1 / 450000) (m := 1936) hS hT
      (by norm_num [abs_of_pos, abs_of_neg])
    refine le_trans (le_of_eq ?_) (this.trans (by norm_num))
    congr 1
    unfold moonNode
    ring

theorem nut_lip {S T : ℝ} (hS : |S| ≤ 80) (hT : |T| ≤ 80) (sel : ℚ × ℚ × ℚ × ℚ → ℚ × ℚ) (f : ℝ → ℝ)
    (hf : ∀ x, |f x| ≤ 1) (hl : ∀ x y, |f x - f y| ≤ |x - y|) (l : List (ℚ × ℚ × ℚ × ℚ)) (m : List (List ℚ)) :
    |(List.zipWith (fun r y => (((sel r).1 : ℝ) + ((sel r).2 : ℝ) * T) * f (rad (combine T y))) l m).sum
      - (List.zipWith (fun r y => (((sel r).1 : ℝ) + ((sel r).2 : ℝ) * S) * f (rad (combine S y))) l m).sum|
      ≤ (nutRate sel l m : ℝ) * |T - S| := by
  induction l generalizing m with
  | nil => simp [nutRate]
  | cons r l ih =>
    cases m with
    | nil => simp [nutRate]
    | cons y m =>
      simp only [List.zipWith_cons_cons, List.sum_cons, nutRate]
      push_cast
      have ihm := ih m
      generalize (List.zipWith (fun r y => (((sel r).1 : ℝ) + ((sel r).2 : ℝ) * T) * f (rad (combine T y))) l m).sum = A
        at ihm ⊢
      generalize (List.zipWith (fun r y => (((sel r).1 : ℝ) + ((sel r).2 : ℝ) * S) * f (rad (combine S y))) l m).sum = A'
        at ihm ⊢
      rw [add_sub_add_comm (_ * _) A, add_mul _ (nutRate sel l m : ℝ)]
      refine (abs_add_le _ _).trans (add_le_add ?_ ihm)
      have hr : |rad (combine T y) - rad (combine S y)| ≤ (combineRate y : ℝ) / 57 * |T - S| := by
        rw [← rad_sub]
        unfold rad
        rw [abs_div, abs_mul, abs_of_pos pi_pos, abs_of_pos (by norm_num : (0 : ℝ) < 180), div_le_iff₀ (by norm_num)]
        have h1 := combine_lip hS hT y
        have h2 := pi_lt_d4
        have h3 := pi_pos
        have h0 := (abs_nonneg _).trans h1
        calc _ ≤ (combineRate y : ℝ) * |T - S| * π := by gcongr
          _ ≤ (combineRate y : ℝ) * |T - S| * (180 / 57) := by
            gcongr
            norm_num at *
            linarith
          _ = _ := by ring
      have h1 : |((sel r).1 : ℝ) + ((sel r).2 : ℝ) * T| ≤ |((sel r).1 : ℝ)| + |((sel r).2 : ℝ)| * 80 := by
        refine (abs_add_le _ _).trans (add_le_add le_rfl ?_)
        rw [abs_mul]; gcongr
      have e : (((sel r).1 : ℝ) + ((sel r).2 : ℝ) * T) * f (rad (combine T y))
          - (((sel r).1 : ℝ) + ((sel r).2 : ℝ) * S) * f (rad (combine S y))
          = ((sel r).2 : ℝ) * (T - S) * f (rad (combine S y))
            + (((sel r).1 : ℝ) + ((sel r).2 : ℝ) * T) * (f (rad (combine T y)) - f (rad (combine S y))) := by ring
      rw [e, add_mul |((sel r).2 : ℝ)|]
      refine (abs_add_le _ _).trans (add_le_add ?_ ?_)
      · rw [abs_mul, abs_mul]
        exact mul_le_of_le_one_right (by positivity) (hf _)
      · rw [abs_mul, mul_assoc]
        exact mul_le_mul h1 ((hl _ _).trans hr) (abs_nonneg _) (by positivity)

theorem nutRate_long : nutRate (fun r => (r.1, r.2.1)) nutation_coefficients aberration_sin_terms ≤ 565000000 := by
  decide +kernel
theorem nutRate_obl : nutRate (fun r => (r.2.2.1, r.2.2.2)) nutation_coefficients aberration_sin_terms ≤ 249000000 := by
  decide +kernel


theorem lat_lip8 : lip 8 heliocentric_latitude_coeffs ≤ 26000000 := by decide +kernel
theorem dist_lip8 : lip 8 sun_earth_distance_coeffs ≤ 18990000000 := by decide +kernel

/-- Nutation, distance, latitude and obliquity, against the elapsed ephemeris days. -/
theorem slow_lip {c c' : Civil} (h : c.Valid) (h' : c'.Valid) {E : ℝ} (hE : |jdeOf c' - jdeOf c| = E) :
    |nutPsi (jceOf c') - nutPsi (jceOf c)| ≤ 4.3e-4 * E ∧ |nutEps (jceOf c') - nutEps (jceOf c)| ≤ 1.9e-4 * E ∧
      |sunDist (jmeOf c') - sunDist (jmeOf c)| ≤ 5.2e-4 * E ∧ |betaOf c' - betaOf c| ≤ 4.1e-5 * E ∧
      |oblOf c' - oblOf c| ≤ 2e-4 * E := by
  have hE0 : 0 ≤ E := hE ▸ abs_nonneg _
  have ht : |jceOf c' - jceOf c| = E / 36525 := by
    rw [← hE, show jceOf c' - jceOf c = (jdeOf c' - jdeOf c) / 36525 by unfold jceOf; ring, abs_div,
      abs_of_pos (by norm_num : (0 : ℝ) < 36525)]
  have hm : |jmeOf c' - jmeOf c| = E / 365250 := by
    rw [show jmeOf c' - jmeOf c = (jceOf c' - jceOf c) / 10 by unfold jmeOf; ring, abs_div, ht,
      abs_of_pos (by norm_num : (0 : ℝ) < 10)]
    ring
  have h1 := nut_lip (abs_jceOf h) (abs_jceOf h') (fun r => (r.1, r.2.1)) sin abs_sin_le_one
    Real.abs_sin_sub_sin_le nutation_coefficients aberration_sin_terms
  have h2 := nut_lip (abs_jceOf h) (abs_jceOf h') (fun r => (r.2.2.1, r.2.2.2)) cos abs_cos_le_one
    Real.abs_cos_sub_cos_le nutation_coefficients aberration_sin_terms
  have r1 : ((nutRate (fun r => (r.1, r.2.1)) nutation_coefficients aberration_sin_terms : ℚ) : ℝ) ≤ 565000000 := by
    exact_mod_cast nutRate_long
  have r2 : ((nutRate (fun r => (r.2.2.1, r.2.2.2)) nutation_coefficients aberration_sin_terms : ℚ) : ℝ)
      ≤ 249000000 := by
    exact_mod_cast nutRate_obl
  have n1 : |nutPsi (jceOf c') - nutPsi (jceOf c)| ≤ 4.3e-4 * E := by
    unfold nutPsi nutationLongitude
    rw [← sub_div, abs_div, abs_of_pos (by norm_num : (0 : ℝ) < 36000000), div_le_iff₀ (by norm_num)]
    refine h1.trans ((mul_le_mul_of_nonneg_right r1 (abs_nonneg _)).trans ?_)
    rw [ht]
    norm_num
    linarith
  have n2 : |nutEps (jceOf c') - nutEps (jceOf c)| ≤ 1.9e-4 * E := by
    unfold nutEps nutationObliquity
    rw [← sub_div, abs_div, abs_of_pos (by norm_num : (0 : ℝ) < 36000000), div_le_iff₀ (by norm_num)]
    refine h2.trans ((mul_le_mul_of_nonneg_right r2 (abs_nonneg _)).trans ?_)
    rw [ht]
    norm_num
    linarith
  refine ⟨n1, n2, ?_, ?_, ?_⟩
  · have := vsop_lip (c := 8) (by exact_mod_cast abs_jmeOf h) (by exact_mod_cast abs_jmeOf h') sun_earth_distance_coeffs
    have r : ((lip 8 sun_earth_distance_coeffs : ℚ) : ℝ) ≤ 18990000000 := by exact_mod_cast dist_lip8
    unfold sunDist
    rw [← sub_div, abs_div, abs_of_pos (by norm_num : (0 : ℝ) < 100000000), div_le_iff₀ (by norm_num)]
    refine this.trans ((mul_le_mul_of_nonneg_right r (abs_nonneg _)).trans ?_)
    rw [hm]
    norm_num
    linarith
  · have := vsop_lip (c := 8) (by exact_mod_cast abs_jmeOf h) (by exact_mod_cast abs_jmeOf h')
      heliocentric_latitude_coeffs
    have r : ((lip 8 heliocentric_latitude_coeffs : ℚ) : ℝ) ≤ 26000000 := by exact_mod_cast lat_lip8
    have := this.trans (mul_le_mul_of_nonneg_right r (abs_nonneg _))
    rw [hm] at this
    have hp := pi_gt_d2
    unfold betaOf helioLat
    rw [show ∀ x y : ℝ, -deg x - -deg y = -deg (x - y) from fun x y => by unfold deg; ring, abs_neg, ← sub_div]
    unfold deg
    rw [abs_div, abs_mul, abs_div, abs_of_pos pi_pos, abs_of_pos (by norm_num : (0 : ℝ) < 180),
      abs_of_pos (by norm_num : (0 : ℝ) < 100000000), div_le_iff₀ pi_pos]
    norm_num at *
    nlinarith
  · have j1 := abs_le.mp (abs_jmeOf h)
    have j2 := abs_le.mp (abs_jmeOf h')
    have hM := meanObl_lip (u := jmeOf c' / 10) (v := jmeOf c / 10) (by rw [abs_le]; constructor <;> linarith)
      (by rw [abs_le]; constructor <;> linarith)
    rw [← sub_div, abs_div, hm, abs_of_pos (by norm_num : (0 : ℝ) < 10)] at hM
    have hM := abs_le.mp hM
    have n2 := abs_le.mp n2
    unfold oblOf
    rw [abs_le]
    norm_num at *
    constructor <;> linarith

/-- The apparent longitude. -/
theorem lam_rate {c c' : Civil} (h : c.Valid) (h' : c'.Valid) {E : ℝ} (hE : jdeOf c' - jdeOf c = E) (hE0 : 0 ≤ E) :
    ∃ k : ℤ, 0.925 * E ≤ lamOf c' - lamOf c - 360 * k ∧ lamOf c' - lamOf c - 360 * k ≤ 1.046 * E := by
  have hd : 365250 * (jmeOf c' - jmeOf c) = E := by rw [← hE]; unfold jmeOf jceOf; ring
  obtain ⟨n1, -, n3, -, -⟩ := slow_lip h h' (E := E) (by rw [hE, abs_of_nonneg hE0])
  obtain ⟨k, h1, h2⟩ := glon_rate (a := 0.926) (b := 1.045) (c := 8) (by exact_mod_cast abs_jmeOf h)
    (by exact_mod_cast abs_jmeOf h') (by linarith) lonRest_lip8 (by norm_num) (by norm_num) (by norm_num) (by norm_num)
  rw [hd] at h1 h2
  have r1 := sunDist_bounds (abs_jmeOf h)
  have r2 := sunDist_bounds (abs_jmeOf h')
  have ab : |-20.4898 / (3600 * sunDist (jmeOf c')) - -20.4898 / (3600 * sunDist (jmeOf c))| ≤ 4e-6 * E := by
    generalize sunDist (jmeOf c') = R' at *
    generalize sunDist (jmeOf c) = R at *
    have p : 0 < R := by linarith [r1.1]
    have p' : 0 < R' := by linarith [r2.1]
    have e : -20.4898 / (3600 * R') - -20.4898 / (3600 * R) = 20.4898 * (R' - R) / (3600 * (R * R')) := by
      field_simp
      ring
    have hRR : 0.94 ≤ R * R' := by norm_num at *; nlinarith
    rw [e, abs_div, abs_mul, abs_of_pos (by positivity : 0 < 3600 * (R * R')), div_le_iff₀ (by positivity),
      abs_of_pos (by norm_num : (0 : ℝ) < 20.4898)]
    norm_num at *
    nlinarith
  have n1 := abs_le.mp n1
  have ab := abs_le.mp ab
  refine ⟨-k, ?_⟩
  unfold lamOf
  push_cast
  norm_num at *
  constructor <;> linarith

/-! ## Right ascension and declination -/

/-- The equatorial direction. -/
theorem equatorial_step (tp : ℝ) {c c' : Civil} (h : c.Valid) (h' : c'.Valid) {E : ℝ} (hE : jdeOf c' - jdeOf c = E)
    (hE0 : 0 ≤ E) :
    angleBetween (sph (raOf tp c') (decOf c')) (sph (raOf tp c) (decOf c)) ≤ 1.0463 * E := by
  obtain ⟨k, l1, l2⟩ := lam_rate h h' hE hE0
  obtain ⟨-, -, -, b, o⟩ := slow_lip h h' (E := E) (by rw [hE, abs_of_nonneg hE0])
  rw [equatorial_eq tp h, equatorial_eq tp h']
  have hl : |lamOf c' - lamOf c - 360 * k| ≤ 1.046 * E := by
    rw [abs_le]; constructor <;> norm_num at * <;> linarith
  have a1 : angleBetween (rotX (oblOf c') (sph (lamOf c') (betaOf c'))) (rotX (oblOf c) (sph (lamOf c) (betaOf c)))
      ≤ |oblOf c' - oblOf c| + (|betaOf c' - betaOf c| + |lamOf c' - lamOf c - 360 * k|) := by
    refine (angleBetween_triangle _ (rotX (oblOf c) (sph (lamOf c') (betaOf c'))) _).trans ?_
    gcongr
    · exact angleBetween_rotX_angle _ _ (sph_unit _ _)
    · rw [angleBetween_rotX]
      refine (angleBetween_triangle _ (sph (lamOf c') (betaOf c)) _).trans (add_le_add (angleBetween_sph_lat _ _ _) ?_)
      rw [← sph_add_turns (lamOf c) (betaOf c) k]
      refine (angleBetween_sph_lon _ _ _).trans (le_of_eq ?_)
      congr 1
      ring
  norm_num at *
  linarith

theorem dec_step (tp : ℝ) {c c' : Civil} (h : c.Valid) (h' : c'.Valid) {E : ℝ} (hE : jdeOf c' - jdeOf c = E)
    (hE0 : 0 ≤ E) : |decOf c' - decOf c| ≤ 1.0463 * E := by
  have := altitude_diff (sph_unit (raOf tp c') (decOf c')) (sph_unit (raOf tp c) (decOf c))
  refine le_trans (le_of_eq ?_) (this.trans (equatorial_step tp h h' hE hE0))
  rw [equatorial_eq tp h, equatorial_eq tp h']
  rfl

theorem cos_obl {c : Civil} (h : c.Valid) : 0.912 ≤ cos (rad (oblOf c)) ∧ cos (rad (oblOf c)) ≤ 0.925 := by
  have ho := oblOf_bounds h
  have hp := pi_lt_d4
  have hp0 := pi_gt_d4
  have hr : rad (oblOf c) ≤ 0.41891 := by
    unfold rad
    rw [div_le_iff₀ (by norm_num)]
    norm_num at *
    nlinarith
  have hr0 : π / 8 ≤ rad (oblOf c) := by
    unfold rad
    rw [le_div_iff₀ (by norm_num)]
    nlinarith
  constructor
  · have := one_sub_sq_div_two_le_cos (x := rad (oblOf c))
    have h0 : 0 ≤ rad (oblOf c) := by linarith [pi_pos]
    norm_num at *
    nlinarith
  · have h1 : cos (rad (oblOf c)) ≤ cos (π / 8) :=
      cos_le_cos_of_nonneg_of_le_pi (by positivity) (by norm_num at *; linarith) hr0
    refine h1.trans ?_
    rw [cos_pi_div_eight, div_le_iff₀ (by norm_num), Real.sqrt_le_left (by norm_num)]
    have : √2 ≤ 1.415 := by rw [Real.sqrt_le_left (by norm_num)]; norm_num
    norm_num at *
    linarith

/-- Cross product of the projections of two directions on the equator. -/
theorem cross_bound {cb sb cb' sb' cl sl cl' sl' ce se ce' se' A B L : ℝ} (hcb : |cb| ≤ 1) (hcb' : |cb'| ≤ 1)
    (hcl : |cl| ≤ 1) (hsl' : |sl'| ≤ 1) (hse' : |se'| ≤ 1) (hcl' : |cl'| ≤ 1) (hsb : |sb| ≤ 1.8e-5)
    (h1 : |ce' - ce| ≤ A) (h2 : |se' - se| ≤ A) (h3 : |cb' - cb| ≤ B) (h4 : |sb' - sb| ≤ B) (h5 : |cl' - cl| ≤ L) :
    |cb * cl * (ce' * (cb' * sl') - se' * sb') - cb' * cl' * (ce * (cb * sl) - se * sb)
      - cb * cb' * ce * (sl' * cl - cl' * sl)| ≤ A + B + 1.8e-5 * (L + B + A) := by
  have e : cb * cl * (ce' * (cb' * sl') - se' * sb') - cb' * cl' * (ce * (cb * sl) - se * sb)
      - cb * cb' * ce * (sl' * cl - cl' * sl)
      = cb * cb' * cl * sl' * (ce' - ce) + (-(cb * cl * se') * (sb' - sb)
        + sb * (cb * se' * (cl' - cl) + cl' * se' * (cb' - cb) - cb' * cl' * (se' - se))) := by ring
  have m : ∀ {x y : ℝ}, |x| ≤ 1 → |y| ≤ 1 → |x * y| ≤ 1 := fun hx hy => by
    rw [abs_mul]; exact mul_le_one₀ hx (abs_nonneg _) hy
  have t : ∀ {x y z : ℝ}, |x| ≤ 1 → |y| ≤ z → |x * y| ≤ z := fun hx hy => by
    rw [abs_mul]; exact (mul_le_of_le_one_left (abs_nonneg _) hx).trans hy
  rw [e]
  have b1 : |cb * cb' * cl * sl' * (ce' - ce)| ≤ A := t (m (m (m hcb hcb') hcl) hsl') h1
  have b2 : |-(cb * cl * se') * (sb' - sb)| ≤ B := t (by rw [abs_neg]; exact m (m hcb hcl) hse') h4
  have b3 : |cb * se' * (cl' - cl) + cl' * se' * (cb' - cb) - cb' * cl' * (se' - se)| ≤ L + B + A := by
    refine (abs_sub _ _).trans (add_le_add ((abs_add_le _ _).trans (add_le_add ?_ ?_)) ?_)
    · exact t (m hcb hse') h5
    · exact t (m hcl' hse') h3
    · exact t (m hcb' hcl') h2
  refine (abs_add_le _ _).trans ?_
  rw [add_assoc A B]
  refine add_le_add b1 ((abs_add_le _ _).trans (add_le_add b2 ?_))
  rw [abs_mul]
  exact mul_le_mul hsb b3 (abs_nonneg _) (by norm_num)

/-- A small angle from its sine. -/
theorem angle_of_sin {y a b : ℝ} (hc : 0 < cos y) (ha : 0 ≤ a) (h1 : a ≤ sin y) (h2 : sin y ≤ b) (hb : b ≤ 0.021) :
    ∃ k : ℤ, a ≤ y - k * (2 * π) ∧ y - k * (2 * π) ≤ b * 1.0003 := by
  have hp := pi_lt_d4
  have hp0 := pi_pos
  have hs0 : 0 ≤ sin y := ha.trans h1
  set z := arcsin (sin y) with hz
  have hz0 : 0 ≤ z := arcsin_nonneg.mpr hs0
  have hz1 : z ≤ π / 2 := arcsin_le_pi_div_two _
  have hsz : sin z = sin y := sin_arcsin (neg_one_le_sin _) (sin_le_one _)
  have hcz : cos z = cos y := by
    rw [hz, cos_arcsin, ← cos_sq', Real.sqrt_sq hc.le]
  have hj := mul_le_sin hz0 hz1
  have hz2 : z ≤ 0.033 := by
    have : 2 / π * z ≤ 0.021 := hj.trans (by rw [hsz]; exact h2.trans hb)
    rw [div_mul_eq_mul_div, div_le_iff₀ hp0] at this
    norm_num at *
    linarith
  have hk : ∃ k : ℤ, y - k * (2 * π) = z := by
    have e : (y : Real.Angle) = (z : Real.Angle) := Real.Angle.cos_sin_inj hcz.symm hsz.symm
    obtain ⟨k, hk⟩ := Real.Angle.angle_eq_iff_two_pi_dvd_sub.mp e
    exact ⟨k, by linarith⟩
  obtain ⟨k, hk⟩ := hk
  refine ⟨k, ?_, ?_⟩
  · rw [hk]
    exact h1.trans (hsz ▸ sin_le hz0)
  · rw [hk]
    rcases hz0.eq_or_lt with h0 | h0
    · rw [← h0]
      have : 0 ≤ b := hs0.trans h2
      positivity
    · have := sin_gt_sub_cube h0
      rw [hsz] at this
      have hzz : z ^ 2 ≤ 0.033 ^ 2 := by gcongr
      norm_num at *
      nlinarith

/-- The estimate of the sine of the difference of right ascension. -/
theorem ra_numeric {κ E X P C Q Y err : ℝ} (hκ0 : 0 < κ) (hκ1 : κ ≤ 0.017454) (hE0 : 0 ≤ E) (hE1 : E ≤ 1)
    (l1 : 0.925 * E ≤ X) (l2 : X ≤ 1.046 * E) (hcb : 1 - 1e-9 ≤ P) (hcb1 : P ≤ 1) (o1 : 0.912 ≤ C) (o2 : C ≤ 0.925)
    (hdd : 0.81 ≤ Q) (hdd1 : Q ≤ 1) (hcross : |Q * sin Y - P * C * sin (κ * X)| ≤ err)
    (herr : err ≤ κ * E * 2.62e-4) :
    0.843 * (κ * E) ≤ sin Y ∧ sin Y ≤ 1.1949 * (κ * E) := by
  have hc2 := abs_le.mp (hcross.trans herr)
  have hX0 : 0 ≤ X := le_trans (by positivity) l1
  have hx0 : 0 ≤ κ * X := by positivity
  have hx1 : κ * X ≤ 0.01826 := by
    have : X ≤ 1.046 := by norm_num at *; linarith
    calc κ * X ≤ 0.017454 * 1.046 := mul_le_mul hκ1 this hX0 (by norm_num)
      _ ≤ _ := by norm_num
  have hs1 : sin (κ * X) ≤ κ * X := sin_le hx0
  have hs2 : κ * X * (1 - 8.4e-5) ≤ sin (κ * X) := by
    rcases hx0.eq_or_lt with h0 | h0
    · rw [← h0]; simp
    · have h1 := sin_gt_sub_cube h0
      have h2 : (κ * X) ^ 2 ≤ 0.01826 ^ 2 := by gcongr
      generalize κ * X = x at *
      have h3 : x * x ^ 2 ≤ x * 0.01826 ^ 2 := by gcongr
      clear hcross hc2 herr
      norm_num at *
      nlinarith
  have hs0 : 0 ≤ sin (κ * X) := by
    refine le_trans ?_ hs2
    exact mul_nonneg hx0 (by norm_num)
  have hKE : 0 ≤ κ * E := by positivity
  have hC0 : 0 ≤ C := le_trans (by norm_num) o1
  have hP0 : 0 ≤ P := le_trans (by norm_num) hcb
  have hQ0 : 0 < Q := lt_of_lt_of_le (by norm_num) hdd
  have hup : P * C * sin (κ * X) ≤ 0.925 * (κ * (1.046 * E)) := by
    have h1 : P * C ≤ 1 * 0.925 := mul_le_mul hcb1 o2 hC0 (by norm_num)
    have h2 : sin (κ * X) ≤ κ * (1.046 * E) := hs1.trans (by gcongr)
    rw [one_mul] at h1
    exact mul_le_mul h1 h2 hs0 (by norm_num)
  have hlo : 0.8434 * (κ * E) ≤ P * C * sin (κ * X) := by
    have h1 : (1 - 1e-9) * 0.912 ≤ P * C := mul_le_mul hcb o1 (by norm_num) hP0
    have h2 : κ * (0.925 * E) * (1 - 8.4e-5) ≤ sin (κ * X) := by
      refine le_trans ?_ hs2
      gcongr
    have h3 : (1 - 1e-9) * 0.912 * (κ * (0.925 * E) * (1 - 8.4e-5)) ≤ P * C * sin (κ * X) := by
      refine mul_le_mul h1 h2 ?_ (by positivity)
      have : (0:ℝ) ≤ 1 - 8.4e-5 := by norm_num
      positivity
    refine le_trans ?_ h3
    rw [show (1 - 1e-9) * 0.912 * (κ * (0.925 * E) * (1 - 8.4e-5))
      = ((1 - 1e-9) * 0.912 * 0.925 * (1 - 8.4e-5)) * (κ * E) by ring]
    gcongr
    norm_num
  generalize P * C * sin (κ * X) = M at *
  generalize sin Y = S at *
  have e1 : 0.925 * (κ * (1.046 * E)) = 0.96755 * (κ * E) := by ring
  have e2 : κ * E * 2.62e-4 = 2.62e-4 * (κ * E) := by ring
  rw [e1] at hup
  rw [e2] at hc2
  generalize κ * E = K at *
  have hQY1 : 0.843 * K ≤ Q * S := by
    have := hc2.1
    norm_num at *; linarith
  have hQY2 : Q * S ≤ 0.96782 * K := by
    have := hc2.2
    norm_num at *; linarith
  have hS0 : 0 ≤ S := nonneg_of_mul_nonneg_right (hQY1.trans' (by positivity)) hQ0
  refine ⟨hQY1.trans (mul_le_of_le_one_left hS0 hdd1), ?_⟩
  have : 0.81 * S ≤ Q * S := by gcongr
  norm_num at *
  linarith

/-- Right ascension. -/
theorem ra_rate (tp : ℝ) {c c' : Civil} (h : c.Valid) (h' : c'.Valid) {E : ℝ} (hE : jdeOf c' - jdeOf c = E)
    (hE0 : 0 ≤ E) (hE1 : E ≤ 1) :
    ∃ k : ℤ, 0.842 * E ≤ raOf tp c' - raOf tp c - 360 * k ∧ raOf tp c' - raOf tp c - 360 * k ≤ 1.196 * E := by
  obtain ⟨k, l1, l2⟩ := lam_rate h h' hE hE0
  obtain ⟨-, -, -, hb, ho⟩ := slow_lip h h' (E := E) (by rw [hE, abs_of_nonneg hE0])
  have hstep := equatorial_step tp h h' hE hE0
  have hp := pi_lt_d4
  have hpg := pi_gt_d4
  have hp0 := pi_pos
  -- radians
  set κ := π / 180 with hκ
  have hκ0 : 0 < κ := by positivity
  have hκ1 : κ ≤ 0.017454 := by rw [hκ, div_le_iff₀ (by norm_num)]; norm_num at *; linarith
  have hrad : ∀ x, rad x = κ * x := fun x => by unfold rad; rw [hκ]; ring
  set X := lamOf c' - lamOf c - 360 * k with hX
  have hx0 : 0 ≤ κ * X := by
    have : 0 ≤ X := by norm_num at *; linarith
    positivity
  have hx1 : κ * X ≤ 0.01826 := by
    have : X ≤ 1.046 := by norm_num at *; linarith
    calc κ * X ≤ 0.017454 * 1.046 := by
          apply mul_le_mul hκ1 this _ (by norm_num)
          norm_num at *; linarith
      _ ≤ _ := by norm_num
  have hlam : rad (lamOf c') - rad (lamOf c) = κ * X + k * (2 * π) := by
    rw [hrad, hrad, hX, hκ]; ring
  have hsinX : sin (rad (lamOf c')) * cos (rad (lamOf c)) - cos (rad (lamOf c')) * sin (rad (lamOf c))
      = sin (κ * X) := by
    rw [← sin_sub, hlam, sin_add_int_mul_two_pi]
  have hcl : |cos (rad (lamOf c')) - cos (rad (lamOf c))| ≤ κ * (1.046 * E) := by
    have e : cos (rad (lamOf c')) = cos (rad (lamOf c) + κ * X) := by
      rw [← cos_add_int_mul_two_pi (rad (lamOf c) + κ * X) k]
      congr 1
      linarith
    rw [e]
    refine (Real.abs_cos_sub_cos_le _ _).trans ?_
    rw [add_sub_cancel_left, abs_of_nonneg hx0]
    gcongr
  have hlip : ∀ x y d : ℝ, |x - y| ≤ d → |rad x - rad y| ≤ κ * d := fun x y d hd => by
    rw [hrad, hrad, ← mul_sub, abs_mul, abs_of_pos hκ0]
    gcongr
  have hO := hlip _ _ _ ho
  have hB := hlip _ _ _ hb
  have hb0 := hlip (betaOf c) 0 0.001 (by rw [sub_zero]; exact betaOf_bound h)
  have hb0' := hlip (betaOf c') 0 0.001 (by rw [sub_zero]; exact betaOf_bound h')
  have hr0 : rad 0 = 0 := by unfold rad; ring
  rw [hr0, sub_zero] at hb0 hb0'
  have hsb : |sin (rad (betaOf c))| ≤ 1.8e-5 := by
    refine (abs_sin_le _).trans (hb0.trans ?_)
    norm_num at *; linarith
  have hcross := cross_bound (abs_cos_le_one (rad (betaOf c))) (abs_cos_le_one (rad (betaOf c')))
    (abs_cos_le_one (rad (lamOf c))) (abs_sin_le_one (rad (lamOf c')))
    (abs_sin_le_one (rad (oblOf c'))) (abs_cos_le_one (rad (lamOf c'))) hsb
    ((Real.abs_cos_sub_cos_le _ _).trans hO) ((Real.abs_sin_sub_sin_le _ _).trans hO)
    ((Real.abs_cos_sub_cos_le _ _).trans hB) ((Real.abs_sin_sub_sin_le _ _).trans hB) hcl (sl := sin (rad (lamOf c)))
  rw [hsinX] at hcross
  -- the equatorial directions
  have q := equatorial_eq tp h
  have q' := equatorial_eq tp h'
  have qx := congrArg Vec3.x q
  have qy := congrArg Vec3.y q
  have qx' := congrArg Vec3.x q'
  have qy' := congrArg Vec3.y q'
  simp only [sph, rotX] at qx qy qx' qy'
  have hsin : cos (rad (decOf c)) * cos (rad (decOf c')) * sin (rad (raOf tp c') - rad (raOf tp c))
      = cos (rad (betaOf c)) * cos (rad (lamOf c))
          * (cos (rad (oblOf c')) * (cos (rad (betaOf c')) * sin (rad (lamOf c')))
            - sin (rad (oblOf c')) * sin (rad (betaOf c')))
        - cos (rad (betaOf c')) * cos (rad (lamOf c'))
          * (cos (rad (oblOf c)) * (cos (rad (betaOf c)) * sin (rad (lamOf c)))
            - sin (rad (oblOf c)) * sin (rad (betaOf c))) := by
    rw [← qx, ← qx', ← qy, ← qy', sin_sub]
    ring
  rw [← hsin] at hcross
  obtain ⟨hd, hsd⟩ := cos_dec_gt h
  obtain ⟨hd', hsd'⟩ := cos_dec_gt h'
  have hd1 := cos_le_one (rad (decOf c))
  have hd1' := cos_le_one (rad (decOf c'))
  obtain ⟨o1, o2⟩ := cos_obl h
  -- cosine positive
  have hcosdot : cos (rad (decOf c)) * cos (rad (decOf c')) * cos (rad (raOf tp c') - rad (raOf tp c))
      = (sph (raOf tp c') (decOf c')).dot (sph (raOf tp c) (decOf c)) - sin (rad (decOf c')) * sin (rad (decOf c)) := by
    simp only [sph, Vec3.dot, cos_sub]
    ring
  have hdot : 0.5 ≤ (sph (raOf tp c') (decOf c')).dot (sph (raOf tp c) (decOf c)) := by
    by_contra hlt
    rw [angleBetween_unit (sph_unit _ _) (sph_unit _ _)] at hstep
    have h3 : arccos 0.5 ≤ arccos ((sph (raOf tp c') (decOf c')).dot (sph (raOf tp c) (decOf c))) :=
      antitone_arccos (le_of_lt (not_le.mp hlt))
    have h4 : arccos 0.5 = π / 3 := by
      rw [show (0.5 : ℝ) = cos (π / 3) by rw [cos_pi_div_three]; norm_num, arccos_cos (by positivity) (by linarith)]
    have h5 := deg_mono h3
    rw [h4, show deg (π / 3) = 60 by unfold deg; field_simp; norm_num] at h5
    norm_num at *
    linarith
  have hzz : sin (rad (decOf c')) * sin (rad (decOf c)) ≤ 0.42 * 0.42 := by
    refine (le_abs_self _).trans ?_
    rw [abs_mul]
    gcongr
  have hdd : 0.81 ≤ cos (rad (decOf c)) * cos (rad (decOf c')) :=
    le_trans (by norm_num) (mul_le_mul hd.le hd'.le (by norm_num) (by linarith))
  have hdd1 : cos (rad (decOf c)) * cos (rad (decOf c')) ≤ 1 := mul_le_one₀ hd1 (by linarith) hd1'
  have hcpos : 0 < cos (rad (raOf tp c') - rad (raOf tp c)) := by
    have : 0 < cos (rad (decOf c)) * cos (rad (decOf c')) * cos (rad (raOf tp c') - rad (raOf tp c)) := by
      rw [hcosdot]; norm_num at *; linarith
    exact pos_of_mul_pos_right this (by linarith)
  -- size of the sine
  have hcb : 1 - 1e-9 ≤ cos (rad (betaOf c)) * cos (rad (betaOf c')) := by
    have g : ∀ x, |rad x| ≤ κ * 0.001 → 1 - 2e-10 ≤ cos (rad x) := fun x hx => by
      have := one_sub_sq_div_two_le_cos (x := rad x)
      have h2 : rad x ^ 2 ≤ (κ * 0.001) ^ 2 := by rw [← sq_abs]; gcongr
      have h3 : (κ * 0.001) ^ 2 ≤ (0.017454 * 0.001) ^ 2 := by gcongr
      norm_num at *
      linarith
    refine le_trans ?_ (mul_le_mul (g _ hb0) (g _ hb0') (by norm_num) (le_trans (by norm_num) (g _ hb0)))
    norm_num
  have hcb1 : cos (rad (betaOf c)) * cos (rad (betaOf c')) ≤ 1 :=
    (le_abs_self _).trans (by rw [abs_mul]; exact mul_le_one₀ (abs_cos_le_one _) (abs_nonneg _) (abs_cos_le_one _))
  have herr : κ * (2e-4 * E) + κ * (4.1e-5 * E) + 1.8e-5 * (κ * (1.046 * E) + κ * (4.1e-5 * E) + κ * (2e-4 * E))
      ≤ κ * E * 2.62e-4 := by
    rw [show κ * (2e-4 * E) + κ * (4.1e-5 * E) + 1.8e-5 * (κ * (1.046 * E) + κ * (4.1e-5 * E) + κ * (2e-4 * E))
      = κ * E * (2e-4 + 4.1e-5 + 1.8e-5 * (1.046 + 4.1e-5 + 2e-4)) by ring]
    gcongr
    norm_num
  obtain ⟨s1, s2⟩ := ra_numeric hκ0 hκ1 hE0 hE1 l1 l2 hcb hcb1 o1 o2 hdd hdd1 hcross herr
  obtain ⟨m, m1, m2⟩ := angle_of_sin hcpos (by positivity) s1 s2
    (by
      have : κ * E ≤ 0.017454 * 1 := mul_le_mul hκ1 hE1 hE0 (by norm_num)
      calc 1.1949 * (κ * E) ≤ 1.1949 * (0.017454 * 1) := by gcongr
        _ ≤ _ := by norm_num)
  have hYk : rad (raOf tp c') - rad (raOf tp c) - m * (2 * π) = κ * (raOf tp c' - raOf tp c - 360 * m) := by
    rw [hrad, hrad, hκ]; ring
  rw [hYk] at m1 m2
  refine ⟨m, le_of_mul_le_mul_left (m1.trans' ?_) hκ0, le_of_mul_le_mul_left (m2.trans ?_) hκ0⟩
  · rw [show κ * (0.842 * E) = 0.842 * (κ * E) by ring]
    gcongr
    norm_num
  · rw [show κ * (1.196 * E) = 1.196 * (κ * E) by ring, show 1.1949 * (κ * E) * 1.0003 = 1.1949 * 1.0003 * (κ * E) by ring]
    gcongr
    norm_num

/-- Apparent sidereal time. -/
theorem ast_rate {c c' : Civil} (h : c.Valid) (h' : c'.Valid) {E : ℝ} (hE : jdeOf c' - jdeOf c = E)
    (hJ : jdOf c' - jdOf c = E) (hE0 : 0 ≤ E) :
    ∃ k : ℤ, |astOf c' - astOf c - 360 * k - 360.98564736629 * E| ≤ 4.5e-4 * E := by
  have j1 := jdOf_bounds h
  have j2 := jdOf_bounds h'
  obtain ⟨n, -, -, -, ho⟩ := slow_lip h h' (E := E) (by rw [hE, abs_of_nonneg hE0])
  obtain ⟨k1, hk1⟩ := mod360_eq (280.46061837 + 360.98564736629 * (jdOf c - 2451545)
    + 0.000387933 * ((jdOf c - 2451545) / 36525) * ((jdOf c - 2451545) / 36525)
      * (1 - (jdOf c - 2451545) / 36525 / 38710000))
  obtain ⟨k2, hk2⟩ := mod360_eq (280.46061837 + 360.98564736629 * (jdOf c' - 2451545)
    + 0.000387933 * ((jdOf c' - 2451545) / 36525) * ((jdOf c' - 2451545) / 36525)
      * (1 - (jdOf c' - 2451545) / 36525 / 38710000))
  have n1 : |nutPsi (jceOf c') * cos (oblOf c') - nutPsi (jceOf c) * cos (oblOf c)| ≤ 4.3e-4 * E + 0.00581 * (2e-4 * E) := by
    have e : nutPsi (jceOf c') * cos (oblOf c') - nutPsi (jceOf c) * cos (oblOf c)
        = (nutPsi (jceOf c') - nutPsi (jceOf c)) * cos (oblOf c')
          + nutPsi (jceOf c) * (cos (oblOf c') - cos (oblOf c)) := by ring
    rw [e]
    refine (abs_add_le _ _).trans (add_le_add ?_ ?_)
    · rw [abs_mul]
      exact (mul_le_of_le_one_right (abs_nonneg _) (abs_cos_le_one _)).trans n
    · rw [abs_mul]
      exact mul_le_mul (nutPsi_abs h) ((Real.abs_cos_sub_cos_le _ _).trans ho) (abs_nonneg _) (by norm_num)
  refine ⟨k1 - k2, ?_⟩
  unfold astOf
  rw [hk1, hk2]
  set u := (jdOf c - 2451545) / 36525 with hu
  set v := (jdOf c' - 2451545) / 36525 with hv
  have hj : jdOf c - 2451545 = 36525 * u := by rw [hu]; ring
  have hj' : jdOf c' - 2451545 = 36525 * v := by rw [hv]; ring
  have hjj : 36525 * (v - u) = E := by linarith
  have hu1 : |u| ≤ 100 := by rw [abs_le]; constructor <;> linarith
  have hv1 : |v| ≤ 100 := by rw [abs_le]; constructor <;> linarith
  have hvu : 0 ≤ v - u := by linarith
  have hq : |0.000387933 * v * v * (1 - v / 38710000) - 0.000387933 * u * u * (1 - u / 38710000)| ≤ 0.1 * (v - u) := by
    have e : 0.000387933 * v * v * (1 - v / 38710000) - 0.000387933 * u * u * (1 - u / 38710000)
        = (0.000387933 * (v + u) - 0.000387933 / 38710000 * (v ^ 2 + v * u + u ^ 2)) * (v - u) := by ring
    rw [e, abs_mul, abs_of_nonneg hvu]
    gcongr
    have a := abs_le.mp hu1
    have b := abs_le.mp hv1
    have hs : 0 ≤ v ^ 2 + v * u + u ^ 2 := by nlinarith [sq_nonneg (v + u), sq_nonneg v, sq_nonneg u]
    have hs' : v ^ 2 + v * u + u ^ 2 ≤ 30000 := by nlinarith
    rw [abs_le]
    norm_num
    constructor <;> linarith
  rw [hj, hj']
  have q := abs_le.mp hq
  have n1 := abs_le.mp n1
  clear hq hu1 hv1 hk1 hk2 hu hv hj hj'
  clear_value u v
  generalize 0.000387933 * v * v * (1 - v / 38710000) = Q at *
  generalize 0.000387933 * u * u * (1 - u / 38710000) = R at *
  push_cast
  rw [abs_le]
  norm_num at *
  constructor <;> linarith

/-- The geocentric hour angle. -/
theorem lha_rate (tp lon : ℝ) {c c' : Civil} (h : c.Valid) (h' : c'.Valid) {E : ℝ} (hE : jdeOf c' - jdeOf c = E)
    (hJ : jdOf c' - jdOf c = E) (hE0 : 0 ≤ E) (hE1 : E ≤ 1) :
    ∃ k : ℤ, 359.789 * E ≤ lhaOf tp lon c' - lhaOf tp lon c - 360 * k ∧
      lhaOf tp lon c' - lhaOf tp lon c - 360 * k ≤ 360.145 * E := by
  obtain ⟨i, a⟩ := ast_rate h h' hE hJ hE0
  obtain ⟨j, r1, r2⟩ := ra_rate tp h h' hE hE0 hE1
  have a := abs_le.mp a
  unfold lhaOf
  obtain ⟨m, hm⟩ := mod360_eq (astOf c + lon - raOf tp c)
  obtain ⟨n, hn⟩ := mod360_eq (astOf c' + lon - raOf tp c')
  rw [hm, hn]
  refine ⟨i - j + m - n, ?_⟩
  push_cast
  norm_num at *
  constructor <;> linarith

/-! ## Topocentric coordinates -/

theorem sin_par_small {c : Civil} (h : c.Valid) : 0 ≤ sin (rad (parOf c)) ∧ sin (rad (parOf c)) ≤ 4.5e-5 := by
  have hb := sunDist_bounds (abs_jmeOf h)
  have hp0 := pi_pos
  have hp := pi_lt_d4
  refine ⟨(sin_par h).1, ?_⟩
  have h0 : 0 < sunDist (jmeOf c) := by linarith [hb.1]
  have e : parOf c = 8.794 / 3600 * sunDist (jmeOf c) := by
    unfold parOf
    field_simp
  have h1 : 0 ≤ rad (parOf c) := by
    rw [e]; unfold rad; positivity
  refine (sin_le h1).trans ?_
  rw [e]
  unfold rad
  rw [div_le_iff₀ (by norm_num)]
  norm_num at *
  nlinarith

theorem sin_par_lip {c c' : Civil} (h : c.Valid) (h' : c'.Valid) {E : ℝ} (hE : jdeOf c' - jdeOf c = E) (hE0 : 0 ≤ E) :
    |sin (rad (parOf c')) - sin (rad (parOf c))| ≤ 3e-8 * E := by
  have hb := sunDist_bounds (abs_jmeOf h)
  have hb' := sunDist_bounds (abs_jmeOf h')
  obtain ⟨-, -, n, -, -⟩ := slow_lip h h' (E := E) (by rw [hE, abs_of_nonneg hE0])
  have hp0 := pi_pos
  have hp := pi_lt_d4
  have e : parOf c = 8.794 / 3600 * sunDist (jmeOf c) := by
    have h0 : 0 < sunDist (jmeOf c) := by linarith [hb.1]
    unfold parOf
    field_simp
  have e' : parOf c' = 8.794 / 3600 * sunDist (jmeOf c') := by
    have h0 : 0 < sunDist (jmeOf c') := by linarith [hb'.1]
    unfold parOf
    field_simp
  refine (Real.abs_sin_sub_sin_le _ _).trans ?_
  rw [← rad_sub, e, e', ← mul_sub]
  unfold rad
  rw [abs_div, abs_mul, abs_mul, abs_of_pos hp0, abs_of_pos (by norm_num : (0 : ℝ) < 180),
    abs_of_pos (by norm_num : (0 : ℝ) < 8.794 / 3600), div_le_iff₀ (by norm_num)]
  calc 8.794 / 3600 * |sunDist (jmeOf c') - sunDist (jmeOf c)| * π ≤ 8.794 / 3600 * (5.2e-4 * E) * 3.1416 := by gcongr
    _ = (8.794 / 3600 * 5.2e-4 * 3.1416) * E := by ring
    _ ≤ (3e-8 * 180) * E := mul_le_mul_of_nonneg_right (by norm_num) hE0
    _ = _ := by ring

/-- A quotient with bounded numerator and denominator. -/
theorem quot_lip {n n' d d' m dn dd N : ℝ} (hm : 0 < m) (hd : m ≤ d) (hd' : m ≤ d') (hn : |n| ≤ N)
    (h1 : |n' - n| ≤ dn) (h2 : |d' - d| ≤ dd) : |n' / d' - n / d| ≤ dn / m + N * dd / m ^ 2 := by
  have p : 0 < d := hm.trans_le hd
  have p' : 0 < d' := hm.trans_le hd'
  have hN := (abs_nonneg _).trans hn
  have hdd := (abs_nonneg _).trans h2
  have hdn := (abs_nonneg _).trans h1
  have e : n' / d' - n / d = (n' - n) / d' - n * (d' - d) / (d * d') := by
    field_simp
    ring
  rw [e]
  refine (abs_sub _ _).trans (add_le_add ?_ ?_)
  · rw [abs_div, abs_of_pos p']
    gcongr
  · rw [abs_div, abs_mul, abs_of_pos (mul_pos p p'), pow_two]
    gcongr

theorem par_prod {r s s' f f' K : ℝ} (hr : |r| ≤ 1.01) (h0 : 0 ≤ s') (hs' : s' ≤ 4.5e-5) (hsl : |s' - s| ≤ 2e-6 * K)
    (hf : |f| ≤ 1) (hff : |f' - f| ≤ 360.145 * K) (hK0 : 0 ≤ K) : |r * s' * f' - r * s * f| ≤ 0.0165 * K := by
  have e : r * s' * f' - r * s * f = r * s' * (f' - f) + r * f * (s' - s) := by ring
  rw [e]
  refine (abs_add_le _ _).trans ?_
  rw [abs_mul, abs_mul, abs_mul, abs_mul, abs_of_nonneg h0]
  calc |r| * s' * |f' - f| + |r| * |f| * |s' - s|
      ≤ 1.01 * 4.5e-5 * (360.145 * K) + 1.01 * 1 * (2e-6 * K) := by gcongr
    _ = (1.01 * 4.5e-5 * 360.145 + 1.01 * 2e-6) * K := by ring
    _ ≤ _ := by gcongr; norm_num

theorem par_size {r s f : ℝ} (hr : |r| ≤ 1.01) (h0 : 0 ≤ s) (hs : s ≤ 4.5e-5) (hf : |f| ≤ 1) :
    |r * s * f| ≤ 4.55e-5 := by
  rw [abs_mul, abs_mul, abs_of_nonneg h0]
  calc |r| * s * |f| ≤ 1.01 * 4.5e-5 * 1 := by gcongr
    _ ≤ _ := by norm_num

theorem par_den {r s f C : ℝ} (hr : |r| ≤ 1.01) (h0 : 0 ≤ s) (hs : s ≤ 4.5e-5) (hf : |f| ≤ 1) (hC : 0.9 < C) :
    0.8999 ≤ C - r * s * f := by
  have := (abs_le.mp (par_size hr h0 hs hf)).2
  norm_num at *
  linarith

theorem dif_lip {a b a' b' x y z K : ℝ} (hK : 0 ≤ K) (ha : |a' - a| ≤ x * K) (hb : |b' - b| ≤ y * K) (hxy : x + y ≤ z) :
    |a' - b' - (a - b)| ≤ z * K := by
  rw [show a' - b' - (a - b) = (a' - a) - (b' - b) by ring]
  refine (abs_sub _ _).trans ((add_le_add ha hb).trans ?_)
  rw [← add_mul]
  gcongr

set_option maxHeartbeats 1000000 in
/-- The topocentric hour angle and declination. -/
theorem topo_rate (tp : ℝ) {c c' : Civil} (h : c.Valid) (h' : c'.Valid) {lat lon elev : ℝ} (h1 : -90 < lat)
    (h2 : lat < 90) (he : |elev| ≤ 50000) {E : ℝ} (hE : jdeOf c' - jdeOf c = E) (hJ : jdOf c' - jdOf c = E)
    (hE0 : 0 ≤ E) (hE1 : E ≤ 1) :
    ∃ k : ℤ, 359.76 * E ≤ topoH tp lat lon elev c' - topoH tp lat lon elev c - 360 * k ∧
      topoH tp lat lon elev c' - topoH tp lat lon elev c - 360 * k ≤ 360.17 * E ∧
      |topoDec tp lat lon elev c' - topoDec tp lat lon elev c| ≤ 1.8 * E := by
  obtain ⟨k, l1, l2⟩ := lha_rate tp lon h h' hE hJ hE0 hE1
  have hdec := dec_step tp h h' hE hE0
  obtain ⟨hr0, hr1, hz⟩ := rhoOf_bounds (tp := tp) h1 h2 he
  obtain ⟨s0, s1⟩ := sin_par_small h
  obtain ⟨s0', s1'⟩ := sin_par_small h'
  have sl := sin_par_lip h h' hE hE0
  obtain ⟨d0, d1⟩ := cos_dec_gt h
  obtain ⟨d0', d1'⟩ := cos_dec_gt h'
  have hp := pi_lt_d4
  have hpg := pi_gt_d4
  set κ := π / 180 with hκ
  have hκ0 : 0 < κ := by positivity
  have hκ2 : 0.01745 ≤ κ := by rw [hκ, le_div_iff₀ (by norm_num)]; norm_num at *; linarith
  have hrad : ∀ x, rad x = κ * x := fun x => by unfold rad; rw [hκ]; ring
  have hdeg : ∀ x, deg x = x / κ := fun x => by unfold deg; rw [hκ]; field_simp
  set K := κ * E with hK
  have hK0 : 0 ≤ K := by positivity
  -- hour angle
  have hX0 : 0 ≤ lhaOf tp lon c' - lhaOf tp lon c - 360 * k := l1.trans' (by positivity)
  have hHd : rad (lhaOf tp lon c') = rad (lhaOf tp lon c) + κ * (lhaOf tp lon c' - lhaOf tp lon c - 360 * k) + k * (2 * π) := by
    rw [hrad, hrad, hκ]; ring
  have hHl : |κ * (lhaOf tp lon c' - lhaOf tp lon c - 360 * k)| ≤ 360.145 * K := by
    rw [abs_of_nonneg (by positivity), hK]
    calc κ * (lhaOf tp lon c' - lhaOf tp lon c - 360 * k) ≤ κ * (360.145 * E) := by gcongr
      _ = _ := by ring
  have hsH : |sin (rad (lhaOf tp lon c')) - sin (rad (lhaOf tp lon c))| ≤ 360.145 * K := by
    rw [hHd, sin_add_int_mul_two_pi]
    refine (Real.abs_sin_sub_sin_le _ _).trans ?_
    rwa [add_sub_cancel_left]
  have hcH : |cos (rad (lhaOf tp lon c')) - cos (rad (lhaOf tp lon c))| ≤ 360.145 * K := by
    rw [hHd, cos_add_int_mul_two_pi]
    refine (Real.abs_cos_sub_cos_le _ _).trans ?_
    rwa [add_sub_cancel_left]
  have hD : |rad (decOf c') - rad (decOf c)| ≤ 1.0463 * K := by
    rw [hrad, hrad, ← mul_sub, abs_mul, abs_of_pos hκ0, hK]
    calc κ * |decOf c' - decOf c| ≤ κ * (1.0463 * E) := by gcongr
      _ = _ := by ring
  have hsl : |sin (rad (parOf c')) - sin (rad (parOf c))| ≤ 2e-6 * K := by
    refine sl.trans ?_
    rw [hK, ← mul_assoc]
    gcongr
    norm_num at *
    linarith
  have hcD := (Real.abs_cos_sub_cos_le _ _).trans hD
  have hsD := (Real.abs_sin_sub_sin_le _ _).trans hD
  have hr : |rhoOf tp lat elev| ≤ 1.01 := by rwa [abs_of_nonneg hr0]
  have cH := abs_cos_le_one (rad (lhaOf tp lon c))
  have sH := abs_sin_le_one (rad (lhaOf tp lon c))
  have cH' := abs_cos_le_one (rad (lhaOf tp lon c'))
  -- parallax in right ascension
  have hps : |rad (psraOf tp lat lon elev c') - rad (psraOf tp lat lon elev c)| ≤ 0.0185 * K := by
    unfold psraOf
    have q := par_den hr s0 s1 cH d0
    have q' := par_den hr s0' s1' cH' d0'
    rw [rad_deg, rad_deg, Verif.arg_eq_arctan (lt_of_lt_of_le (by norm_num) q),
      Verif.arg_eq_arctan (lt_of_lt_of_le (by norm_num) q')]
    refine (lip_arctan _ _).trans ?_
    refine (quot_lip (m := 0.8999) (dn := 0.0165 * K) (dd := 1.0628 * K) (N := 4.55e-5) (by norm_num) q q' ?_ ?_ ?_).trans ?_
    · rw [abs_neg]
      exact par_size hr s0 s1 sH
    · rw [neg_sub_neg, abs_sub_comm]
      exact par_prod hr s0' s1' hsl sH hsH hK0
    · exact dif_lip hK0 hcD (par_prod hr s0' s1' hsl cH hcH hK0) (by norm_num)
    · rw [show 0.0165 * K / 0.8999 + 4.55e-5 * (1.0628 * K) / 0.8999 ^ 2
        = (0.0165 / 0.8999 + 4.55e-5 * 1.0628 / 0.8999 ^ 2) * K by ring]
      gcongr
      norm_num
  have back : ∀ {x y z : ℝ}, |rad x - rad y| ≤ z * K → |x - y| ≤ z * E := fun {x y z} hxy => by
    rw [hrad, hrad, ← mul_sub, abs_mul, abs_of_pos hκ0, hK, show z * (κ * E) = κ * (z * E) by ring] at hxy
    exact le_of_mul_le_mul_left hxy hκ0
  have hpd := abs_le.mp (back hps)
  refine ⟨k, ?_, ?_, ?_⟩
  · unfold topoH
    norm_num at l1 hpd ⊢
    linarith
  · unfold topoH
    norm_num at l2 hpd ⊢
    linarith
  · apply back
    unfold topoDec
    have q := par_den hz s0 s1 cH d0
    have q' := par_den hz s0' s1' cH' d0'
    rw [rad_deg, rad_deg, Verif.arg_eq_arctan (lt_of_lt_of_le (by norm_num) q),
      Verif.arg_eq_arctan (lt_of_lt_of_le (by norm_num) q')]
    refine (lip_arctan _ _).trans ?_
    have hzs : |zetaOf tp lat elev * sin (rad (parOf c)) * 1| ≤ 4.55e-5 := par_size hz s0 s1 (by simp)
    have hzs' : |zetaOf tp lat elev * sin (rad (parOf c')) * 1| ≤ 4.55e-5 := par_size hz s0' s1' (by simp)
    rw [mul_one] at hzs hzs'
    have hzd : |zetaOf tp lat elev * sin (rad (parOf c')) - zetaOf tp lat elev * sin (rad (parOf c))| ≤ 2.1e-6 * K := by
      rw [← mul_sub, abs_mul]
      calc _ ≤ 1.01 * (2e-6 * K) := by gcongr
        _ = 1.01 * 2e-6 * K := by ring
        _ ≤ _ := by gcongr; norm_num
    have hA : ∀ {x y : ℝ}, |x| ≤ 0.42 → |y| ≤ 4.55e-5 → |x - y| ≤ 0.4201 := fun hx hy => by
      refine (abs_sub _ _).trans ((add_le_add hx hy).trans ?_)
      norm_num
    refine (quot_lip (m := 0.8999) (dn := 1.0542 * K) (dd := 1.0628 * K) (N := 0.4201) (by norm_num) q q' ?_ ?_ ?_).trans ?_
    · rw [abs_mul]
      exact (mul_le_of_le_one_right (abs_nonneg _) (abs_cos_le_one _)).trans (hA d1 hzs)
    · have hc := (Real.abs_cos_sub_cos_le _ _).trans hps
      have hd := dif_lip hK0 hsD hzd (z := 1.0464) (by norm_num)
      have ha := hA d1' hzs'
      generalize sin (rad (decOf c)) - zetaOf tp lat elev * sin (rad (parOf c)) = a at *
      generalize sin (rad (decOf c')) - zetaOf tp lat elev * sin (rad (parOf c')) = a' at *
      have hc1 := abs_cos_le_one (rad (psraOf tp lat lon elev c))
      generalize cos (rad (psraOf tp lat lon elev c)) = b at *
      generalize cos (rad (psraOf tp lat lon elev c')) = b' at *
      rw [show a' * b' - a * b = (a' - a) * b + a' * (b' - b) by ring]
      refine (abs_add_le _ _).trans ?_
      rw [abs_mul, abs_mul]
      calc |a' - a| * |b| + |a'| * |b' - b| ≤ 1.0464 * K * 1 + 0.4201 * (0.0185 * K) := by gcongr
        _ = (1.0464 + 0.4201 * 0.0185) * K := by ring
        _ ≤ _ := by gcongr; norm_num
    · exact dif_lip hK0 hcD (par_prod hz s0' s1' hsl cH hcH hK0) (by norm_num)
    · rw [show 1.0542 * K / 0.8999 + 0.4201 * (1.0628 * K) / 0.8999 ^ 2
        = (1.0542 / 0.8999 + 0.4201 * 1.0628 / 0.8999 ^ 2) * K by ring]
      gcongr
      norm_num

end Verif
