import Verif.Proofs.FastSun
import Verif.Proofs.FloatLemmas

/-!
# Declination and right ascension of the sun against the fast formulas
-/

namespace Verif

open Verif.Spec Verif.Props Pysolar Pysolar.Solar Pysolar.Constants Pysolar.Solartime Real

/-! ## Taylor bounds -/

theorem sin_ge_cubic {x : ℝ} (hx : 0 ≤ x) : x - x ^ 3 / 6 ≤ sin x := by
  have hd : ∀ y : ℝ, HasDerivAt (fun y => sin y - (y - y ^ 3 / 6)) (cos y - (1 - 3 * y ^ 2 / 6)) y := fun y => by
    have := (hasDerivAt_sin y).sub ((hasDerivAt_id' y).sub (((hasDerivAt_id' y).pow 3).div_const 6))
    exact this.congr_deriv (by norm_num)
  have hm : Monotone fun y : ℝ => sin y - (y - y ^ 3 / 6) := by
    apply monotone_of_deriv_nonneg (fun y => (hd y).differentiableAt)
    intro y
    rw [(hd y).deriv]
    have := one_sub_sq_div_two_le_cos (x := y)
    linarith
  have := hm hx
  simp at this
  linarith

theorem cos_le_quartic {x : ℝ} (hx : 0 ≤ x) : cos x ≤ 1 - x ^ 2 / 2 + x ^ 4 / 24 := by
  have hd : ∀ y : ℝ, HasDerivAt (fun y => 1 - y ^ 2 / 2 + y ^ 4 / 24 - cos y)
      (0 - 2 * y / 2 + 4 * y ^ 3 / 24 - -sin y) y := fun y => by
    have := ((((hasDerivAt_const y (1 : ℝ)).sub (((hasDerivAt_id' y).pow 2).div_const 2)).add
      (((hasDerivAt_id' y).pow 4).div_const 24)).sub (hasDerivAt_cos y))
    exact this.congr_deriv (by norm_num)
  have hm : MonotoneOn (fun y : ℝ => 1 - y ^ 2 / 2 + y ^ 4 / 24 - cos y) (Set.Ici 0) := by
    apply monotoneOn_of_deriv_nonneg (convex_Ici 0)
    · exact fun y _ => (hd y).continuousAt.continuousWithinAt
    · exact fun y _ => (hd y).differentiableAt.differentiableWithinAt
    · intro y hy
      rw [interior_Ici] at hy
      rw [(hd y).deriv]
      have := sin_ge_cubic (le_of_lt hy)
      linarith
  have := hm (Set.mem_Ici.mpr le_rfl) (Set.mem_Ici.mpr hx) hx
  simp at this
  linarith

theorem sin_le_quintic {x : ℝ} (hx : 0 ≤ x) : sin x ≤ x - x ^ 3 / 6 + x ^ 5 / 120 := by
  have hd : ∀ y : ℝ, HasDerivAt (fun y => y - y ^ 3 / 6 + y ^ 5 / 120 - sin y)
      (1 - 3 * y ^ 2 / 6 + 5 * y ^ 4 / 120 - cos y) y := fun y => by
    have := ((((hasDerivAt_id' y).sub (((hasDerivAt_id' y).pow 3).div_const 6)).add
      (((hasDerivAt_id' y).pow 5).div_const 120)).sub (hasDerivAt_sin y))
    exact this.congr_deriv (by norm_num)
  have hm : MonotoneOn (fun y : ℝ => y - y ^ 3 / 6 + y ^ 5 / 120 - sin y) (Set.Ici 0) := by
    apply monotoneOn_of_deriv_nonneg (convex_Ici 0)
    · exact fun y _ => (hd y).continuousAt.continuousWithinAt
    · exact fun y _ => (hd y).differentiableAt.differentiableWithinAt
    · intro y hy
      rw [interior_Ici] at hy
      rw [(hd y).deriv]
      have := cos_le_quartic (le_of_lt hy)
      linarith
  have := hm (Set.mem_Ici.mpr le_rfl) (Set.mem_Ici.mpr hx) hx
  simp at this
  linarith

theorem arctan_cubic (x : ℝ) : |arctan x - x| ≤ |x| ^ 3 / 3 := by
  have hd1 : ∀ y : ℝ, HasDerivAt (fun y => arctan y - (y - y ^ 3 / 3)) (1 / (1 + y ^ 2) - (1 - 3 * y ^ 2 / 3)) y :=
    fun y => by
      have := (hasDerivAt_arctan y).sub ((hasDerivAt_id' y).sub (((hasDerivAt_id' y).pow 3).div_const 3))
      exact this.congr_deriv (by norm_num)
  have hd2 : ∀ y : ℝ, HasDerivAt (fun y => y - arctan y) (1 - 1 / (1 + y ^ 2)) y := fun y =>
    (hasDerivAt_id' y).sub (hasDerivAt_arctan y)
  have hm1 : Monotone fun y : ℝ => arctan y - (y - y ^ 3 / 3) := by
    apply monotone_of_deriv_nonneg (fun y => (hd1 y).differentiableAt)
    intro y
    rw [(hd1 y).deriv]
    have e : 1 / (1 + y ^ 2) - (1 - 3 * y ^ 2 / 3) = y ^ 4 / (1 + y ^ 2) := by
      field_simp
      ring
    rw [e]
    positivity
  have hm2 : Monotone fun y : ℝ => y - arctan y := by
    apply monotone_of_deriv_nonneg (fun y => (hd2 y).differentiableAt)
    intro y
    rw [(hd2 y).deriv]
    have e : 1 - 1 / (1 + y ^ 2) = y ^ 2 / (1 + y ^ 2) := by
      field_simp
      ring
    rw [e]
    positivity
  have key : ∀ y : ℝ, 0 ≤ y → |arctan y - y| ≤ y ^ 3 / 3 := by
    intro y hy
    have h1 := hm1 hy
    have h2 := hm2 hy
    simp at h1 h2
    rw [abs_le]
    constructor <;> linarith [pow_nonneg hy 3]
  rcases le_total 0 x with h | h
  · rw [abs_of_nonneg h]; exact key x h
  · have := key (-x) (by linarith)
    rw [arctan_neg, ← abs_neg] at this
    rw [abs_of_nonpos h]
    convert this using 2
    ring

/-! ## Declination -/

theorem lip_arcsin' {x y : ℝ} (hx : |x| ≤ 0.42) (hy : |y| ≤ 0.42) : |arcsin x - arcsin y| ≤ 1.11 * |x - y| := by
  have hd : ∀ t ∈ Set.Icc (-0.42 : ℝ) 0.42, HasDerivAt arcsin (1 / √(1 - t ^ 2)) t := by
    intro t ht
    exact hasDerivAt_arcsin (by have := ht.1; norm_num at this; linarith) (by have := ht.2; norm_num at this; linarith)
  have := Convex.norm_image_sub_le_of_norm_deriv_le (f := arcsin) (s := Set.Icc (-0.42 : ℝ) 0.42)
    (x := y) (y := x) (C := 1.11)
    (fun t ht => (hd t ht).differentiableAt)
    (fun t ht => by
      rw [(hd t ht).deriv, norm_eq_abs, abs_of_nonneg (by positivity)]
      have h1 : (0.907 : ℝ) ≤ √(1 - t ^ 2) := by
        apply le_sqrt_of_sq_le
        have h1 := ht.1
        have h2 := ht.2
        norm_num at *
        nlinarith
      rw [div_le_iff₀ (lt_of_lt_of_le (by norm_num) h1)]
      norm_num at *
      linarith) (convex_Icc _ _) (abs_le.1 hy) (abs_le.1 hx)
  simpa [norm_eq_abs] using this

theorem E_bounds : 0.40927 ≤ rad 23.45 ∧ rad 23.45 ≤ 0.40928 := by
  have h1 := pi_gt_d6
  have h2 := pi_lt_d6
  unfold rad
  norm_num at *
  constructor <;> linarith

theorem sinE_bounds : 0.3978 ≤ sin (rad 23.45) ∧ sin (rad 23.45) ≤ 0.3981 := by
  obtain ⟨h1, h2⟩ := E_bounds
  have a := sin_ge_cubic (x := rad 23.45) (by norm_num at *; linarith)
  have b := sin_le_quintic (x := rad 23.45) (by norm_num at *; linarith)
  have c1 : rad 23.45 ^ 3 ≤ 0.40928 ^ 3 := by gcongr
  have c2 : (0.40927 : ℝ) ^ 3 ≤ rad 23.45 ^ 3 := by gcongr
  have c3 : rad 23.45 ^ 5 ≤ 0.40928 ^ 5 := by gcongr
  norm_num at *
  constructor <;> linarith

/-- The chord and the sine of the obliquity: `sin (E u)` against `u sin E`. -/
theorem sin_mul_close {u : ℝ} (hu : |u| ≤ 1) : |sin (rad 23.45 * u) - sin (rad 23.45) * u| ≤ 0.0046 := by
  obtain ⟨h1, h2⟩ := E_bounds
  have key : ∀ v : ℝ, 0 ≤ v → v ≤ 1 → |sin (rad 23.45 * v) - sin (rad 23.45) * v| ≤ 0.0046 := by
    intro v h0 hv1
    set E := rad 23.45 with hE
    have hE0 : 0 ≤ E := by norm_num at *; linarith
    have a1 := sin_ge_cubic (x := E * v) (by positivity)
    have a2 := sin_le_quintic (x := E * v) (by positivity)
    have b1 := sin_ge_cubic (x := E) hE0
    have b2 := sin_le_quintic (x := E) hE0
    have c1 : E ^ 3 ≤ 0.0686 := by
      have : E ^ 3 ≤ 0.40928 ^ 3 := by gcongr
      norm_num at *; linarith
    have c2 : E ^ 5 ≤ 0.0116 := by
      have : E ^ 5 ≤ 0.40928 ^ 5 := by gcongr
      norm_num at *; linarith
    have v3 : v - v ^ 3 ≤ 0.385 := by nlinarith [sq_nonneg (v - 0.577), mul_nonneg h0 (sq_nonneg (v - 0.577))]
    have v3' : 0 ≤ v - v ^ 3 := by nlinarith [mul_nonneg h0 h0, mul_nonneg h0 (sub_nonneg.2 hv1)]
    have v5 : v ^ 5 ≤ 1 := pow_le_one₀ h0 hv1
    have v5' : 0 ≤ v ^ 5 := by positivity
    have m1 : E ^ 3 * (v - v ^ 3) ≤ 0.0686 * 0.385 := mul_le_mul c1 v3 v3' (by norm_num)
    have m1' : 0 ≤ E ^ 3 * (v - v ^ 3) := by positivity
    have m2 : E ^ 5 * v ^ 5 ≤ 0.0116 * 1 := mul_le_mul c2 v5 v5' (by norm_num)
    have m3 : E ^ 5 * v ≤ 0.0116 * 1 := mul_le_mul c2 hv1 h0 (by norm_num)
    have m2' : 0 ≤ E ^ 5 * v ^ 5 := by positivity
    have m3' : 0 ≤ E ^ 5 * v := by positivity
    have s1 : sin E * v ≤ (E - E ^ 3 / 6 + E ^ 5 / 120) * v := mul_le_mul_of_nonneg_right b2 h0
    have s2 : (E - E ^ 3 / 6) * v ≤ sin E * v := mul_le_mul_of_nonneg_right b1 h0
    rw [abs_le]
    norm_num at *
    constructor
    · nlinarith
    · nlinarith
  rcases le_total 0 u with h | h
  · exact key u h (abs_le.1 hu).2
  · have := key (-u) (by linarith) (by linarith [(abs_le.1 hu).1])
    rw [mul_neg, sin_neg, mul_neg, ← neg_sub', abs_neg] at this
    exact this

/-- Obliquity in the years 1901 to 2099. -/
theorem obl_near {c : Civil} (h : c.Valid) (ht : |jmeOf c| ≤ 0.101) : 23.42 ≤ oblOf c ∧ oblOf c ≤ 23.46 := by
  have h1 := abs_le.mp (nutEps_abs h)
  have ht' := abs_le.mp ht
  set u := jmeOf c / 10 with hu
  have hu1 : |u| ≤ 0.0101 := by rw [hu, abs_div]; norm_num at *; linarith
  have b : |meanObl u - 84381.448| ≤ 48 := by
    have hp : ∀ k : ℕ, |u ^ (k + 2)| ≤ 0.0101 ^ 2 := fun k => by
      rw [abs_pow]
      calc |u| ^ (k + 2) ≤ 0.0101 ^ (k + 2) := by gcongr
        _ ≤ 0.0101 ^ 2 := pow_le_pow_of_le_one (by norm_num) (by norm_num) (by omega)
    have e1 := abs_le.mp hu1
    have e2 := abs_le.mp (hp 0)
    have e3 := abs_le.mp (hp 1)
    have e4 := abs_le.mp (hp 2)
    have e5 := abs_le.mp (hp 3)
    have e6 := abs_le.mp (hp 4)
    have e7 := abs_le.mp (hp 5)
    have e8 := abs_le.mp (hp 6)
    have e9 := abs_le.mp (hp 7)
    have e10 := abs_le.mp (hp 8)
    unfold meanObl
    rw [abs_le]
    norm_num at e1 e2 e3 e4 e5 e6 e7 e8 e9 e10 ⊢
    constructor <;> linarith
  have b' := abs_le.mp b
  unfold oblOf
  rw [← hu]
  norm_num at *
  constructor <;> linarith

theorem abs_rad (x : ℝ) : |rad x| = rad |x| := by
  unfold rad
  rw [abs_div, abs_mul, abs_of_pos pi_pos, abs_of_pos (by norm_num : (0 : ℝ) < 180)]

/-- Declination of the sun against `23.45 sin x`, given the longitude near `x`. -/
theorem dec_close {lam eps beta x : ℝ} {k : ℤ} (he1 : 23.42 ≤ eps) (he2 : eps ≤ 23.46) (hb : |beta| ≤ 0.001)
    (hx : |lam - x - 360 * k| ≤ 4.12) :
    |deg (arcsin (rotX eps (sph lam beta)).z) - 23.45 * sin (rad x)| ≤ 2.05 := by
  have p1 := pi_gt_d4
  have p2 := pi_lt_d4
  have hE := E_bounds
  have hs := sinE_bounds
  set E := rad 23.45 with hEdef
  set u := sin (rad lam) with hu
  have hu1 : |u| ≤ 1 := abs_sin_le_one _
  -- the argument of the arcsine
  have hz : |(rotX eps (sph lam beta)).z - sin E * u| ≤ 0.0006 := by
    have e : (rotX eps (sph lam beta)).z - sin E * u
        = (sin (rad eps) - sin E) * (cos (rad beta) * u) + (sin E * u) * (cos (rad beta) - 1)
          + cos (rad eps) * sin (rad beta) := by
      simp only [rotX, sph, hu]; ring
    have d1 : |sin (rad eps) - sin E| ≤ 0.00053 := by
      refine (lip_sin _ _).trans ?_
      rw [hEdef, ← rad_sub, abs_rad]
      have : |eps - 23.45| ≤ 0.03 := by rw [abs_le]; norm_num at *; constructor <;> linarith
      calc rad |eps - 23.45| ≤ rad 0.03 := rad_le_rad.2 this
        _ ≤ 0.00053 := by unfold rad; norm_num at *; linarith
    have db : |rad beta| ≤ 0.00002 := by
      rw [abs_rad]
      calc rad |beta| ≤ rad 0.001 := rad_le_rad.2 hb
        _ ≤ 0.00002 := by unfold rad; norm_num at *; linarith
    have d2 : |cos (rad beta) - 1| ≤ 0.00002 := by
      have := lip_cos (rad beta) 0
      rw [cos_zero, sub_zero] at this
      exact this.trans db
    have d3 : |sin (rad beta)| ≤ 0.00002 := (abs_sin_le _).trans db
    have m1 : |(sin (rad eps) - sin E) * (cos (rad beta) * u)| ≤ 0.00053 * (1 * 1) := by
      rw [abs_mul, abs_mul]
      exact mul_le_mul d1 (mul_le_mul (abs_cos_le_one _) hu1 (abs_nonneg _) zero_le_one) (by positivity) (by norm_num)
    have m2 : |(sin E * u) * (cos (rad beta) - 1)| ≤ (1 * 1) * 0.00002 := by
      rw [abs_mul, abs_mul]
      exact mul_le_mul (mul_le_mul (abs_sin_le_one _) hu1 (abs_nonneg _) zero_le_one) d2 (abs_nonneg _) (by norm_num)
    have m3 : |cos (rad eps) * sin (rad beta)| ≤ 1 * 0.00002 := by
      rw [abs_mul]
      exact mul_le_mul (abs_cos_le_one _) d3 (abs_nonneg _) zero_le_one
    rw [e]
    refine (abs_add_le _ _).trans ((add_le_add_left (abs_add_le _ _) _).trans ?_)
    norm_num at *
    linarith
  have hsu : |sin E * u| ≤ 0.3981 := by
    rw [abs_mul, abs_of_pos (by norm_num at *; linarith)]
    calc sin E * |u| ≤ sin E * 1 := by
          apply mul_le_mul_of_nonneg_left hu1; norm_num at *; linarith
      _ ≤ 0.3981 := by rw [mul_one]; exact hs.2
  have hzb : |(rotX eps (sph lam beta)).z| ≤ 0.42 := by
    have := abs_sub_abs_le_abs_sub (rotX eps (sph lam beta)).z (sin E * u)
    norm_num at *; linarith
  have a1 := lip_arcsin' hzb (hsu.trans (by norm_num))
  -- `arcsin (sin E u)` against `E u`
  have hEu : |E * u| ≤ 0.40928 := by
    rw [abs_mul, abs_of_pos (by norm_num at *; linarith)]
    calc E * |u| ≤ E * 1 := by apply mul_le_mul_of_nonneg_left hu1; norm_num at *; linarith
      _ ≤ 0.40928 := by rw [mul_one]; exact hE.2
  have hEu' := abs_le.mp hEu
  have a2 := lip_arcsin' (x := sin E * u) (y := sin (E * u)) (hsu.trans (by norm_num))
    ((abs_sin_le _).trans (hEu.trans (by norm_num)))
  rw [arcsin_sin (by norm_num at *; linarith) (by norm_num at *; linarith), abs_sub_comm (sin E * u)] at a2
  have a3 := sin_mul_close hu1
  rw [← hEdef] at a3
  -- `E u` against `E sin x`
  have a4 : |u - sin (rad x)| ≤ 0.07191 := by
    have e : sin (rad x) = sin (rad (x + 360 * k)) := by
      rw [rad_add, show rad (360 * k) = k * (2 * π) by unfold rad; ring, sin_add_int_mul_two_pi]
    rw [e, hu]
    refine (lip_sin _ _).trans ?_
    rw [← rad_sub, abs_rad, show lam - (x + 360 * k) = lam - x - 360 * k by ring]
    calc rad |lam - x - 360 * k| ≤ rad 4.12 := rad_le_rad.2 hx
      _ ≤ 0.07191 := by unfold rad; norm_num at *; linarith
  have hsum : |arcsin (rotX eps (sph lam beta)).z - E * sin (rad x)| ≤ 0.0353 := by
    have e : arcsin (rotX eps (sph lam beta)).z - E * sin (rad x)
        = (arcsin (rotX eps (sph lam beta)).z - arcsin (sin E * u)) + (arcsin (sin E * u) - E * u)
          + E * (u - sin (rad x)) := by ring
    have m : |E * (u - sin (rad x))| ≤ 0.40928 * 0.07191 := by
      rw [abs_mul, abs_of_pos (by norm_num at *; linarith : 0 < E)]
      exact mul_le_mul hE.2 a4 (abs_nonneg _) (by norm_num)
    rw [e]
    refine (abs_add_le _ _).trans ((add_le_add_left (abs_add_le _ _) _).trans ?_)
    norm_num at *
    linarith
  have e : deg (arcsin (rotX eps (sph lam beta)).z) - 23.45 * sin (rad x)
      = deg (arcsin (rotX eps (sph lam beta)).z - E * sin (rad x)) := by
    rw [deg_sub, hEdef]
    unfold deg rad
    field_simp
  rw [e]
  unfold deg
  rw [abs_div, abs_mul, abs_of_pos pi_pos, abs_of_pos (by norm_num : (0 : ℝ) < 180), div_le_iff₀ pi_pos]
  norm_num at *
  linarith

/-! ## Right ascension -/

theorem cosE_bounds {eps : ℝ} (he1 : 23.42 ≤ eps) (he2 : eps ≤ 23.46) :
    0.9173 ≤ cos (rad eps) ∧ cos (rad eps) ≤ 0.9177 := by
  have p1 := pi_gt_d6
  have p2 := pi_lt_d6
  have e1 : 0.40875 ≤ rad eps := by unfold rad; norm_num at *; nlinarith
  have e2 : rad eps ≤ 0.40946 := by unfold rad; norm_num at *; nlinarith
  have h0 : 0 ≤ rad eps := le_trans (by norm_num) e1
  have b := cos_le_quartic h0
  have hs := sin_sq_add_cos_sq (rad eps)
  have hsin := sin_le_quintic h0
  have c3 : (0.40875 : ℝ) ^ 3 ≤ rad eps ^ 3 := by gcongr
  have c5 : rad eps ^ 5 ≤ 0.40946 ^ 5 := by gcongr
  have c2 : (0.40875 : ℝ) ^ 2 ≤ rad eps ^ 2 := by gcongr
  have c4 : rad eps ^ 4 ≤ 0.40946 ^ 4 := by gcongr
  have hp : 0 ≤ cos (rad eps) := (cos_rad_pos (by norm_num at *; linarith) (by norm_num at *; linarith)).le
  have hq : 0 ≤ sin (rad eps) := (sin_rad_pos (by norm_num at *; linarith) (by norm_num at *; linarith)).le
  have hsin' : sin (rad eps) ≤ 0.39818 := by norm_num at *; linarith
  constructor
  · by_contra hc
    rw [not_le] at hc
    have h1 : cos (rad eps) ^ 2 ≤ 0.9173 ^ 2 := by gcongr
    have h2 : sin (rad eps) ^ 2 ≤ 0.39818 ^ 2 := by gcongr
    have h3 : (1 : ℝ) ≤ 0.39818 ^ 2 + 0.9173 ^ 2 := hs ▸ add_le_add h2 h1
    norm_num at h3
  · norm_num at *; linarith

/-- Reduction to the ecliptic: longitude minus right ascension. -/
theorem ra_close {al del lam eps beta : ℝ} (he1 : 23.42 ≤ eps) (he2 : eps ≤ 23.46) (hb : |beta| ≤ 0.001)
    (hcd : 0 < cos (rad del)) (h : sph al del = rotX eps (sph lam beta)) :
    ∃ k : ℤ, |lam - al - 360 * k - 2.466 * sin (2 * rad lam)| ≤ 0.07 := by
  have p1 := pi_gt_d6
  have p2 := pi_lt_d6
  obtain ⟨ce1, ce2⟩ := cosE_bounds he1 he2
  have hx : cos (rad del) * cos (rad al) = cos (rad beta) * cos (rad lam) := congrArg Vec3.x h
  have hy : cos (rad del) * sin (rad al)
      = cos (rad eps) * (cos (rad beta) * sin (rad lam)) - sin (rad eps) * sin (rad beta) := congrArg Vec3.y h
  have db : |rad beta| ≤ 0.00002 := by
    rw [abs_rad]
    calc rad |beta| ≤ rad 0.001 := rad_le_rad.2 hb
      _ ≤ 0.00002 := by unfold rad; norm_num at *; linarith
  have d3 : |sin (rad beta)| ≤ 0.00002 := (abs_sin_le _).trans db
  have d2 : |cos (rad beta) - 1| ≤ 0.00002 := by
    have := lip_cos (rad beta) 0
    rw [cos_zero, sub_zero] at this
    exact this.trans db
  have d2' := abs_le.mp d2
  set S := sin (2 * rad lam) with hS
  set C := cos (2 * rad lam) with hC
  have hSd : S = 2 * sin (rad lam) * cos (rad lam) := sin_two_mul _
  have hCd : C = 2 * cos (rad lam) ^ 2 - 1 := cos_two_mul _
  have hsq := sin_sq_add_cos_sq (rad lam)
  set q := sin (rad eps) * sin (rad beta) with hq
  have hqb : |q| ≤ 0.00002 := by
    rw [hq, abs_mul]
    calc |sin (rad eps)| * |sin (rad beta)| ≤ 1 * 0.00002 :=
          mul_le_mul (abs_sin_le_one _) d3 (abs_nonneg _) zero_le_one
      _ = _ := one_mul _
  set ce := cos (rad eps) with hce
  set cb := cos (rad beta) with hcb
  have hP : cos (rad del) * sin (rad (lam - al)) = cb * ((1 - ce) / 2 * S) + q * cos (rad lam) := by
    rw [rad_sub, sin_sub, hSd]
    linear_combination sin (rad lam) * hx - cos (rad lam) * hy
  have hQ : cos (rad del) * cos (rad (lam - al)) = cb * ((1 + ce) / 2 + (1 - ce) / 2 * C) - q * sin (rad lam) := by
    rw [rad_sub, cos_sub, hCd]
    linear_combination cos (rad lam) * hx + sin (rad lam) * hy + cb * ce * hsq
  set P := cos (rad del) * sin (rad (lam - al)) with hPd
  set Q := cos (rad del) * cos (rad (lam - al)) with hQd
  have hS1 : |S| ≤ 1 := abs_sin_le_one _
  have hC1 : |C| ≤ 1 := abs_cos_le_one _
  have hq1 : |q * cos (rad lam)| ≤ 0.00002 := by
    rw [abs_mul]
    calc |q| * |cos (rad lam)| ≤ 0.00002 * 1 := mul_le_mul hqb (abs_cos_le_one _) (abs_nonneg _) (by norm_num)
      _ = _ := mul_one _
  have hq2 : |q * sin (rad lam)| ≤ 0.00002 := by
    rw [abs_mul]
    calc |q| * |sin (rad lam)| ≤ 0.00002 * 1 := mul_le_mul hqb (abs_sin_le_one _) (abs_nonneg _) (by norm_num)
      _ = _ := mul_one _
  have hQpos : 0.917 ≤ Q := by
    have h1 : ce ≤ (1 + ce) / 2 + (1 - ce) / 2 * C := by nlinarith [(abs_le.mp hC1).1]
    have h2 : 0.9999 * ce ≤ cb * ((1 + ce) / 2 + (1 - ce) / 2 * C) := by
      apply mul_le_mul _ h1 <;> norm_num at * <;> linarith
    have h3 := abs_le.mp hq2
    rw [hQ]
    norm_num at *
    linarith
  have hQ0 : 0 < Q := lt_of_lt_of_le (by norm_num) hQpos
  -- the quotient
  have hSC : |S * C| ≤ 1 / 2 := by
    have : S * C = sin (2 * (2 * rad lam)) / 2 := by rw [sin_two_mul, hS, hC]; ring
    rw [this, abs_div, abs_of_pos (by norm_num : (0 : ℝ) < 2)]
    have := abs_sin_le_one (2 * (2 * rad lam))
    linarith
  have hv : |P / Q - 0.04304 * S| ≤ 0.00113 := by
    have e : P / Q - 0.04304 * S = (P - 0.04304 * S * Q) / Q := by field_simp
    have e2 : P - 0.04304 * S * Q
        = cb * (S * ((1 - ce) / 2 - 0.04304 * ((1 + ce) / 2)) - 0.04304 * ((1 - ce) / 2) * (S * C))
          + (q * cos (rad lam) + 0.04304 * S * (q * sin (rad lam))) := by
      rw [hP, hQ]; ring
    have m1 : |S * ((1 - ce) / 2 - 0.04304 * ((1 + ce) / 2))| ≤ 1 * 0.00012 := by
      rw [abs_mul]
      refine mul_le_mul hS1 ?_ (abs_nonneg _) zero_le_one
      rw [abs_le]
      norm_num at *
      constructor <;> linarith
    have m2 : |0.04304 * ((1 - ce) / 2) * (S * C)| ≤ 0.04304 * 0.0414 * (1 / 2) := by
      rw [abs_mul, abs_of_pos (by norm_num at *; linarith : 0 < 0.04304 * ((1 - ce) / 2))]
      refine mul_le_mul ?_ hSC (abs_nonneg _) (by norm_num)
      norm_num at *
      linarith
    have m3 : |cb * (S * ((1 - ce) / 2 - 0.04304 * ((1 + ce) / 2)) - 0.04304 * ((1 - ce) / 2) * (S * C))|
        ≤ 1 * (1 * 0.00012 + 0.04304 * 0.0414 * (1 / 2)) := by
      rw [abs_mul]
      exact mul_le_mul (abs_cos_le_one _) ((abs_sub _ _).trans (add_le_add m1 m2)) (abs_nonneg _) zero_le_one
    have m4 : |0.04304 * S * (q * sin (rad lam))| ≤ 0.04304 * 1 * 0.00002 := by
      rw [abs_mul, abs_mul, abs_of_pos (by norm_num : (0 : ℝ) < 0.04304)]
      exact mul_le_mul (mul_le_mul le_rfl hS1 (abs_nonneg _) (by norm_num)) hq2 (abs_nonneg _) (by norm_num)
    rw [e, abs_div, abs_of_pos hQ0, div_le_iff₀ hQ0, e2]
    refine (abs_add_le _ _).trans ((add_le_add m3 (abs_add_le _ _)).trans ?_)
    norm_num at *
    linarith
  have hvb : |P / Q| ≤ 0.0442 := by
    have h1 := abs_sub_abs_le_abs_sub (P / Q) (0.04304 * S)
    rw [abs_mul, abs_of_pos (by norm_num : (0 : ℝ) < 0.04304)] at h1
    norm_num at *
    linarith
  have hat : |arctan (P / Q) - 0.04304 * S| ≤ 0.00116 := by
    have h1 := arctan_cubic (P / Q)
    have h2 : |P / Q| ^ 3 ≤ 0.0442 ^ 3 := by gcongr
    have e : arctan (P / Q) - 0.04304 * S = (arctan (P / Q) - P / Q) + (P / Q - 0.04304 * S) := by ring
    rw [e]
    refine (abs_add_le _ _).trans ?_
    norm_num at *
    linarith
  -- the angle
  have hang : ((rad (lam - al) : ℝ) : Real.Angle) = (arctan (P / Q) : ℝ) := by
    have e := arg_eq_arctan (y := P) hQ0
    obtain ⟨a1, a2⟩ := arg_of_polar (t := rad (lam - al)) hcd
    rw [← hPd, ← hQd, e] at a1 a2
    exact Real.Angle.cos_sin_inj a1.symm a2.symm
  obtain ⟨k, hk⟩ := Real.Angle.angle_eq_iff_two_pi_dvd_sub.mp hang
  refine ⟨k, ?_⟩
  have e : lam - al - 360 * k = deg (arctan (P / Q)) := by
    have : rad (lam - al - 360 * k) = arctan (P / Q) := by
      rw [rad_sub, show rad (360 * k) = 2 * π * k by unfold rad; ring, ← hk]
      ring
    rw [← this, deg_rad]
  have e2 : deg (arctan (P / Q)) - 2.466 * S
      = deg (arctan (P / Q) - 0.04304 * S) + (deg 0.04304 - 2.466) * S := by
    unfold deg; ring
  have b1 : |deg 0.04304 - 2.466| ≤ 0.0001 := by
    unfold deg
    rw [abs_le, sub_le_iff_le_add, div_le_iff₀ pi_pos, le_sub_iff_add_le, le_div_iff₀ pi_pos]
    norm_num at *
    constructor <;> linarith
  have b2 : |deg (arctan (P / Q) - 0.04304 * S)| ≤ 0.0667 := by
    unfold deg
    rw [abs_div, abs_mul, abs_of_pos pi_pos, abs_of_pos (by norm_num : (0 : ℝ) < 180), div_le_iff₀ pi_pos]
    norm_num at *
    linarith
  have b3 : |(deg 0.04304 - 2.466) * S| ≤ 0.0001 * 1 := by
    rw [abs_mul]
    exact mul_le_mul b1 hS1 (abs_nonneg _) (by norm_num)
  rw [e, e2]
  refine (abs_add_le _ _).trans ?_
  norm_num at *
  linarith

end Verif
