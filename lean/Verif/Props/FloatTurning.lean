import Verif.Props.Turning
import Verif.Props.Float

/-!
# C151: the turn of the azimuth in double precision
-/

namespace Verif

open Verif.Spec Real

/-- Two directions close to each other, away from the zenith and nadir, have azimuths close to each other. -/
theorem azimuth_close {e a e' a' : ℝ} (he : 0.0225 ≤ cos (rad e)) (he' : 0.0225 ≤ cos (rad e'))
    (h : angleBetween (horizontal e' a') (horizontal e a) ≤ 1 / 10 ^ 5) :
    ∃ k : ℤ, |a' - a - 360 * k| ≤ 4.5 / 10 ^ 4 := by
  have hp := pi_gt_d4
  have hp' := pi_lt_d4
  have hd : (horizontal e' a').dot (horizontal e a) = cos (rad (e' - e)) - cos (rad e') * cos (rad e) * (1 - cos (rad (a' - a))) := by
    rw [rad_sub, rad_sub, cos_sub, cos_sub]
    simp only [horizontal, Vec3.dot]
    ring
  have h1 : 1 - (horizontal e' a').dot (horizontal e a) ≤ (1.7454 / 10 ^ 7) ^ 2 / 2 := by
    rw [angleBetween_unit (Props.horizontal_unit _ _) (Props.horizontal_unit _ _)] at h
    set t := arccos ((horizontal e' a').dot (horizontal e a)) with ht
    have t0 : 0 ≤ t := arccos_nonneg _
    have t1 : t ≤ 1.7454 / 10 ^ 7 := by
      have := rad_le_rad.mpr h
      rw [rad_deg] at this
      refine this.trans ?_
      unfold rad
      norm_num at *
      linarith
    have hc : cos t ≤ (horizontal e' a').dot (horizontal e a) := by
      have u : |(horizontal e' a').dot (horizontal e a)| ≤ 1 := by
        have := abs_real_inner_le_norm (Props.toE (horizontal e' a')) (Props.toE (horizontal e a))
        rwa [Props.inner_toE, Props.norm_toE, Props.norm_toE, Props.horizontal_unit, Props.horizontal_unit, Real.sqrt_one,
          mul_one] at this
      have u := abs_le.mp u
      rw [ht, cos_arccos u.1 u.2]
    have := one_sub_sq_div_two_le_cos (x := t)
    have : t ^ 2 ≤ (1.7454 / 10 ^ 7) ^ 2 := by gcongr
    linarith
  set k : ℤ := round ((a' - a) / 360) with hk
  refine ⟨k, ?_⟩
  set y := (a' - a - 360 * k) / 2 with hy
  have hy90 : |y| ≤ 90 := by
    have := abs_sub_round ((a' - a) / 360)
    rw [← hk] at this
    have e1 : y = 180 * ((a' - a) / 360 - k) := by rw [hy]; ring
    rw [e1, abs_mul, abs_of_pos (by norm_num)]
    linarith
  have hc : cos (rad (a' - a)) = 1 - 2 * sin (rad y) ^ 2 := by
    have e1 : a' - a = 2 * y + 360 * k := by rw [hy]; ring
    have e2 : rad (2 * y) = 2 * rad y := by unfold rad; ring
    rw [e1, Props.cos_rad_add_turns, e2, cos_two_mul, cos_sq']
    ring
  have hq : 0.0225 * 0.0225 * (2 * sin (rad y) ^ 2) ≤ (1.7454 / 10 ^ 7) ^ 2 / 2 := by
    have c1 := cos_le_one (rad (e' - e))
    have : 0.0225 * 0.0225 * (2 * sin (rad y) ^ 2) ≤ cos (rad e') * cos (rad e) * (2 * sin (rad y) ^ 2) := by
      gcongr
    rw [hd, hc] at h1
    linarith
  have hs : |sin (rad y)| ≤ 3.8787 / 10 ^ 6 := by
    refine abs_le_of_sq_le_sq ?_ (by norm_num)
    norm_num at *
    linarith
  -- first a rough bound
  have hr : rad |y| = |rad y| := by
    clear_value y
    unfold rad
    rw [abs_div, abs_mul, abs_of_pos pi_pos, abs_of_pos (by norm_num : (0 : ℝ) < 180)]
  have hs' : sin |rad y| ≤ 3.8787 / 10 ^ 6 := by
    have h0 : 0 ≤ sin |rad y| := by
      refine sin_nonneg_of_nonneg_of_le_pi (abs_nonneg _) ?_
      rw [← hr, ← rad_180, rad_le_rad]
      linarith
    rw [← abs_of_nonneg h0]
    rcases abs_choice (rad y) with q | q <;> rw [q]
    · exact hs
    · rw [sin_neg, abs_neg]; exact hs
  have j := Real.mul_le_sin (abs_nonneg (rad y)) (by rw [← hr, ← rad_90, rad_le_rad]; exact hy90)
  have r1 : |rad y| ≤ 1 / 10 ^ 5 := by
    have : (0.6 : ℝ) ≤ 2 / π := by
      rw [le_div_iff₀ pi_pos]; norm_num at *; linarith
    have := mul_le_mul_of_nonneg_right this (abs_nonneg (rad y))
    norm_num at *
    linarith
  have r2 : |rad y| ≤ 3.88 / 10 ^ 6 := by
    rcases (abs_nonneg (rad y)).eq_or_lt with q | q
    · rw [← q]; norm_num
    · have := sin_gt_sub_cube q
      have : |rad y| ^ 3 ≤ (1 / 10 ^ 5) ^ 3 := by gcongr
      norm_num at *
      linarith
  have e3 : |a' - a - 360 * k| = 2 * |y| := by
    rw [hy, abs_div, abs_of_pos (by norm_num : (0 : ℝ) < 2)]; ring
  rw [e3]
  have : |y| = |rad y| * 180 / π := by
    rw [← hr]; unfold rad; field_simp
  have r3 : |rad y| * 180 / π ≤ 3.88 / 10 ^ 6 * 180 / 3.1415 := by gcongr
  norm_num at *
  linarith

/-- Outside the tropics the sun is never within 1.3 degrees of the zenith or nadir. -/
theorem elev_outside {lat H d : ℝ} (hl : 25.5 ≤ |lat|) (hl' : |lat| ≤ 90) (hd : |d| ≤ 24.2) :
    |deg (arcsin (sunENU lat H d).z)| ≤ 88.7 := by
  have key : ∀ {lat H d : ℝ}, 25.5 ≤ |lat| → |lat| ≤ 90 → |d| ≤ 24.2 → deg (arcsin (sunENU lat H d).z) ≤ 88.7 := by
    intro lat H d hl hl' hd
    have l := abs_le.mp hl'
    have b := abs_le.mp hd
    have c1 : 0 ≤ cos (rad lat) := by
      refine cos_nonneg_of_mem_Icc ⟨?_, ?_⟩
      · rw [← rad_90, ← rad_neg, rad_le_rad]; exact l.1
      · rw [← rad_90, rad_le_rad]; exact l.2
    have c2 : 0 ≤ cos (rad d) := (cos_rad_pos (by norm_num at *; linarith) (by norm_num at *; linarith)).le
    have z1 : (sunENU lat H d).z ≤ cos (rad |lat - d|) := by
      have e : cos (rad |lat - d|) = cos (rad (lat - d)) := by
        rcases abs_choice (lat - d) with q | q <;> rw [q]
        rw [rad_neg, cos_neg]
      rw [← up_eq, e, rad_sub, cos_sub]
      have := mul_le_mul_of_nonneg_left (cos_le_one (rad H)) (mul_nonneg c1 c2)
      linarith
    have z2 : cos (rad |lat - d|) ≤ sin (rad 88.7) := by
      have e : rad 88.7 = π / 2 - rad 1.3 := by rw [← rad_90, ← rad_sub]; norm_num
      rw [e, sin_pi_div_two_sub]
      refine cos_le_cos_of_nonneg_of_le_pi ?_ ?_ (rad_le_rad.mpr ?_)
      · unfold rad; positivity
      · rw [← rad_180, rad_le_rad, abs_le]; norm_num at *; constructor <;> linarith
      · have := abs_sub_abs_le_abs_sub lat d
        norm_num at *; linarith
    rw [← rad_le_rad, rad_deg]
    rw [← arcsin_sin (x := rad 88.7)]
    · exact monotone_arcsin (z1.trans z2)
    · rw [← rad_90, ← rad_neg, rad_le_rad]; norm_num
    · rw [← rad_90, rad_le_rad]; norm_num
  rw [abs_le]
  refine ⟨?_, key hl hl' hd⟩
  have h := key (lat := lat) (H := H + 180) (d := -d) hl hl' (by rwa [abs_neg])
  have e : (sunENU lat (H + 180) (-d)).z = -(sunENU lat H d).z := by
    rw [← up_eq, ← up_eq, rad_add, rad_180, cos_add_pi, rad_neg, sin_neg, cos_neg]
    ring
  rw [e, arcsin_neg, deg_neg] at h
  linarith

theorem cos_outside {e : ℝ} (h : |e| ≤ 88.705) : 0.0225 ≤ cos (rad e) := by
  have hp := pi_gt_d4
  have hp' := pi_lt_d4
  have e1 : cos (rad e) = cos (rad |e|) := by
    rcases abs_choice e with q | q <;> rw [q]
    rw [rad_neg, cos_neg]
  have h1 : cos (rad 88.705) ≤ cos (rad |e|) := by
    refine cos_le_cos_of_nonneg_of_le_pi ?_ ?_ (rad_le_rad.mpr h)
    · unfold rad; positivity
    · rw [← rad_180, rad_le_rad]; norm_num
  rw [e1]
  refine le_trans ?_ h1
  have e2 : rad 88.705 = π / 2 - rad 1.295 := by rw [← rad_90, ← rad_sub]; norm_num
  rw [e2, cos_pi_div_two_sub]
  have h0 : 0 < rad 1.295 := by unfold rad; positivity
  have h4 : rad 1.295 ≤ 0.0227 := by unfold rad; norm_num at *; linarith
  have h5 : 0.0226 ≤ rad 1.295 := by unfold rad; norm_num at *; linarith
  have := sin_gt_sub_cube h0
  have h6 : rad 1.295 ^ 3 ≤ 0.0227 ^ 3 := by gcongr
  norm_num at *
  linarith

end Verif

namespace Verif.Props

open Verif.Spec Pysolar Pysolar.Solar Pysolar.Solartime Pysolar.Constants Real

/-- The components of the direction in terms of the azimuth. -/
theorem azimuth_parts {tp lat H d a : ℝ} (h1 : -90 < d) (h2 : d < 90)
    (ha : get_topocentric_azimuth_angle (mathB tp) (num H) (num lat) (num d) = .ok (num a)) :
    ∃ r : ℝ, 0 ≤ r ∧ r ≤ 1 ∧ r * sin (rad a) = -(cos (rad d) * sin (rad H)) ∧
      r * cos (rad a) = -sin (rad lat) * (cos (rad d) * cos (rad H)) + cos (rad lat) * sin (rad d) := by
  obtain ⟨e, b, he, hb, hdir⟩ := C19_direction tp lat H d h1 h2
  rw [num_injective (Except.ok.inj (ha.symm.trans hb))]
  rw [tea_eval] at he
  have b := deg_arcsin_bounds (sunENU lat H d).z
  rw [num_injective (Except.ok.inj he)] at b
  have hx := congrArg Vec3.x hdir
  have hy := congrArg Vec3.y hdir
  refine ⟨cos (rad e), ?_, cos_le_one _, hx, hy⟩
  refine cos_nonneg_of_mem_Icc ⟨?_, ?_⟩
  · rw [← rad_90, ← rad_neg, rad_le_rad]; exact b.1
  · rw [← rad_90, rad_le_rad]; exact b.2

theorem azimuth_gap {tp lat H d H' d' a a' g : ℝ} (h1 : |d| ≤ 24.2) (h2 : |d'| ≤ 24.2)
    (ha : get_topocentric_azimuth_angle (mathB tp) (num H) (num lat) (num d) = .ok (num a))
    (ha' : get_topocentric_azimuth_angle (mathB tp) (num H') (num lat) (num d') = .ok (num a'))
    (hg : 0 < g) (ht : g ≤ turn lat H d H' d') (lt : a < a') : a + deg g ≤ a' := by
  have h1 := abs_le.mp h1
  have h2 := abs_le.mp h2
  obtain ⟨r, r0, r1, x, y⟩ := azimuth_parts (by norm_num at *; linarith) (by norm_num at *; linarith) ha
  obtain ⟨r', r0', r1', x', y'⟩ := azimuth_parts (by norm_num at *; linarith) (by norm_num at *; linarith) ha'
  have e : r * r' * sin (rad (a' - a)) = turn lat H d H' d' := by
    rw [rad_sub, sin_sub]
    have : r * r' * (sin (rad a') * cos (rad a) - cos (rad a') * sin (rad a))
        = r * cos (rad a) * (r' * sin (rad a')) - r * sin (rad a) * (r' * cos (rad a')) := by ring
    rw [this, x, y, x', y']
    unfold turn
    rw [rad_sub, sin_sub]
    ring
  have p0 : 0 ≤ r * r' := mul_nonneg r0 r0'
  have p1 : r * r' ≤ 1 := mul_le_one₀ r1 r0' r1'
  have s0 : 0 ≤ sin (rad (a' - a)) := by
    by_contra hn
    have := mul_nonpos_of_nonneg_of_nonpos p0 (not_le.mp hn).le
    linarith
  have s1 : g ≤ sin (rad (a' - a)) := by nlinarith
  have hr : 0 ≤ rad (a' - a) := by rw [← rad_zero, rad_le_rad]; linarith
  have := s1.trans (sin_le hr)
  have := deg_mono this
  rw [deg_rad] at this
  linarith

/-- A sine away from the meridian. -/
theorem sin_off {x δ : ℝ} (h0 : 0 ≤ δ) (h1 : δ ≤ |x|) (h2 : |x| ≤ 180 - δ) : sin (rad δ) ≤ |sin (rad x)| := by
  have e : |sin (rad x)| = |sin (rad |x|)| := by
    rcases abs_choice x with q | q <;> rw [q]
    rw [rad_neg, sin_neg, abs_neg]
  rw [e]
  refine le_trans ?_ (le_abs_self _)
  generalize |x| = y at *
  rcases le_total y 90 with q | q
  · refine sin_le_sin_of_le_of_le_pi_div_two ?_ ?_ (rad_le_rad.mpr h1)
    · have : 0 ≤ rad δ := by rw [← rad_zero, rad_le_rad]; exact h0
      linarith [pi_pos]
    · rw [← rad_90, rad_le_rad]; exact q
  · rw [← sin_pi_sub (rad y), ← rad_180, ← rad_sub]
    refine sin_le_sin_of_le_of_le_pi_div_two ?_ ?_ (rad_le_rad.mpr (by linarith))
    · have : 0 ≤ rad δ := by rw [← rad_zero, rad_le_rad]; exact h0
      linarith [pi_pos]
    · rw [← rad_90, rad_le_rad]; linarith

theorem sin_rad_small (δ : ℝ) (h0 : 0 < δ) (h1 : δ ≤ 2) : 0.01744 * δ ≤ sin (rad δ) := by
  have hp := pi_gt_d4
  have hp' := pi_lt_d4
  have r0 : 0 < rad δ := by rw [← rad_zero, rad_lt_rad]; exact h0
  have r1 : rad δ ≤ 0.03491 := by
    unfold rad
    rw [div_le_iff₀ (by norm_num)]
    calc δ * π ≤ 2 * 3.1416 := by gcongr
      _ ≤ _ := by norm_num
  have r2 : 0.017452 * δ ≤ rad δ := by
    unfold rad
    rw [le_div_iff₀ (by norm_num)]
    nlinarith
  have := sin_gt_sub_cube r0
  have : rad δ ^ 3 ≤ 0.03491 ^ 2 * rad δ := by
    have : rad δ ^ 2 ≤ 0.03491 ^ 2 := by gcongr
    nlinarith
  norm_num at *
  linarith

/-- On its side of the meridian the azimuth keeps away from it. -/
theorem azimuth_off {tp lat H d a x δ : ℝ} {k : ℤ} (hx : x = H + 360 * k) (hd : |d| ≤ 24.2) (h0 : 0 < δ) (hδ : δ ≤ 2)
    (h1 : δ ≤ |x|) (h2 : |x| ≤ 180 - δ)
    (ha : get_topocentric_azimuth_angle (mathB tp) (num H) (num lat) (num d) = .ok (num a)) :
    (x < 0 → 0.9 * δ ≤ a ∧ a ≤ 180 - 0.9 * δ) ∧ (0 < x → 180 + 0.9 * δ ≤ a ∧ a ≤ 360 - 0.9 * δ) := by
  have hp := pi_lt_d4
  have hp0 := pi_pos
  have hd' := abs_le.mp hd
  have hx' := abs_le.mp h2
  obtain ⟨r, r0, r1, e, -⟩ := azimuth_parts (by norm_num at *; linarith) (by norm_num at *; linarith) ha
  have c1 : 0.9107 ≤ cos (rad d) := by
    have a : |rad d| ≤ 0.4224 := by
      unfold rad
      rw [abs_div, abs_mul, abs_of_pos pi_pos, abs_of_pos (by norm_num : (0 : ℝ) < 180), div_le_iff₀ (by norm_num)]
      calc |d| * π ≤ 24.2 * 3.1416 := by gcongr
        _ ≤ _ := by norm_num
    have b := one_sub_sq_div_two_le_cos (x := rad d)
    have c : rad d ^ 2 ≤ 0.4224 ^ 2 := by rw [← sq_abs]; gcongr
    norm_num at *
    linarith
  have s := (sin_rad_small δ h0 hδ).trans (sin_off h0.le h1 h2)
  rw [← (sin_lift hx).1] at s
  have sa : 0.01588 * δ ≤ |sin (rad a)| := by
    have : |r * sin (rad a)| = cos (rad d) * |sin (rad H)| := by
      rw [e, abs_neg, abs_mul, abs_of_pos (lt_of_lt_of_le (by norm_num) c1)]
    rw [abs_mul, abs_of_nonneg r0] at this
    have h3 : 0.9107 * (0.01744 * δ) ≤ cos (rad d) * |sin (rad H)| := by gcongr
    have h4 : r * |sin (rad a)| ≤ |sin (rad a)| := mul_le_of_le_one_left (abs_nonneg _) r1
    norm_num at *
    linarith
  -- the sine is at most the angle to any point of the meridian
  have far : ∀ j : ℤ, 0.9 * δ ≤ |a - 180 * j| := by
    intro j
    have e1 : |sin (rad a)| ≤ rad |a - 180 * j| := by
      have : |sin (rad a)| = |sin (rad (a - 180 * j))| := by
        rw [show rad (a - 180 * j) = rad a - j * π by unfold rad; ring, sin_sub_int_mul_pi, abs_mul, abs_zpow, abs_neg, abs_one,
          one_zpow, one_mul]
      rw [this]
      refine abs_sin_le_abs.trans (le_of_eq ?_)
      unfold rad
      rw [abs_div, abs_mul, abs_of_pos pi_pos, abs_of_pos (by norm_num : (0 : ℝ) < 180)]
    have e2 := sa.trans e1
    unfold rad at e2
    rw [le_div_iff₀ (by norm_num)] at e2
    have : |a - 180 * j| * π ≤ |a - 180 * j| * 3.1416 := by gcongr
    norm_num at *
    linarith
  obtain ⟨b, hb, p, q⟩ := C97_side tp lat d H
  have eb := num_injective (Except.ok.inj (ha.symm.trans hb))
  rw [← eb] at p q
  have f0 := far 0
  have f1 := far 1
  have f2 := far 2
  push_cast at f0 f1 f2
  constructor
  · intro hs
    obtain ⟨p1, p2⟩ := p (-k - 1) (by push_cast; linarith) (by push_cast; linarith)
    rw [abs_of_pos (by linarith)] at f0
    rw [abs_of_neg (by linarith)] at f1
    constructor <;> linarith
  · intro hs
    obtain ⟨p1, p2⟩ := q (-k) (by push_cast; linarith) (by push_cast; linarith)
    rw [abs_of_pos (by linarith)] at f1
    rw [abs_of_neg (by linarith)] at f2
    constructor <;> linarith

/-- North of 25.5 degrees the azimuth is away from north, except near midnight. -/
theorem azimuth_range {tp lat H d a x : ℝ} {k : ℤ} (hx : x = H + 360 * k) (hl : 25.5 ≤ lat) (hl' : lat < 90)
    (hd : |d| ≤ 24.2) (h2 : |x| ≤ 178.47)
    (ha : get_topocentric_azimuth_angle (mathB tp) (num H) (num lat) (num d) = .ok (num a)) : 1 ≤ a ∧ a ≤ 359 := by
  rcases le_or_gt 1.5 |x| with q | q
  · have o := azimuth_off hx hd (by norm_num : (0 : ℝ) < 1.5) (by norm_num) q (by norm_num at *; linarith) ha
    rcases lt_trichotomy x 0 with s | s | s
    · have := o.1 s
      norm_num at *
      constructor <;> linarith
    · rw [s, abs_zero] at q
      norm_num at q
    · have := o.2 s
      norm_num at *
      constructor <;> linarith
  · have q := abs_lt.mp q
    constructor
    · obtain ⟨b, a', hb, ha', n, -⟩ := C149_angle tp lat d d (-178) H (-178) x 0 k (by push_cast; ring) hx hd hd (by norm_num)
        (by norm_num at *; linarith) (by norm_num at *; linarith) (by rw [sub_self, abs_zero]; norm_num at *; linarith)
      have o := (azimuth_off (x := -178) (k := 0) (by push_cast; ring) hd (by norm_num : (0 : ℝ) < 1.5) (by norm_num)
        (by rw [abs_neg, abs_of_pos] <;> norm_num) (by rw [abs_neg, abs_of_pos] <;> norm_num) hb).1 (by norm_num)
      have n := n hl hl'
      rw [num_injective (Except.ok.inj (ha.symm.trans ha'))]
      norm_num at *
      linarith
    · obtain ⟨a', b, ha', hb, n, -⟩ := C149_angle tp lat d d H 178 x 178 k 0 hx (by push_cast; ring) hd hd
        (by norm_num at *; linarith) (by norm_num at *; linarith) (by norm_num)
        (by rw [sub_self, abs_zero]; norm_num at *; linarith)
      have o := (azimuth_off (x := 178) (k := 0) (by push_cast; ring) hd (by norm_num : (0 : ℝ) < 1.5) (by norm_num)
        (by rw [abs_of_pos] <;> norm_num) (by rw [abs_of_pos] <;> norm_num) hb).2 (by norm_num)
      have n := n hl hl'
      rw [num_injective (Except.ok.inj (ha.symm.trans ha'))]
      norm_num at *
      linarith

set_option maxHeartbeats 1000000 in
/-- The turn in a minute: hour angles at least 0.2498 degrees apart have azimuths at least 0.001 degrees apart. -/
theorem turn_minute {tp lat d d' H H' x x' a a' : ℝ} {k k' : ℤ} (hx : x = H + 360 * k) (hx' : x' = H' + 360 * k')
    (hd : |d| ≤ 24.2) (hd' : |d'| ≤ 24.2) (h1 : -178.47 ≤ x) (h2 : x + 0.2498 ≤ x') (h3 : x' ≤ 178.47)
    (hdd : |d' - d| ≤ 0.00504 * (x' - x))
    (ha : get_topocentric_azimuth_angle (mathB tp) (num H) (num lat) (num d) = .ok (num a))
    (ha' : get_topocentric_azimuth_angle (mathB tp) (num H') (num lat) (num d') = .ok (num a')) :
    (25.5 ≤ lat → lat < 90 → a + 0.001 ≤ a' ∧ 1 ≤ a ∧ a' ≤ 359) ∧
      (-90 < lat → lat ≤ -25.5 → 1.53 ≤ x ∨ x' ≤ -1.53 → a' + 0.001 ≤ a ∧ 1 ≤ a' ∧ a ≤ 359) := by
  have hg : (0 : ℝ) < 2.07 / 10 ^ 5 := by norm_num
  have dg : 0.001 ≤ deg (2.07 / 10 ^ 5) := by
    have := pi_lt_d4
    unfold deg
    rw [le_div_iff₀ pi_pos]
    norm_num at *
    linarith
  have hs : x' - x ≤ 179 → 2.07 / 10 ^ 5 ≤ 0.00476 * sin (rad (x' - x)) := by
    intro hle
    have e : |x' - x| = x' - x := abs_of_pos (by norm_num at *; linarith)
    have u := (sin_rad_small 0.2498 (by norm_num) (by norm_num)).trans
      (sin_off (x := x' - x) (by norm_num) (by rw [e]; norm_num at *; linarith) (by rw [e]; norm_num at *; linarith))
    rw [abs_of_pos (sin_rad_pos (by norm_num at *; linarith) (by norm_num at *; linarith))] at u
    norm_num at *
    linarith
  obtain ⟨b, b', hb, hb', n, s⟩ := C149_angle tp lat d d' H H' x x' k k' hx hx' hd hd' (by norm_num at *; linarith)
    (by norm_num at *; linarith) (by norm_num at *; linarith) hdd
  rw [← num_injective (Except.ok.inj (ha.symm.trans hb)), ← num_injective (Except.ok.inj (ha'.symm.trans hb'))] at n s
  clear hb hb'
  -- the least turn, north of the tropics
  have tm : ∀ {lat d d' : ℝ}, 25.5 ≤ lat → lat < 90 → |d| ≤ 24.2 → |d'| ≤ 24.2 → |d' - d| ≤ 0.00504 * (x' - x) →
      0 ≤ x ∨ x' ≤ 0 → 2.07 / 10 ^ 5 ≤ turn lat H d H' d' := by
    intro lat d d' l1 l2 hd hd' hdd hside
    rcases hside with hs' | hs'
    · refine (hs (by norm_num at *; linarith)).trans ?_
      rw [turn_lift hx hx']
      exact turn_ge l1 l2 hd hd' hs' (by norm_num at *; linarith) (by norm_num at *; linarith)
        (by norm_num at *; linarith) hdd
    · refine (hs (by norm_num at *; linarith)).trans ?_
      rw [turn_morning, turn_lift (x := -x') (x' := -x) (k := -k' - 1) (k' := -k - 1) ?_ ?_,
        show x' - x = -x - -x' by ring]
      · exact turn_ge l1 l2 hd' hd (by linarith) (by norm_num at *; linarith) (by norm_num at *; linarith)
          (by norm_num at *; linarith) (by rw [abs_sub_comm, show -x - -x' = x' - x by ring]; exact hdd)
      · push_cast; linarith
      · push_cast; linarith
  have ax : |x| ≤ 178.47 := abs_le.mpr ⟨by norm_num at *; linarith, by norm_num at *; linarith⟩
  have ax' : |x'| ≤ 178.47 := abs_le.mpr ⟨by norm_num at *; linarith, by norm_num at *; linarith⟩
  refine ⟨fun l1 l2 => ⟨?_, (azimuth_range hx l1 l2 hd ax ha).1, (azimuth_range hx' l1 l2 hd' ax' ha').2⟩,
    fun l1 l2 hside => ?_⟩
  · have n := n l1 l2
    by_cases hside : 0 ≤ x ∨ x' ≤ 0
    · have := azimuth_gap hd hd' ha ha' hg (tm l1 l2 hd hd' hdd hside) n
      linarith
    · push Not at hside
      obtain ⟨b, hb, p, -⟩ := C97_side tp lat d H
      obtain ⟨b', hb', -, q⟩ := C97_side tp lat d' H'
      have p := (p (-k - 1) (by push_cast; norm_num at *; linarith) (by push_cast; linarith)).2
      have q := (q (-k') (by push_cast; linarith) (by push_cast; norm_num at *; linarith)).1
      rw [← num_injective (Except.ok.inj (ha.symm.trans hb))] at p
      rw [← num_injective (Except.ok.inj (ha'.symm.trans hb'))] at q
      rcases le_or_gt 0.12 (-x) with u | u
      · have := ((azimuth_off hx hd (by norm_num : (0 : ℝ) < 0.12) (by norm_num) (by rw [abs_of_neg hside.1]; exact u)
          (by norm_num at *; linarith) ha).1 hside.1).2
        norm_num at *
        linarith
      · have := ((azimuth_off hx' hd' (by norm_num : (0 : ℝ) < 0.12) (by norm_num)
          (by rw [abs_of_pos hside.2]; norm_num at *; linarith) (by norm_num at *; linarith) ha').2 hside.2).1
        norm_num at *
        linarith
  · have s := s l1 l2 (hside.imp (fun h => lt_of_lt_of_le (by norm_num) h) (fun h => lt_of_le_of_lt h (by norm_num)))
    have m : ∀ {y : ℝ}, |y| ≤ 24.2 → |-y| ≤ 24.2 := fun h => by rwa [abs_neg]
    have sw : turn lat H' d' H d = turn (-lat) H (-d) H' (-d') := by
      rw [turn_south]
      unfold turn
      rw [rad_sub, rad_sub, sin_sub, sin_sub]
      ring
    have t := tm (lat := -lat) (d := -d) (d' := -d') (by linarith) (by linarith) (m hd) (m hd')
      (by rw [show -d' - -d = -(d' - d) by ring, abs_neg]; exact hdd)
      (hside.imp (fun h => le_trans (by norm_num) h) (fun h => h.trans (by norm_num)))
    rw [← sw] at t
    have := azimuth_gap hd' hd ha' ha hg t s
    refine ⟨by linarith, ?_, ?_⟩
    · rcases hside with u | u
      · have := ((azimuth_off hx' hd' (by norm_num : (0 : ℝ) < 1.5) (by norm_num)
          (by rw [abs_of_pos] <;> norm_num at * <;> linarith) (by norm_num at *; linarith) ha').2
          (by norm_num at *; linarith)).1
        norm_num at *
        linarith
      · have := ((azimuth_off hx' hd' (by norm_num : (0 : ℝ) < 1.5) (by norm_num)
          (by rw [abs_of_neg] <;> norm_num at * <;> linarith) (by norm_num at *; linarith) ha').1
          (by norm_num at *; linarith)).1
        norm_num at *
        linarith
    · rcases hside with u | u
      · have := ((azimuth_off hx hd (by norm_num : (0 : ℝ) < 1.5) (by norm_num)
          (by rw [abs_of_pos] <;> norm_num at * <;> linarith) (by norm_num at *; linarith) ha).2
          (by norm_num at *; linarith)).2
        norm_num at *
        linarith
      · have := ((azimuth_off hx hd (by norm_num : (0 : ℝ) < 1.5) (by norm_num)
          (by rw [abs_of_neg] <;> norm_num at * <;> linarith) (by norm_num at *; linarith) ha).1
          (by norm_num at *; linarith)).2
        norm_num at *
        linarith

/-- The azimuth in double precision outside the tropics. -/
theorem azimuth_double (F : F64) (tp : ℝ) {d : DateTime} {c : Civil} (h : UtcFields d c) {lat lon elev : ℝ}
    (hl : 25.5 ≤ |lat|) (hlat : |lat| ≤ 90 - 1 / 10 ^ 9) (hlon : |lon| ≤ 360) (he : |elev| ≤ 50000) :
    ∃ dec H a b,
      get_topocentric_position (mathB tp) (num lat) (num lon) (.dt d) (num elev) = .ok (num dec, num H) ∧ |dec| ≤ 24.2 ∧
      get_topocentric_azimuth_angle (mathB tp) (num H) (num lat) (num dec) = .ok (num a) ∧
      get_azimuth (rndB F) (flt F lat) (flt F lon) (.dt d) (flt F elev) = .ok (flt F b) ∧
      (1 ≤ a → a ≤ 359 → |b - a| ≤ 4.5 / 10 ^ 4) := by
  have hlat' := abs_lt.mp (lt_of_le_of_lt hlat (by norm_num) : |lat| < 90)
  obtain ⟨dec', H', b, jd, jde, dec, H, a, e, f1, f2, b0, b1, -, -, p1, p2, p3, hor⟩ :=
    C85_direction F tp d c h lat lon elev (.inl hlat) hlon he
  have bd : |dec| ≤ 24.2 := by
    have q := p1
    rw [topo_eval h] at q
    rw [← num_injective (Prod.mk.inj (Except.ok.inj q)).1]
    have a := abs_le.mp (topo_small tp h.1 (lon := lon) hlat'.1 hlat'.2 he).1
    have b := abs_le.mp (decOf_bound h.1)
    rw [abs_le]
    norm_num at *
    constructor <;> linarith
  have az : get_topocentric_azimuth_angle (mathB tp) (num H) (num lat) (num dec) = .ok (num a) := by
    have q1 := p1
    have q2 := p2
    rw [topo_eval h] at q1
    rw [azimuth_eval h] at q2
    rw [← num_injective (Prod.mk.inj (Except.ok.inj q1)).1, ← num_injective (Prod.mk.inj (Except.ok.inj q1)).2, taa_eval,
      ← num_injective (Except.ok.inj q2)]
    rfl
  refine ⟨dec, H, a, b, p1, bd, az, f2, fun a1 a2 => ?_⟩
  have ee : |e| ≤ 88.7 := by
    rw [tea_eval] at p3
    rw [← num_injective (Except.ok.inj p3)]
    exact elev_outside hl (by linarith) bd
  rcases hor with ⟨e', -, c1, c2, -⟩ | ⟨-, c1⟩
  · have ee' : |e'| ≤ 88.705 := by
      have := abs_sub_abs_le_abs_sub e' e
      norm_num at *
      linarith
    obtain ⟨k, hk⟩ := azimuth_close (cos_outside (ee.trans (by norm_num))) (cos_outside ee') c2
    have hk' := abs_le.mp hk
    have k1 : (-1 : ℝ) < (k : ℝ) := by norm_num at *; linarith
    have k2 : (k : ℝ) < 1 := by norm_num at *; linarith
    have k1' : -1 < k := by exact_mod_cast k1
    have k2' : k < 1 := by exact_mod_cast k2
    obtain rfl : k = 0 := by omega
    simpa using hk
  · norm_num at *
    linarith

/-- C151: computed in double precision, the azimuth of a datetime at least a minute later, by the clock as in C149: north
of 25.5 degrees it is strictly larger, between half past midnight and half past eleven at night of one day of local
mean solar time; south of -25.5 degrees it is strictly smaller in the morning, up to half past eleven, and in the
afternoon, from half past twelve. -/
theorem C151_double (F : F64) (d d' : DateTime) (c c' : Civil) (h : UtcFields d c) (h' : UtcFields d' c')
    (hy : c'.year = c.year) (hm : c'.month = c.month) (hlt : c.micros + 60000000 ≤ c'.micros)
    (hy1 : 1901 ≤ c.year) (hy2 : c.year ≤ 2099)
    (lat lon elev : ℝ) (hl : 25.5 ≤ |lat|) (hlat : |lat| ≤ 90 - 1 / 10 ^ 9) (hlon : |lon| ≤ 360) (he : |elev| ≤ 50000)
    (day : ℤ) :
    ∃ a a', get_azimuth (rndB F) (flt F lat) (flt F lon) (.dt d) (flt F elev) = .ok (flt F a) ∧
      get_azimuth (rndB F) (flt F lat) (flt F lon) (.dt d') (flt F elev) = .ok (flt F a') ∧
      (25.5 ≤ lat → 24 * day + 0.5 ≤ meanSolar lon c → meanSolar lon c' ≤ 24 * day + 23.5 → a < a') ∧
      (lat ≤ -25.5 → 24 * day + 0.5 ≤ meanSolar lon c → meanSolar lon c' ≤ 24 * day + 11.5 → a' < a) ∧
      (lat ≤ -25.5 → 24 * day + 12.5 ≤ meanSolar lon c → meanSolar lon c' ≤ 24 * day + 23.5 → a' < a) := by
  obtain ⟨hl1, hl2⟩ := abs_lt.mp (lt_of_le_of_lt hlat (by norm_num) : |lat| < 90)
  obtain ⟨dec, H, a, b, p1, bd, az, f, g⟩ := azimuth_double F 1 h hl hlat hlon he
  obtain ⟨dec', H', a', b', p1', bd', az', f', g'⟩ := azimuth_double F 1 h' hl hlat hlon he
  refine ⟨b, b', f, f', ?_⟩
  obtain ⟨k, hk⟩ := hour_mean h hy1 hy2 hl1 hl2 he p1
  obtain ⟨k', hk'⟩ := hour_mean h' (by omega) (by omega) hl1 hl2 he p1'
  obtain ⟨dec2, H2, _, _, dec3, H3, _, _, q1, -, -, q2, -, -, ⟨j, j1, j2⟩, hdd, -, -⟩ :=
    C139_steady 1 d d' c c' h h' hy hm (by omega) lat lon elev hl1 hl2 he _ rfl
  rw [p1] at q1
  rw [p1'] at q2
  rw [← num_injective (Prod.mk.inj (Except.ok.inj q1)).1, ← num_injective (Prod.mk.inj (Except.ok.inj q2)).1] at hdd
  rw [← num_injective (Prod.mk.inj (Except.ok.inj q1)).2, ← num_injective (Prod.mk.inj (Except.ok.inj q2)).2] at j1 j2
  have ems : meanSolar lon c' - meanSolar lon c = ((c'.micros - c.micros : ℤ) : ℝ) / 3600000000 := by
    unfold meanSolar
    push_cast
    ring
  have hh : (60 / 3600 : ℝ) ≤ ((c'.micros - c.micros : ℤ) : ℝ) / 3600000000 := by
    have : (60000000 : ℝ) ≤ ((c'.micros - c.micros : ℤ) : ℝ) := by exact_mod_cast (by omega : (60000000 : ℤ) ≤ c'.micros - c.micros)
    norm_num at *
    linarith
  rw [← ems] at hh j1 j2 hdd
  have key : 24 * day + 0.5 ≤ meanSolar lon c → meanSolar lon c' ≤ 24 * day + 23.5 →
      (25.5 ≤ lat → b < b') ∧
      (lat ≤ -25.5 → meanSolar lon c' ≤ 24 * day + 11.5 ∨ 24 * day + 12.5 ≤ meanSolar lon c → b' < b) := by
    generalize meanSolar lon c = m at *
    generalize meanSolar lon c' = m' at *
    intro u1 u2
    have hk := abs_le.mp hk
    have hk' := abs_le.mp hk'
    have adv : k' - k = j := by
      have e1 : (-1 : ℝ) < ((j - k' + k : ℤ) : ℝ) := by push_cast; norm_num at *; linarith
      have e2 : ((j - k' + k : ℤ) : ℝ) < 1 := by push_cast; norm_num at *; linarith
      have e1' : -1 < j - k' + k := by exact_mod_cast e1
      have e2' : j - k' + k < 1 := by exact_mod_cast e2
      omega
    have ej : (j : ℝ) = k' - k := by rw [← adv]; push_cast; ring
    rw [ej] at j1 j2
    obtain ⟨n, s⟩ := turn_minute (lat := lat) (x := H + 360 * (k - day : ℤ)) (x' := H' + 360 * (k' - day : ℤ)) rfl rfl bd bd'
      (by push_cast; norm_num at *; linarith) (by push_cast; norm_num at *; linarith)
      (by push_cast; norm_num at *; linarith) (by push_cast; norm_num at *; linarith) az az'
    constructor
    · intro l
      obtain ⟨n1, n2, n3⟩ := n l hl2
      have g := abs_le.mp (g n2 (by norm_num at *; linarith))
      have g' := abs_le.mp (g' (by norm_num at *; linarith) n3)
      norm_num at *
      linarith
    · intro l side
      obtain ⟨n1, n2, n3⟩ := s hl1 l (by
        rcases side with v | v
        · right
          push_cast
          norm_num at *
          linarith
        · left
          push_cast
          norm_num at *
          linarith)
      have g := abs_le.mp (g (by norm_num at *; linarith) n3)
      have g' := abs_le.mp (g' n2 (by norm_num at *; linarith))
      norm_num at *
      linarith
  have pos : meanSolar lon c < meanSolar lon c' := by norm_num at hh; linarith
  refine ⟨fun l u1 u2 => (key u1 u2).1 l, fun l u1 u2 => (key u1 ?_).2 l (Or.inl u2), fun l u1 u2 =>
    (key ?_ u2).2 l (Or.inr u1)⟩
  · norm_num at *; linarith
  · norm_num at *; linarith

/-! Instances of the hypotheses: Paris on 21 June 2000 at 12:00 and 12:01 UTC; Sydney (33.87 S, 151.21 E) on the evening
before in UTC. -/

example : UtcFields (utcDT ⟨2000, 6, 21, 12, 0, 0, 0⟩) ⟨2000, 6, 21, 12, 0, 0, 0⟩ ∧
    UtcFields (utcDT ⟨2000, 6, 21, 12, 1, 0, 0⟩) ⟨2000, 6, 21, 12, 1, 0, 0⟩ ∧ (25.5 : ℝ) ≤ |48.85| ∧
    (Civil.micros ⟨2000, 6, 21, 12, 0, 0, 0⟩ + 60000000 ≤ Civil.micros ⟨2000, 6, 21, 12, 1, 0, 0⟩) ∧
    24 * ((ymd2ord 2000 6 21 : ℤ) : ℝ) + 0.5 ≤ meanSolar 2.35 ⟨2000, 6, 21, 12, 0, 0, 0⟩ ∧
    meanSolar 2.35 ⟨2000, 6, 21, 12, 1, 0, 0⟩ ≤ 24 * ((ymd2ord 2000 6 21 : ℤ) : ℝ) + 23.5 := by
  refine ⟨utcDT_fields (civil_valid_of_check (by decide)), utcDT_fields (civil_valid_of_check (by decide)),
    by rw [abs_of_pos] <;> norm_num, by decide, ?_, ?_⟩
  · unfold meanSolar Civil.micros
    push_cast
    norm_num
    linarith
  · unfold meanSolar Civil.micros
    push_cast
    norm_num
    linarith

example : (25.5 : ℝ) ≤ |(-33.87)| ∧ |(-33.87 : ℝ)| ≤ 90 - 1 / 10 ^ 9 ∧
    24 * ((ymd2ord 2000 6 21 : ℤ) : ℝ) + 0.5 ≤ meanSolar 151.21 ⟨2000, 6, 20, 22, 0, 0, 0⟩ ∧
    meanSolar 151.21 ⟨2000, 6, 20, 22, 1, 0, 0⟩ ≤ 24 * ((ymd2ord 2000 6 21 : ℤ) : ℝ) + 11.5 := by
  refine ⟨by rw [abs_of_neg] <;> norm_num, by rw [abs_of_neg] <;> norm_num, ?_, ?_⟩
  · have e : (ymd2ord 2000 6 21 : ℤ) = ymd2ord 2000 6 20 + 1 := by decide
    rw [e]
    unfold meanSolar Civil.micros
    push_cast
    norm_num
    linarith
  · have e : (ymd2ord 2000 6 21 : ℤ) = ymd2ord 2000 6 20 + 1 := by decide
    rw [e]
    unfold meanSolar Civil.micros
    push_cast
    norm_num
    linarith

end Verif.Props
