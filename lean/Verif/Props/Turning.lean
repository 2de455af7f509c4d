import Verif.Props.Climb

/-!
# C149: outside the tropics the azimuth turns one way all day
-/

namespace Verif

open Verif.Spec Real

/-- The numerator of the sine of the turn from the direction with hour angle `H` and declination `d` to the one with
`H'` and `d'`, in the horizontal plane. -/
noncomputable def turn (lat H d H' d' : ℝ) : ℝ :=
  sin (rad lat) * sin (rad (H' - H)) * (cos (rad d) * cos (rad d'))
    + cos (rad lat) * (sin (rad d') * cos (rad d) * sin (rad H) - sin (rad d) * cos (rad d') * sin (rad H'))

theorem mul_sin_le {x D : ℝ} (hx0 : 0 ≤ x) (hD0 : 0 ≤ D) (h : x + D ≤ π) : D * sin x ≤ π * sin D := by
  have hp := pi_pos
  have s0 : 0 ≤ sin D := sin_nonneg_of_nonneg_of_le_pi hD0 (by linarith)
  have sx := sin_le_one x
  have sx0 : 0 ≤ sin x := sin_nonneg_of_nonneg_of_le_pi hx0 (by linarith)
  rcases le_total D (π / 2) with h1 | h1
  · have j := mul_le_sin hD0 h1
    have : D ≤ π / 2 * sin D := by
      rw [show (2 : ℝ) / π * D = D / (π / 2) by field_simp, div_le_iff₀ (by positivity)] at j
      linarith
    nlinarith
  · have e : sin x ≤ sin D := by
      rw [← sin_pi_sub D]
      exact sin_le_sin_of_le_of_le_pi_div_two (by linarith) (by linarith) (by linarith)
    nlinarith

/-- For hour angles of one afternoon the sines differ by at most the sine of the difference. -/
theorem sin_diff_le {x y : ℝ} (hx0 : 0 ≤ x) (hxy : x ≤ y) (hy : y ≤ π) : |sin x - sin y| ≤ sin (y - x) := by
  have hp := pi_pos
  have e1 : sin (y - x) = 2 * sin ((y - x) / 2) * cos ((y - x) / 2) := by
    rw [← sin_two_mul]; congr 1; ring
  have e2 : sin x - sin y = -(2 * sin ((y - x) / 2) * cos ((y + x) / 2)) := by
    rw [← neg_sub (sin y), sin_sub_sin]
  have s0 : 0 ≤ sin ((y - x) / 2) := sin_nonneg_of_nonneg_of_le_pi (by linarith) (by linarith)
  rw [e1, e2, abs_neg, abs_mul, abs_of_nonneg (by positivity : (0 : ℝ) ≤ 2 * sin ((y - x) / 2))]
  refine mul_le_mul_of_nonneg_left ?_ (by positivity)
  rw [abs_le]
  constructor
  · rw [← cos_pi_sub]
    exact cos_le_cos_of_nonneg_of_le_pi (by linarith) (by linarith) (by linarith)
  · exact cos_le_cos_of_nonneg_of_le_pi (by linarith) (by linarith) (by linarith)

theorem turn_bound {lat d d' : ℝ} (hl : 25.5 ≤ lat) (hl' : lat ≤ 90) (hd : |d| ≤ 24.2) (hd' : |d'| ≤ 24.2) :
    0.0206 ≤ cos (rad d') * (cos (rad d) * sin (rad lat) - cos (rad lat) * |sin (rad d)|) := by
  have hp := pi_lt_d4
  have hp1 := pi_gt_d4
  have hp0 := pi_pos
  have c1 : 0.9107 ≤ cos (rad d') := by
    have a : |rad d'| ≤ 0.4224 := by
      unfold rad
      rw [abs_div, abs_mul, abs_of_pos pi_pos, abs_of_pos (by norm_num : (0 : ℝ) < 180), div_le_iff₀ (by norm_num)]
      calc |d'| * π ≤ 24.2 * 3.1416 := by gcongr
        _ ≤ _ := by norm_num
    have b := one_sub_sq_div_two_le_cos (x := rad d')
    have c : rad d' ^ 2 ≤ 0.4224 ^ 2 := by rw [← sq_abs]; gcongr
    norm_num at *
    linarith
  have e : cos (rad d) * sin (rad lat) - cos (rad lat) * |sin (rad d)| = sin (rad (lat - |d|)) := by
    rw [rad_sub, sin_sub]
    have h1 : cos (rad |d|) = cos (rad d) := by
      rcases abs_choice d with h | h <;> rw [h]
      rw [rad_neg, cos_neg]
    have h2 : sin (rad |d|) = |sin (rad d)| := by
      have : 0 ≤ sin (rad |d|) := by
        rcases (abs_nonneg d).eq_or_lt with h | h
        · rw [← h, rad_zero, sin_zero]
        · exact (sin_rad_pos h (by norm_num at *; linarith)).le
      rw [← abs_of_nonneg this]
      rcases abs_choice d with h | h <;> rw [h]
      rw [rad_neg, sin_neg, abs_neg]
    rw [h1, h2]
    ring
  have s : 0.02268 ≤ sin (rad (lat - |d|)) := by
    have h1 : rad 1.3 ≤ rad (lat - |d|) := rad_le_rad.mpr (by norm_num at *; linarith)
    have h2 : rad (lat - |d|) ≤ π / 2 := by
      rw [← rad_90]; exact rad_le_rad.mpr (by have := abs_nonneg d; linarith)
    have h0 : 0 < rad 1.3 := by unfold rad; positivity
    have h3 : sin (rad 1.3) ≤ sin (rad (lat - |d|)) :=
      sin_le_sin_of_le_of_le_pi_div_two (by linarith) h2 h1
    refine le_trans ?_ h3
    have h4 : rad 1.3 ≤ 0.0227 := by unfold rad; norm_num at *; linarith
    have h5 : 0.022688 ≤ rad 1.3 := by unfold rad; norm_num at *; linarith
    have := sin_gt_sub_cube h0
    have h6 : rad 1.3 ^ 3 ≤ 0.0227 ^ 3 := by gcongr
    norm_num at *
    linarith
  rw [e]
  calc (0.0206 : ℝ) ≤ 0.9107 * 0.02268 := by norm_num
    _ ≤ _ := by gcongr

/-- In one afternoon the sun seen from north of 25.5 degrees turns clockwise, by at least this much. -/
theorem turn_ge {lat H H' d d' : ℝ} (hl : 25.5 ≤ lat) (hl' : lat < 90) (hd : |d| ≤ 24.2) (hd' : |d'| ≤ 24.2)
    (h0 : 0 ≤ H) (hlt : H < H') (h180 : H' ≤ 180) (h1 : H' - H < 180) (hdd : |d' - d| ≤ 0.00504 * (H' - H)) :
    0.00476 * sin (rad (H' - H)) ≤ turn lat H d H' d' := by
  have hp := pi_lt_d4
  have b := turn_bound hl hl'.le hd hd'
  have hk := cos_rad_pos (by linarith) hl'
  have hk1 := cos_le_one (rad lat)
  have hD0 : 0 < rad (H' - H) := by rw [← rad_zero, rad_lt_rad]; linarith
  have hs : 0 < sin (rad (H' - H)) := sin_rad_pos (by linarith) h1
  have r0 : 0 ≤ rad H := by rw [← rad_zero, rad_le_rad]; exact h0
  have r1 : rad H' ≤ π := by rw [← rad_180, rad_le_rad]; exact h180
  have m := mul_sin_le (x := rad H) (D := rad (H' - H)) r0 hD0.le (by rw [rad_sub]; linarith)
  have q := sin_diff_le r0 (rad_le_rad.mpr hlt.le) r1
  rw [← rad_sub] at q
  have sd : |sin (rad d' - rad d)| ≤ 0.00504 * rad (H' - H) := by
    refine abs_sin_le_abs.trans ?_
    rw [← rad_sub]
    have e : |rad (d' - d)| = rad |d' - d| := by
      unfold rad
      rw [abs_div, abs_mul, abs_of_pos pi_pos, abs_of_pos (by norm_num : (0 : ℝ) < 180)]
    have e2 : 0.00504 * rad (H' - H) = rad (0.00504 * (H' - H)) := by unfold rad; ring
    rw [e, e2]
    exact rad_le_rad.mpr hdd
  have sH : 0 ≤ sin (rad H) := sin_nonneg_of_nonneg_of_le_pi r0 (by
    rw [← rad_180]; exact rad_le_rad.mpr (by linarith))
  have e : turn lat H d H' d' = sin (rad lat) * sin (rad (H' - H)) * (cos (rad d) * cos (rad d'))
      + cos (rad lat) * (sin (rad d) * cos (rad d') * (sin (rad H) - sin (rad H')) + sin (rad d' - rad d) * sin (rad H)) := by
    unfold turn
    rw [sin_sub (rad d')]
    ring
  rw [e]
  have c' : 0 ≤ cos (rad d') := (cos_rad_pos (by have := abs_le.mp hd'; norm_num at *; linarith)
    (by have := abs_le.mp hd'; norm_num at *; linarith)).le
  have t1 : -(|sin (rad d)| * cos (rad d') * sin (rad (H' - H)))
      ≤ sin (rad d) * cos (rad d') * (sin (rad H) - sin (rad H')) := by
    refine (abs_le.mp ?_).1
    rw [abs_mul, abs_mul, abs_of_nonneg c']
    gcongr
  have t2 : -(0.01584 * sin (rad (H' - H))) ≤ sin (rad d' - rad d) * sin (rad H) := by
    refine (abs_le.mp ?_).1
    rw [abs_mul, abs_of_nonneg sH]
    calc _ ≤ 0.00504 * rad (H' - H) * sin (rad H) := by gcongr
      _ = 0.00504 * (rad (H' - H) * sin (rad H)) := by ring
      _ ≤ 0.00504 * (π * sin (rad (H' - H))) := by gcongr
      _ ≤ 0.00504 * (3.1416 * sin (rad (H' - H))) := by gcongr
      _ ≤ _ := by norm_num at *; linarith
  have t3 : cos (rad lat) * (-(|sin (rad d)| * cos (rad d') * sin (rad (H' - H))) + -(0.01584 * sin (rad (H' - H))))
      ≤ cos (rad lat) * (sin (rad d) * cos (rad d') * (sin (rad H) - sin (rad H')) + sin (rad d' - rad d) * sin (rad H)) := by
    gcongr
  refine le_trans ?_ (add_le_add_right t3 _)
  have : sin (rad lat) * sin (rad (H' - H)) * (cos (rad d) * cos (rad d'))
      + cos (rad lat) * (-(|sin (rad d)| * cos (rad d') * sin (rad (H' - H))) + -(0.01584 * sin (rad (H' - H))))
      = sin (rad (H' - H)) * (cos (rad d') * (cos (rad d) * sin (rad lat) - cos (rad lat) * |sin (rad d)|)
        - cos (rad lat) * 0.01584) := by ring
  rw [this, mul_comm]
  refine mul_le_mul_of_nonneg_left ?_ hs.le
  norm_num at *
  linarith

theorem turn_pos {lat H H' d d' : ℝ} (hl : 25.5 ≤ lat) (hl' : lat < 90) (hd : |d| ≤ 24.2) (hd' : |d'| ≤ 24.2)
    (h0 : 0 ≤ H) (hlt : H < H') (h180 : H' ≤ 180) (h1 : H' - H < 180) (hdd : |d' - d| ≤ 0.00504 * (H' - H)) :
    0 < turn lat H d H' d' :=
  lt_of_lt_of_le (mul_pos (by norm_num) (sin_rad_pos (by linarith) h1)) (turn_ge hl hl' hd hd' h0 hlt h180 h1 hdd)

/-- Mirror images: the other hemisphere, and the morning. -/
theorem turn_south (lat H d H' d' : ℝ) : turn lat H d H' d' = -turn (-lat) H (-d) H' (-d') := by
  unfold turn
  simp only [rad_neg, sin_neg, cos_neg]
  ring

theorem turn_morning (lat H d H' d' : ℝ) : turn lat H d H' d' = turn lat (360 - H') d' (360 - H) d := by
  have e : ∀ x : ℝ, sin (rad (360 - x)) = -sin (rad x) := fun x => by
    have := Props.sin_rad_add_turns (-x) 1
    rw [rad_neg, sin_neg] at this
    rw [← this]
    congr 2
    push_cast
    ring
  unfold turn
  rw [e, e, show 360 - H - (360 - H') = H' - H by ring]
  ring

/-- Two bearings on one side of the meridian are in the order of the turn between them. -/
theorem arg_order {z w : ℂ} (h : 0 < z.re * w.im - z.im * w.re)
    (hb : (0 < z.im ∧ 0 < w.im) ∨ (z.im < 0 ∧ w.im < 0)) : Complex.arg z < Complex.arg w := by
  have hz : z ≠ 0 := by rintro rfl; simp at h
  have hw : w ≠ 0 := by rintro rfl; simp at h
  have n1 := norm_pos_iff.mpr hz
  have n2 := norm_pos_iff.mpr hw
  have e : ‖z‖ * ‖w‖ * sin (Complex.arg w - Complex.arg z) = z.re * w.im - z.im * w.re := by
    rw [sin_sub]
    have a1 := Complex.norm_mul_cos_arg z
    have a2 := Complex.norm_mul_sin_arg z
    have b1 := Complex.norm_mul_cos_arg w
    have b2 := Complex.norm_mul_sin_arg w
    rw [← a1, ← a2, ← b1, ← b2]
    simp only [Complex.norm_mul_cos_arg, Complex.norm_mul_sin_arg]
    rw [← a1, ← a2, ← b1, ← b2]
    ring
  have hs : 0 < sin (Complex.arg w - Complex.arg z) := by
    rw [← e] at h
    exact (pos_iff_pos_of_mul_pos h).mp (mul_pos n1 n2)
  by_contra hn
  have hn := not_lt.mp hn
  have hlt : -π ≤ Complex.arg w - Complex.arg z := by
    rcases hb with ⟨h1, h2⟩ | ⟨h1, h2⟩
    · have := Complex.arg_le_pi z
      have := Complex.arg_nonneg_iff.mpr h2.le
      linarith
    · have := Complex.arg_neg_iff.mpr h1
      have := Complex.neg_pi_lt_arg w
      linarith
  have := sin_nonpos_of_nonpos_of_neg_pi_le (sub_nonpos.mpr hn) hlt
  linarith

end Verif

namespace Verif.Props

open Verif.Spec Pysolar Pysolar.Solar Pysolar.Solartime Pysolar.Constants Real

/-- The azimuths of two directions on one side of the meridian, from the turn between them. -/
theorem azimuth_order {tp lat H d H' d' a a' : ℝ}
    (ha : get_topocentric_azimuth_angle (mathB tp) (num H) (num lat) (num d) = .ok (num a))
    (ha' : get_topocentric_azimuth_angle (mathB tp) (num H') (num lat) (num d') = .ok (num a'))
    (c1 : 0 < cos (rad d)) (c2 : 0 < cos (rad d')) (ht : 0 < turn lat H d H' d')
    (hb : (0 < sin (rad H) ∧ 0 < sin (rad H')) ∨ (sin (rad H) < 0 ∧ sin (rad H') < 0)) : a < a' := by
  rw [taa_eval, tanP_of_pos c1] at ha
  rw [taa_eval, tanP_of_pos c2] at ha'
  rw [← num_injective (Except.ok.inj ha), ← num_injective (Except.ok.inj ha')]
  clear ha ha'
  set z : ℂ := ⟨cos (rad H) * sin (rad lat) - sin (rad d) / cos (rad d) * cos (rad lat), sin (rad H)⟩ with hz
  set w : ℂ := ⟨cos (rad H') * sin (rad lat) - sin (rad d') / cos (rad d') * cos (rad lat), sin (rad H')⟩ with hw
  have e : z.re * w.im - z.im * w.re = turn lat H d H' d' / (cos (rad d) * cos (rad d')) := by
    rw [hz, hw]
    unfold turn
    rw [rad_sub, sin_sub]
    field_simp
    ring
  have o : Complex.arg z < Complex.arg w := arg_order (by rw [e]; positivity) hb
  have o' := deg_lt_deg.mpr o
  have a1 := deg_arg_bounds z
  have a2 := deg_arg_bounds w
  rw [mod360_of_mem, mod360_of_mem]
  · linarith
  · linarith
  · rcases hb with ⟨-, h⟩ | ⟨-, h⟩
    · have : Complex.arg w ≠ π := fun hh => by
        have := (Complex.arg_eq_pi_iff.mp hh).2
        rw [hw] at this
        exact h.ne' this
      have : Complex.arg w < π := lt_of_le_of_ne (Complex.arg_le_pi w) this
      have : deg (Complex.arg w) < 180 := by rw [← deg_pi, deg_lt_deg]; exact this
      linarith
    · have : deg (Complex.arg w) < 0 := by rw [← deg_zero, deg_lt_deg]; exact Complex.arg_neg_iff.mpr h
      linarith
  · linarith
  · linarith

theorem sin_lift {H x : ℝ} {k : ℤ} (hx : x = H + 360 * k) :
    sin (rad H) = sin (rad x) ∧ cos (rad H) = cos (rad x) := by
  rw [hx, sin_rad_add_turns, cos_rad_add_turns]
  exact ⟨rfl, rfl⟩

theorem turn_lift {lat H d H' d' x x' : ℝ} {k k' : ℤ} (hx : x = H + 360 * k) (hx' : x' = H' + 360 * k') :
    turn lat H d H' d' = turn lat x d x' d' := by
  unfold turn
  rw [rad_sub, rad_sub, sin_sub, sin_sub, (sin_lift hx).1, (sin_lift hx).2, (sin_lift hx').1, (sin_lift hx').2]

/-- C149 for `get_topocentric_azimuth_angle`: hour angles `x` and `x'` (up to turns) between the lower transits of one
day, the second larger, and declinations that differ by at most 0.00504 times as much. North of 25.5 degrees the
second azimuth is larger; south of -25.5 degrees it is smaller, if both are on one side of the meridian. -/
theorem C149_angle (tp lat d d' H H' x x' : ℝ) (k k' : ℤ) (hx : x = H + 360 * k) (hx' : x' = H' + 360 * k')
    (hd : |d| ≤ 24.2) (hd' : |d'| ≤ 24.2) (h1 : -180 < x) (h2 : x < x') (h3 : x' < 180)
    (hdd : |d' - d| ≤ 0.00504 * (x' - x)) :
    ∃ a a', get_topocentric_azimuth_angle (mathB tp) (num H) (num lat) (num d) = .ok (num a) ∧
      get_topocentric_azimuth_angle (mathB tp) (num H') (num lat) (num d') = .ok (num a') ∧
      (25.5 ≤ lat → lat < 90 → a < a') ∧
      (-90 < lat → lat ≤ -25.5 → 0 < x ∨ x' < 0 → a' < a) := by
  have cp : ∀ {x : ℝ}, |x| ≤ 24.2 → 0 < cos (rad x) := fun h => by
    have := abs_le.mp h
    exact cos_rad_pos (by norm_num at *; linarith) (by norm_num at *; linarith)
  have c1 := cp hd
  have c2 := cp hd'
  obtain ⟨a, ha, p, q⟩ := C97_side tp lat d H
  obtain ⟨a', ha', p', q'⟩ := C97_side tp lat d' H'
  refine ⟨a, a', ha, ha', ?_, ?_⟩
  · intro l1 l2
    rcases lt_trichotomy x 0 with hs | hs | hs
    · have b := (p (-k - 1) (by push_cast; linarith) (by push_cast; linarith)).2
      rcases lt_trichotomy x' 0 with hs' | hs' | hs'
      · refine azimuth_order ha ha' c1 c2 ?_ (Or.inr ⟨?_, ?_⟩)
        · rw [turn_morning, turn_lift (x := -x') (x' := -x) (k := k' - 1 - 2 * k') (k' := -k - 1) ?_ ?_]
          · exact turn_pos l1 l2 hd' hd (by linarith) (by linarith) (by linarith) (by linarith)
              (by rw [abs_sub_comm, show -x - -x' = x' - x by ring]; exact hdd)
          · push_cast; linarith
          · push_cast; linarith
        · rw [(sin_lift hx).1, ← neg_neg x, rad_neg, sin_neg]
          exact neg_neg_of_pos (sin_rad_pos (by linarith) (by linarith))
        · rw [(sin_lift hx').1, ← neg_neg x', rad_neg, sin_neg]
          exact neg_neg_of_pos (sin_rad_pos (by linarith) (by linarith))
      · have e := C97_noon tp lat d' H' (-k') (by push_cast; linarith) (by norm_num at *; linarith) l2.le
          (by have := abs_le.mp hd'; norm_num at *; linarith) (by have := abs_le.mp hd'; norm_num at *; linarith)
        rw [if_pos (by have := abs_le.mp hd'; norm_num at *; linarith)] at e
        rw [num_injective (Except.ok.inj (ha'.symm.trans e))]
        exact b
      · have b' := (q' (-k') (by push_cast; linarith) (by push_cast; linarith)).1
        linarith
    · have e := C97_noon tp lat d H (-k) (by push_cast; linarith) (by norm_num at *; linarith) l2.le
        (by have := abs_le.mp hd; norm_num at *; linarith) (by have := abs_le.mp hd; norm_num at *; linarith)
      rw [if_pos (by have := abs_le.mp hd; norm_num at *; linarith)] at e
      rw [num_injective (Except.ok.inj (ha.symm.trans e))]
      exact (q' (-k') (by push_cast; linarith) (by push_cast; linarith)).1
    · refine azimuth_order ha ha' c1 c2 ?_ (Or.inl ⟨?_, ?_⟩)
      · rw [turn_lift hx hx']
        exact turn_pos l1 l2 hd hd' hs.le h2 h3.le (by linarith) hdd
      · rw [(sin_lift hx).1]; exact sin_rad_pos hs (by linarith)
      · rw [(sin_lift hx').1]; exact sin_rad_pos (by linarith) h3
  · intro l1 l2 hside
    have sw : ∀ {l H d H' d' : ℝ}, turn l H' d' H d = -turn l H d H' d' := fun {l H d H' d'} => by
      unfold turn
      rw [rad_sub, rad_sub, sin_sub, sin_sub]
      ring
    have n : ∀ {y : ℝ}, |y| ≤ 24.2 → |-y| ≤ 24.2 := fun h => by rwa [abs_neg]
    have dd : |(-d') - (-d)| ≤ 0.00504 * (x' - x) := by
      rw [show -d' - -d = -(d' - d) by ring, abs_neg]; exact hdd
    refine azimuth_order ha' ha c2 c1 ?_ ?_
    · rw [sw, turn_south, neg_neg]
      rcases hside with hs | hs
      · rw [turn_lift hx hx']
        exact turn_pos (by linarith) (by linarith) (n hd) (n hd') hs.le h2 h3.le (by linarith) dd
      · rw [turn_morning, turn_lift (x := -x') (x' := -x) (k := -k' - 1) (k' := -k - 1) ?_ ?_]
        · exact turn_pos (by linarith) (by linarith) (n hd') (n hd) (by linarith) (by linarith) (by linarith) (by linarith)
            (by rw [abs_sub_comm, show -x - -x' = x' - x by ring]; exact dd)
        · push_cast; linarith
        · push_cast; linarith
    · rcases hside with hs | hs
      · refine Or.inl ⟨?_, ?_⟩
        · rw [(sin_lift hx').1]; exact sin_rad_pos (by linarith) h3
        · rw [(sin_lift hx).1]; exact sin_rad_pos hs (by linarith)
      · refine Or.inr ⟨?_, ?_⟩
        · rw [(sin_lift hx').1, ← neg_neg x', rad_neg, sin_neg]
          exact neg_neg_of_pos (sin_rad_pos (by linarith) (by linarith))
        · rw [(sin_lift hx).1, ← neg_neg x, rad_neg, sin_neg]
          exact neg_neg_of_pos (sin_rad_pos (by linarith) (by linarith))

/-- C149: two datetimes of one UTC month, with hour angles `x` and `x'` (up to turns) between the lower transits of one
day, less than a day apart. North of 25.5 degrees the later azimuth is the larger; south of -25.5 degrees it is the
smaller, if both are on one side of the meridian. -/
theorem C149_azimuth (tp : ℝ) (d d' : DateTime) (c c' : Civil) (h : UtcFields d c) (h' : UtcFields d' c')
    (hy : c'.year = c.year) (hm : c'.month = c.month) (hlt : c.micros < c'.micros)
    (lat lon elev : ℝ) (hl1 : -90 < lat) (hl2 : lat < 90) (he : |elev| ≤ 50000) :
    ∃ dec H a dec' H' a',
      get_topocentric_position (mathB tp) (num lat) (num lon) (.dt d) (num elev) = .ok (num dec, num H) ∧
      get_azimuth (mathB tp) (num lat) (num lon) (.dt d) (num elev) = .ok (num a) ∧
      get_topocentric_position (mathB tp) (num lat) (num lon) (.dt d') (num elev) = .ok (num dec', num H') ∧
      get_azimuth (mathB tp) (num lat) (num lon) (.dt d') (num elev) = .ok (num a') ∧
      ∀ x x' : ℝ, ∀ k k' : ℤ, x = H + 360 * k → x' = H' + 360 * k' → -180 < x → x' < 180 →
        |x' - x - 15 * (((c'.micros - c.micros : ℤ) : ℝ) / 3600000000)| ≤ 300 →
        ((25.5 ≤ lat → a < a') ∧ (lat ≤ -25.5 → 0 < x ∨ x' < 0 → a' < a)) := by
  obtain ⟨dec, H, e, a, dec', H', e', a', p1, -, p3, p1', -, p3', ⟨j, j1, j2⟩, hdd, -, -⟩ :=
    C139_steady tp d d' c c' h h' hy hm hlt.le lat lon elev hl1 hl2 he _ rfl
  refine ⟨dec, H, a, dec', H', a', p1, p3, p1', p3', ?_⟩
  intro x x' k k' hx hx' b1 b2 hn
  have hh : (0 : ℝ) < ((c'.micros - c.micros : ℤ) : ℝ) / 3600000000 := by
    have : (0 : ℝ) < ((c'.micros - c.micros : ℤ) : ℝ) := by exact_mod_cast sub_pos.mpr hlt
    positivity
  have hbig : ((c'.micros - c.micros : ℤ) : ℝ) / 3600000000 ≤ 768 := by
    obtain ⟨-, -, ⟨-, -, a1, a2⟩, a3, a4, a5, a6, a7, a8, a9, a10⟩ := h.1
    obtain ⟨-, -, ⟨-, -, g1, g2⟩, g3, g4, g5, g6, g7, g8, g9, g10⟩ := h'.1
    have d1 := (daysInMonth_bounds c.year c.month).2
    dsimp only at a1 a2 g1 g2
    rw [hy, hm] at g2
    rw [div_le_iff₀ (by norm_num)]
    have : c'.micros - c.micros ≤ 768 * 3600000000 := by
      unfold Civil.micros ymd2ord
      rw [hy, hm]
      omega
    exact_mod_cast this
  generalize ((c'.micros - c.micros : ℤ) : ℝ) / 3600000000 = t at *
  have adv : x' - x = H' - H + 360 * j := by
    have hn := abs_le.mp hn
    have e1 : (-1 : ℝ) < ((j - k' + k : ℤ) : ℝ) := by push_cast; norm_num at *; linarith
    have e2 : ((j - k' + k : ℤ) : ℝ) < 1 := by push_cast; norm_num at *; linarith
    have e1' : -1 < j - k' + k := by exact_mod_cast e1
    have e2' : j - k' + k < 1 := by exact_mod_cast e2
    have : k' - k = j := by omega
    rw [hx, hx', ← this]
    push_cast
    ring
  have bd : ∀ {d : DateTime} {c : Civil} {dec H : ℝ}, UtcFields d c →
      get_topocentric_position (mathB tp) (num lat) (num lon) (.dt d) (num elev) = .ok (num dec, num H) →
      |dec| ≤ 24.2 := by
    intro d c dec H h q
    rw [topo_eval h] at q
    rw [← num_injective (Prod.mk.inj (Except.ok.inj q)).1]
    have a := abs_le.mp (topo_small tp h.1 (lon := lon) hl1 hl2 he).1
    have b := abs_le.mp (decOf_bound h.1)
    rw [abs_le]
    norm_num at *
    constructor <;> linarith
  obtain ⟨z, z', hz, hz', n, s⟩ := C149_angle tp lat dec dec' H H' x x' k k' hx hx' (bd h p1) (bd h' p1') b1
    (by norm_num at *; linarith) b2 (by norm_num at *; linarith)
  have az : ∀ {d : DateTime} {c : Civil} {dec H a z : ℝ}, UtcFields d c →
      get_topocentric_position (mathB tp) (num lat) (num lon) (.dt d) (num elev) = .ok (num dec, num H) →
      get_azimuth (mathB tp) (num lat) (num lon) (.dt d) (num elev) = .ok (num a) →
      get_topocentric_azimuth_angle (mathB tp) (num H) (num lat) (num dec) = .ok (num z) → a = z := by
    intro d c dec H a z h q1 q2 q3
    rw [topo_eval h] at q1
    rw [azimuth_eval h] at q2
    rw [← num_injective (Prod.mk.inj (Except.ok.inj q1)).1, ← num_injective (Prod.mk.inj (Except.ok.inj q1)).2,
      taa_eval] at q3
    rw [← num_injective (Except.ok.inj q2), ← num_injective (Except.ok.inj q3)]
    rfl
  rw [az h p1 p3 hz, az h' p1' p3' hz']
  exact ⟨fun q => n q hl2, fun q => s hl1 q⟩

/-- C149 by the clock: between half past midnight and half past eleven at night of one day of local mean solar time
(the months are those of UTC), north of 25.5 degrees the azimuth grows; south of -25.5 degrees it falls in the
morning, up to half past eleven, and again in the afternoon, from half past twelve. -/
theorem C149_clock (tp : ℝ) (d d' : DateTime) (c c' : Civil) (h : UtcFields d c) (h' : UtcFields d' c')
    (hy : c'.year = c.year) (hm : c'.month = c.month) (hlt : c.micros < c'.micros)
    (hy1 : 1901 ≤ c.year) (hy2 : c.year ≤ 2099)
    (lat lon elev : ℝ) (hl1 : -90 < lat) (hl2 : lat < 90) (he : |elev| ≤ 50000) (day : ℤ) (a a' : ℝ)
    (ha : get_azimuth (mathB tp) (num lat) (num lon) (.dt d) (num elev) = .ok (num a))
    (ha' : get_azimuth (mathB tp) (num lat) (num lon) (.dt d') (num elev) = .ok (num a')) :
    (25.5 ≤ lat → 24 * day + 0.5 ≤ meanSolar lon c → meanSolar lon c' ≤ 24 * day + 23.5 → a < a') ∧
    (lat ≤ -25.5 → 24 * day + 0.5 ≤ meanSolar lon c → meanSolar lon c' ≤ 24 * day + 11.5 → a' < a) ∧
    (lat ≤ -25.5 → 24 * day + 12.5 ≤ meanSolar lon c → meanSolar lon c' ≤ 24 * day + 23.5 → a' < a) := by
  obtain ⟨dec, H, b, dec', H', b', p1, p2, p1', p2', q⟩ := C149_azimuth tp d d' c c' h h' hy hm hlt lat lon elev hl1 hl2 he
  rw [num_injective (Except.ok.inj (ha.symm.trans p2)), num_injective (Except.ok.inj (ha'.symm.trans p2'))]
  obtain ⟨k, hk⟩ := hour_mean h hy1 hy2 hl1 hl2 he p1
  obtain ⟨k', hk'⟩ := hour_mean h' (by omega) (by omega) hl1 hl2 he p1'
  have q := q (H + 360 * (k - day : ℤ)) (H' + 360 * (k' - day : ℤ)) _ _ rfl rfl
  have ems : meanSolar lon c' - meanSolar lon c = ((c'.micros - c.micros : ℤ) : ℝ) / 3600000000 := by
    unfold meanSolar
    push_cast
    ring
  have hh : (0 : ℝ) < ((c'.micros - c.micros : ℤ) : ℝ) / 3600000000 := by
    have : (0 : ℝ) < ((c'.micros - c.micros : ℤ) : ℝ) := by exact_mod_cast sub_pos.mpr hlt
    positivity
  rw [← ems] at q hh
  generalize meanSolar lon c = m at *
  generalize meanSolar lon c' = m' at *
  have hk := abs_le.mp hk
  have hk' := abs_le.mp hk'
  have hd : |H' + 360 * (k' - day : ℤ) - (H + 360 * (k - day : ℤ)) - 15 * (m' - m)| ≤ 300 := by
    rw [abs_le]
    push_cast
    norm_num at *
    constructor <;> linarith
  refine ⟨fun l u1 u2 => (q ?_ ?_ hd).1 l, fun l u1 u2 => (q ?_ ?_ hd).2 l (Or.inr ?_),
    fun l u1 u2 => (q ?_ ?_ hd).2 l (Or.inl ?_)⟩ <;> push_cast <;> norm_num at * <;> linarith

/-- The tropics are the limit: where the declination is above the latitude, both to the north, the azimuth turns back
before noon. -/
theorem C149_tropics (tp lat d : ℝ) (h0 : 0 ≤ lat) (h1 : lat < d) (h2 : d < 90) :
    ∃ x x' a a', 180 < x ∧ x < x' ∧ x' < 360 ∧
      get_topocentric_azimuth_angle (mathB tp) (num x) (num lat) (num d) = .ok (num a) ∧
      get_topocentric_azimuth_angle (mathB tp) (num x') (num lat) (num d) = .ok (num a') ∧ a' < a := by
  have c1 := cos_rad_pos (by linarith : -90 < lat) (h1.trans h2)
  have c2 := cos_rad_pos (by linarith : -90 < d) h2
  have sd := sin_rad_pos (lt_of_le_of_lt h0 h1) (by linarith : d < 180)
  have hs : 0 < sin (rad (d - lat)) := sin_rad_pos (by linarith) (by linarith)
  have sl : 0 ≤ sin (rad lat) := by
    rcases h0.eq_or_lt with e | e
    · rw [← e, rad_zero, sin_zero]
    · exact (sin_rad_pos e (by linarith)).le
  rw [rad_sub, sin_sub] at hs
  have hA : 0 < cos (rad lat) * sin (rad d) := mul_pos c1 sd
  set r : ℝ := cos (rad d) * sin (rad lat) / (cos (rad lat) * sin (rad d)) with hr
  have r0 : 0 ≤ r := div_nonneg (mul_nonneg c2.le sl) hA.le
  have r1 : r < 1 := by rw [hr, div_lt_one hA]; linarith
  have er : cos (rad d) * sin (rad lat) = r * (cos (rad lat) * sin (rad d)) := by
    rw [hr, div_mul_cancel₀ _ hA.ne']
  set u := deg (arccos ((3 + r) / 4)) with hu
  have eu : rad u = arccos ((3 + r) / 4) := by rw [hu, rad_deg]
  have cu : cos (rad u) = (3 + r) / 4 := by rw [eu, cos_arccos (by linarith) (by linarith)]
  have u0 : 0 < u := by
    rw [← rad_lt_rad, rad_zero, eu, arccos_pos]; linarith
  have u1 : u < 90 := by
    rw [← rad_lt_rad, rad_90, eu, arccos_lt_pi_div_two]; linarith
  have su := sin_rad_pos u0 (by linarith : u < 180)
  have neg : ∀ y : ℝ, 0 < y → y < 180 → sin (rad (360 - y)) < 0 := by
    intro y y0 y1
    rw [(sin_lift (H := 360 - y) (x := -y) (k := -1) (by push_cast; ring)).1, rad_neg, sin_neg]
    exact neg_neg_of_pos (sin_rad_pos y0 y1)
  refine ⟨360 - 2 * u, 360 - u, _, _, by linarith, by linarith, by linarith, taa_eval _ _ _, taa_eval _ _ _, ?_⟩
  refine azimuth_order (taa_eval _ _ _) (taa_eval _ _ _) c2 c2 ?_
    (Or.inr ⟨neg u u0 (by linarith), neg (2 * u) (by linarith) (by linarith)⟩)
  rw [turn_morning, show 360 - (360 - 2 * u) = 2 * u by ring, show 360 - (360 - u) = u by ring]
  have e : turn lat (2 * u) d u d = sin (rad u) * cos (rad d) *
      (cos (rad lat) * sin (rad d) * (2 * cos (rad u) - 1) - cos (rad d) * sin (rad lat)) := by
    unfold turn
    rw [show u - 2 * u = -u by ring, rad_neg, sin_neg, show rad (2 * u) = 2 * rad u by unfold rad; ring, sin_two_mul]
    ring
  rw [e, er, cu]
  refine mul_pos (mul_pos su c2) ?_
  rw [show cos (rad lat) * sin (rad d) * (2 * ((3 + r) / 4) - 1) - r * (cos (rad lat) * sin (rad d))
    = cos (rad lat) * sin (rad d) * ((1 - r) / 2) by ring]
  exact mul_pos hA (by linarith)

/-! Instances of the hypotheses: Paris (48.85 N, 2.35 E) on 21 June 2000 at 3 and 20 o'clock UTC. -/

example : UtcFields (utcDT ⟨2000, 6, 21, 3, 0, 0, 0⟩) ⟨2000, 6, 21, 3, 0, 0, 0⟩ ∧
    UtcFields (utcDT ⟨2000, 6, 21, 20, 0, 0, 0⟩) ⟨2000, 6, 21, 20, 0, 0, 0⟩ ∧ (25.5 : ℝ) ≤ 48.85 ∧
    24 * ((ymd2ord 2000 6 21 : ℤ) : ℝ) + 0.5 ≤ meanSolar 2.35 ⟨2000, 6, 21, 3, 0, 0, 0⟩ ∧
    meanSolar 2.35 ⟨2000, 6, 21, 20, 0, 0, 0⟩ ≤ 24 * ((ymd2ord 2000 6 21 : ℤ) : ℝ) + 23.5 := by
  refine ⟨utcDT_fields (civil_valid_of_check (by decide)), utcDT_fields (civil_valid_of_check (by decide)), by norm_num,
    ?_, ?_⟩
  · unfold meanSolar Civil.micros
    push_cast
    norm_num
    linarith
  · unfold meanSolar Civil.micros
    push_cast
    norm_num
    linarith

/-- The angles of one morning at 40 degrees north. -/
example : (25.5 : ℝ) ≤ 40 ∧ |(20 : ℝ)| ≤ 24.2 ∧ |(20.1 : ℝ)| ≤ 24.2 ∧ (-60 : ℝ) = 300 + 360 * (-1 : ℤ) ∧
    (-180 : ℝ) < -60 ∧ (-60 : ℝ) < -30 ∧ |(20.1 : ℝ) - 20| ≤ 0.00504 * (-30 - -60) := by
  rw [abs_le, abs_le, abs_le]
  norm_num

end Verif.Props
