import Verif.Props.Climb
import Verif.Props.FloatAltitude

/-!
# C152: small errors of the place are small errors of the direction
-/

namespace Verif

open Verif.Spec Real

/-- The reduced latitude changes by at most 0.4 percent more than the latitude. -/
theorem reduced_lip {x y : ℝ} (hx : x ∈ Set.Ioo (-(π / 2)) (π / 2)) (hy : y ∈ Set.Ioo (-(π / 2)) (π / 2)) :
    |arctan (0.99664719 * tan x) - arctan (0.99664719 * tan y)| ≤ 1.004 * |x - y| := by
  have key := Convex.norm_image_sub_le_of_norm_hasDerivWithin_le
    (f := fun x : ℝ => arctan (0.99664719 * tan x))
    (f' := fun x : ℝ => 1 / (1 + (0.99664719 * tan x) ^ 2) * (0.99664719 * (1 / cos x ^ 2)))
    (s := Set.Ioo (-(π / 2)) (π / 2)) (x := y) (y := x) (C := 1.004) ?_ ?_ (convex_Ioo _ _) hy hx
  · simpa [Real.norm_eq_abs] using key
  · intro z hz
    exact (((hasDerivAt_tan (cos_pos_of_mem_Ioo hz).ne').const_mul 0.99664719).arctan).hasDerivWithinAt
  · intro z hz
    have c0 := cos_pos_of_mem_Ioo hz
    have hs := sin_sq_add_cos_sq z
    rw [Real.norm_eq_abs, abs_of_nonneg (by positivity), tan_eq_sin_div_cos]
    have e : 1 / (1 + (0.99664719 * (sin z / cos z)) ^ 2) * (0.99664719 * (1 / cos z ^ 2))
        = 0.99664719 / (cos z ^ 2 + 0.99664719 ^ 2 * sin z ^ 2) := by
      field_simp
    rw [e, div_le_iff₀ (by positivity)]
    norm_num
    nlinarith [sq_nonneg (sin z), sq_nonneg (cos z)]

theorem elev_prod {e e' f f' K M : ℝ} (he : |e| ≤ 50000) (hf : |f'| ≤ 1) (hff : |f' - f| ≤ K)
    (hee : |e' - e| / 6378140 ≤ M) :
    |e' * f' / 6378140 - e * f / 6378140| ≤ 0.0079 * K + M := by
  have hK := (abs_nonneg _).trans hff
  rw [show e' * f' / 6378140 - e * f / 6378140 = e / 6378140 * (f' - f) + (e' - e) / 6378140 * f' by ring]
  refine (abs_add_le _ _).trans (add_le_add ?_ ?_)
  · rw [abs_mul, abs_div, abs_of_pos (by norm_num : (0 : ℝ) < 6378140)]
    calc |e| / 6378140 * |f' - f| ≤ 50000 / 6378140 * K := by gcongr
      _ ≤ _ := by gcongr; norm_num
  · rw [abs_mul, abs_div, abs_of_pos (by norm_num : (0 : ℝ) < 6378140)]
    calc |e' - e| / 6378140 * |f'| ≤ M * 1 := by gcongr; exact (div_nonneg (abs_nonneg _) (by norm_num)).trans hee
      _ = M := mul_one _

/-- The place of the observer in units of the earth's radius. -/
theorem place_lip (tp : ℝ) {lat lat' elev elev' K M : ℝ} (h1 : -90 < lat) (h2 : lat < 90) (h1' : -90 < lat') (h2' : lat' < 90)
    (he : |elev| ≤ 50000) (hK : rad |lat' - lat| ≤ K) (hM : |elev' - elev| / 6378140 ≤ M) :
    |rhoOf tp lat' elev' - rhoOf tp lat elev| ≤ 1.013 * K + M ∧
      |zetaOf tp lat' elev' - zetaOf tp lat elev| ≤ 1.013 * K + M := by
  have c1 := cos_rad_pos h1 h2
  have c2 := cos_rad_pos h1' h2'
  have hI : ∀ {x : ℝ}, -90 < x → x < 90 → rad x ∈ Set.Ioo (-(π / 2)) (π / 2) := fun a b =>
    ⟨by rw [← rad_90, ← rad_neg, rad_lt_rad]; exact a, by rw [← rad_90, rad_lt_rad]; exact b⟩
  have hL : |rad lat' - rad lat| ≤ K := by
    rw [← rad_sub]
    refine le_trans (le_of_eq ?_) hK
    unfold rad
    rw [abs_div, abs_mul, abs_of_pos pi_pos, abs_of_pos (by norm_num : (0 : ℝ) < 180)]
  have hK0 := (abs_nonneg _).trans hL
  have u := (reduced_lip (hI h1' h2') (hI h1 h2)).trans (mul_le_mul_of_nonneg_left hL (by norm_num))
  have cl := (Real.abs_cos_sub_cos_le _ _).trans hL
  have sl := (Real.abs_sin_sub_sin_le _ _).trans hL
  have cu := (Real.abs_cos_sub_cos_le _ _).trans u
  have su := (Real.abs_sin_sub_sin_le _ _).trans u
  have pe := elev_prod he (abs_cos_le_one (rad lat')) cl hM
  have pe' := elev_prod he (abs_sin_le_one (rad lat')) sl hM
  have et : tanP tp (rad lat) = tan (rad lat) := by rw [Props.tanP_of_pos c1, tan_eq_sin_div_cos]
  have et' : tanP tp (rad lat') = tan (rad lat') := by rw [Props.tanP_of_pos c2, tan_eq_sin_div_cos]
  unfold rhoOf zetaOf
  rw [et, et']
  generalize arctan (0.99664719 * tan (rad lat')) = u' at *
  generalize arctan (0.99664719 * tan (rad lat)) = u at *
  have := abs_le.mp cu
  have := abs_le.mp su
  have := abs_le.mp pe
  have := abs_le.mp pe'
  constructor
  · rw [abs_le]
    norm_num at *
    constructor <;> linarith
  · rw [abs_le]
    norm_num at *
    constructor <;> linarith

theorem par_place {r r' s f f' M : ℝ} (hr : |r| ≤ 1.01) (h0 : 0 ≤ s) (hs : s ≤ 4.5e-5) (hrr : |r' - r| ≤ 1.013 * M)
    (hf : |f'| ≤ 1) (hff : |f' - f| ≤ M) : |r' * s * f' - r * s * f| ≤ 9.11e-5 * M := by
  have hM := (abs_nonneg _).trans hff
  rw [show r' * s * f' - r * s * f = s * ((r' - r) * f' + r * (f' - f)) by ring, abs_mul, abs_of_nonneg h0]
  have : |(r' - r) * f' + r * (f' - f)| ≤ 1.013 * M * 1 + 1.01 * M := by
    refine (abs_add_le _ _).trans ?_
    rw [abs_mul, abs_mul]
    gcongr
  calc s * |(r' - r) * f' + r * (f' - f)| ≤ 4.5e-5 * (1.013 * M * 1 + 1.01 * M) := by gcongr
    _ = 4.5e-5 * 2.023 * M := by ring
    _ ≤ _ := by gcongr; norm_num

/-- The topocentric hour angle and declination at two places. -/
theorem topo_place (tp : ℝ) {c : Civil} (h : c.Valid) {lat lon elev lat' lon' elev' : ℝ} (h1 : -90 < lat) (h2 : lat < 90)
    (he : |elev| ≤ 50000) (h1' : -90 < lat') (h2' : lat' < 90) (he' : |elev'| ≤ 50000) (k : ℤ) {M : ℝ}
    (hM : M = rad (|lat' - lat| + |lon' - lon - 360 * k|) + |elev' - elev| / 6378140) :
    (∃ j : ℤ, |topoH tp lat' lon' elev' c - topoH tp lat lon elev c - 360 * j|
      ≤ |lon' - lon - 360 * k| + 1.02e-4 * deg M) ∧
      |topoDec tp lat' lon' elev' c - topoDec tp lat lon elev c| ≤ 1.5e-4 * deg M := by
  obtain ⟨hr0, hr1, hz⟩ := Props.rhoOf_bounds (tp := tp) h1 h2 he
  obtain ⟨hr0', hr1', hz'⟩ := Props.rhoOf_bounds (tp := tp) h1' h2' he'
  obtain ⟨s0, s1⟩ := sin_par_small h
  obtain ⟨d0, d1⟩ := Props.cos_dec_gt h
  have hp := pi_pos
  have rabs : ∀ x : ℝ, |rad x| = rad |x| := fun x => by
    unfold rad; rw [abs_div, abs_mul, abs_of_pos pi_pos, abs_of_pos (by norm_num : (0 : ℝ) < 180)]
  have radd : ∀ x y : ℝ, rad (x + y) = rad x + rad y := fun x y => by unfold rad; ring
  have rnn : ∀ x : ℝ, 0 ≤ rad |x| := fun x => by unfold rad; positivity
  have enn : 0 ≤ |elev' - elev| / 6378140 := by positivity
  rw [radd] at hM
  have hK : rad |lat' - lat| ≤ M := by have := rnn (lon' - lon - 360 * k); linarith
  have hG : rad |lon' - lon - 360 * k| ≤ M := by have := rnn (lat' - lat); linarith
  have hM0 : 0 ≤ M := (rnn _).trans hK
  have place : |rhoOf tp lat' elev' - rhoOf tp lat elev| ≤ 1.013 * M ∧
      |zetaOf tp lat' elev' - zetaOf tp lat elev| ≤ 1.013 * M := by
    have p := place_lip tp h1 h2 h1' h2' he (le_refl (rad |lat' - lat|)) (le_refl (|elev' - elev| / 6378140))
    have := rnn (lon' - lon - 360 * k)
    refine ⟨p.1.trans ?_, p.2.trans ?_⟩ <;> rw [hM] <;> norm_num <;> linarith
  -- the hour angle before parallax
  obtain ⟨m, hm⟩ : ∃ m : ℤ, lhaOf tp lon' c - lhaOf tp lon c = lon' - lon - 360 * m := by
    unfold lhaOf
    obtain ⟨a, ha⟩ := mod360_eq (astOf c + lon' - raOf tp c)
    obtain ⟨b, hb⟩ := mod360_eq (astOf c + lon - raOf tp c)
    refine ⟨a - b, ?_⟩
    rw [ha, hb]
    push_cast
    ring
  have hHd : rad (lhaOf tp lon' c) = rad (lhaOf tp lon c) + rad (lon' - lon - 360 * k) + ((k - m : ℤ) : ℝ) * (2 * π) := by
    have : lhaOf tp lon' c = lhaOf tp lon c + (lon' - lon - 360 * k) + 360 * ((k - m : ℤ) : ℝ) := by
      push_cast
      linarith
    rw [this]
    unfold rad
    ring
  have hsH : |sin (rad (lhaOf tp lon' c)) - sin (rad (lhaOf tp lon c))| ≤ M := by
    rw [hHd, sin_add_int_mul_two_pi]
    refine (Real.abs_sin_sub_sin_le _ _).trans ?_
    rw [add_sub_cancel_left, rabs]
    exact hG
  have hcH : |cos (rad (lhaOf tp lon' c)) - cos (rad (lhaOf tp lon c))| ≤ M := by
    rw [hHd, cos_add_int_mul_two_pi]
    refine (Real.abs_cos_sub_cos_le _ _).trans ?_
    rw [add_sub_cancel_left, rabs]
    exact hG
  have hr : |rhoOf tp lat elev| ≤ 1.01 := by rwa [abs_of_nonneg hr0]
  have hr' : |rhoOf tp lat' elev'| ≤ 1.01 := by rwa [abs_of_nonneg hr0']
  have cH := abs_cos_le_one (rad (lhaOf tp lon c))
  have sH := abs_sin_le_one (rad (lhaOf tp lon c))
  have cH' := abs_cos_le_one (rad (lhaOf tp lon' c))
  have sH' := abs_sin_le_one (rad (lhaOf tp lon' c))
  have hps : |rad (psraOf tp lat' lon' elev' c) - rad (psraOf tp lat lon elev c)| ≤ 1.02e-4 * M := by
    unfold psraOf
    have q := par_den hr s0 s1 cH d0
    have q' := par_den hr' s0 s1 cH' d0
    rw [rad_deg, rad_deg, Verif.arg_eq_arctan (lt_of_lt_of_le (by norm_num) q),
      Verif.arg_eq_arctan (lt_of_lt_of_le (by norm_num) q')]
    refine (lip_arctan _ _).trans ?_
    refine (quot_lip (m := 0.8999) (dn := 9.11e-5 * M) (dd := 9.11e-5 * M) (N := 4.55e-5) (by norm_num) q q' ?_ ?_ ?_).trans ?_
    · rw [abs_neg]
      exact par_size hr s0 s1 sH
    · rw [neg_sub_neg, abs_sub_comm]
      exact par_place hr s0 s1 place.1 sH' hsH
    · rw [sub_sub_sub_cancel_left, abs_sub_comm]
      exact par_place hr s0 s1 place.1 cH' hcH
    · rw [show 9.11e-5 * M / 0.8999 + 4.55e-5 * (9.11e-5 * M) / 0.8999 ^ 2
        = (9.11e-5 / 0.8999 + 4.55e-5 * 9.11e-5 / 0.8999 ^ 2) * M by ring]
      gcongr
      norm_num
  have back : ∀ {x y z : ℝ}, |rad x - rad y| ≤ z * M → |x - y| ≤ z * deg M := fun {x y z} hxy => by
    rw [← rad_sub, rabs] at hxy
    have := deg_mono hxy
    rw [deg_rad] at this
    rwa [show deg (z * M) = z * deg M by unfold deg; ring] at this
  refine ⟨⟨k - m, ?_⟩, ?_⟩
  · have := back hps
    unfold topoH
    rw [show lhaOf tp lon' c - psraOf tp lat' lon' elev' c - (lhaOf tp lon c - psraOf tp lat lon elev c)
        - 360 * ((k - m : ℤ) : ℝ) = (lon' - lon - 360 * k) - (psraOf tp lat' lon' elev' c - psraOf tp lat lon elev c) by
      push_cast; linarith]
    exact (abs_sub _ _).trans (add_le_add le_rfl this)
  · apply back
    unfold topoDec
    have q := par_den hz s0 s1 cH d0
    have q' := par_den hz' s0 s1 cH' d0
    rw [rad_deg, rad_deg, Verif.arg_eq_arctan (lt_of_lt_of_le (by norm_num) q),
      Verif.arg_eq_arctan (lt_of_lt_of_le (by norm_num) q')]
    refine (lip_arctan _ _).trans ?_
    have hzs : |zetaOf tp lat elev * sin (rad (parOf c)) * 1| ≤ 4.55e-5 := par_size hz s0 s1 (by simp)
    have hzs' : |zetaOf tp lat' elev' * sin (rad (parOf c)) * 1| ≤ 4.55e-5 := par_size hz' s0 s1 (by simp)
    rw [mul_one] at hzs hzs'
    have hzd : |(sin (rad (decOf c)) - zetaOf tp lat' elev' * sin (rad (parOf c)))
        - (sin (rad (decOf c)) - zetaOf tp lat elev * sin (rad (parOf c)))| ≤ 4.56e-5 * M := by
      rw [sub_sub_sub_cancel_left, ← sub_mul, abs_mul, abs_sub_comm, abs_of_nonneg s0]
      calc _ ≤ 1.013 * M * 4.5e-5 := by gcongr; exact place.2
        _ = 1.013 * 4.5e-5 * M := by ring
        _ ≤ _ := by gcongr; norm_num
    have hA : ∀ {x y : ℝ}, |x| ≤ 0.42 → |y| ≤ 4.55e-5 → |x - y| ≤ 0.4201 := fun hx hy => by
      refine (abs_sub _ _).trans ((add_le_add hx hy).trans ?_)
      norm_num
    refine (quot_lip (m := 0.8999) (dn := 8.85e-5 * M) (dd := 9.11e-5 * M) (N := 0.4201) (by norm_num) q q' ?_ ?_ ?_).trans ?_
    · rw [abs_mul]
      exact (mul_le_of_le_one_right (abs_nonneg _) (abs_cos_le_one _)).trans (hA d1 hzs)
    · have hc := (Real.abs_cos_sub_cos_le _ _).trans hps
      have ha := hA d1 hzs'
      generalize sin (rad (decOf c)) - zetaOf tp lat elev * sin (rad (parOf c)) = a at *
      generalize sin (rad (decOf c)) - zetaOf tp lat' elev' * sin (rad (parOf c)) = a' at *
      have hc1 := abs_cos_le_one (rad (psraOf tp lat lon elev c))
      generalize cos (rad (psraOf tp lat lon elev c)) = b at *
      generalize cos (rad (psraOf tp lat' lon' elev' c)) = b' at *
      rw [show a' * b' - a * b = (a' - a) * b + a' * (b' - b) by ring]
      refine (abs_add_le _ _).trans ?_
      rw [abs_mul, abs_mul]
      calc |a' - a| * |b| + |a'| * |b' - b| ≤ 4.56e-5 * M * 1 + 0.4201 * (1.02e-4 * M) := by gcongr
        _ = (4.56e-5 + 0.4201 * 1.02e-4) * M := by ring
        _ ≤ _ := by gcongr; norm_num
    · rw [sub_sub_sub_cancel_left, abs_sub_comm]
      exact par_place hz s0 s1 place.2 cH' hcH
    · rw [show 8.85e-5 * M / 0.8999 + 0.4201 * (9.11e-5 * M) / 0.8999 ^ 2
        = (8.85e-5 / 0.8999 + 0.4201 * 9.11e-5 / 0.8999 ^ 2) * M by ring]
      gcongr
      norm_num

/-- The same direction seen from the horizons of two latitudes. -/
theorem angleBetween_lat (lat lat' H d : ℝ) : angleBetween (sunENU lat' H d) (sunENU lat H d) ≤ |lat' - lat| := by
  refine angleBetween_le (sunENU_unit _ _ _) (sunENU_unit _ _ _) ?_
  have hu := sph_unit H d
  have hd : (sunENU lat' H d).dot (sunENU lat H d)
      = (sph H d).y ^ 2 + ((sph H d).x ^ 2 + (sph H d).z ^ 2) * cos (rad (lat' - lat)) := by
    rw [rad_sub, cos_sub]
    simp only [sunENU, toHorizon, Vec3.dot]
    ring
  have hu' : (sph H d).x ^ 2 + (sph H d).y ^ 2 + (sph H d).z ^ 2 = 1 := by
    rw [← hu]; simp only [Vec3.dot]; ring
  rw [hd]
  nlinarith [sq_nonneg (sph H d).y, cos_le_one (rad (lat' - lat))]

end Verif

namespace Verif.Props

open Verif.Spec Pysolar Pysolar.Solar Pysolar.Solartime Pysolar.Constants Real

/-- C152: two places, at one instant. The direction of the sun in the frame of the horizon, and its elevation angle before
refraction, differ by at most 1.0003 times the difference of the latitudes plus that of the longitudes (up to whole
turns), plus 2.5 billionths of a degree per metre of elevation. -/
theorem C152_place (tp : ℝ) (d : DateTime) (c : Civil) (h : UtcFields d c) (lat lon elev lat' lon' elev' : ℝ)
    (h1 : -90 < lat) (h2 : lat < 90) (he : |elev| ≤ 50000) (h1' : -90 < lat') (h2' : lat' < 90) (he' : |elev'| ≤ 50000)
    (k : ℤ) :
    ∃ dec H e a dec' H' e' a',
      get_topocentric_position (mathB tp) (num lat) (num lon) (.dt d) (num elev) = .ok (num dec, num H) ∧
      get_topocentric_elevation_angle (mathB tp) (num lat) (num dec) (num H) = .ok (num e) ∧
      get_azimuth (mathB tp) (num lat) (num lon) (.dt d) (num elev) = .ok (num a) ∧
      get_topocentric_position (mathB tp) (num lat') (num lon') (.dt d) (num elev') = .ok (num dec', num H') ∧
      get_topocentric_elevation_angle (mathB tp) (num lat') (num dec') (num H') = .ok (num e') ∧
      get_azimuth (mathB tp) (num lat') (num lon') (.dt d) (num elev') = .ok (num a') ∧
      angleBetween (horizontal e' a') (horizontal e a)
        ≤ 1.0003 * (|lat' - lat| + |lon' - lon - 360 * k|) + 2.5e-9 * |elev' - elev| ∧
      |e' - e| ≤ 1.0003 * (|lat' - lat| + |lon' - lon - 360 * k|) + 2.5e-9 * |elev' - elev| := by
  refine ⟨_, _, _, _, _, _, _, _, topo_eval h lat lon elev, tea_eval _ _ _, azimuth_eval h lat lon elev,
    topo_eval h lat' lon' elev', tea_eval _ _ _, azimuth_eval h lat' lon' elev', ?_⟩
  obtain ⟨⟨j, hj⟩, hd⟩ := topo_place tp h.1 (lon := lon) (lon' := lon') h1 h2 he h1' h2' he' k rfl
  have hdir : ∀ {lat lon elev : ℝ}, -90 < lat → lat < 90 → |elev| ≤ 50000 → horizontal
      (deg (arcsin (sunENU lat (topoH tp lat lon elev c) (topoDec tp lat lon elev c)).z)) (aziOf tp lat lon elev c)
        = sunENU lat (topoH tp lat lon elev c) (topoDec tp lat lon elev c) := by
    intro lat lon elev h1 h2 he
    have a := abs_le.mp (topo_small tp h.1 (lon := lon) h1 h2 he).1
    have b := abs_le.mp (decOf_bound h.1)
    exact azimuth_direction tp lat _ _ (by norm_num at *; linarith) (by norm_num at *; linarith)
  have key := (angleBetween_triangle _ (sunENU lat (topoH tp lat' lon' elev' c) (topoDec tp lat' lon' elev' c)) _).trans
    (add_le_add (angleBetween_lat lat lat' (topoH tp lat' lon' elev' c) (topoDec tp lat' lon' elev' c))
      (angleBetween_sunENU lat (H := topoH tp lat lon elev c) (H' := topoH tp lat' lon' elev' c)
        (δ := topoDec tp lat lon elev c) (δ' := topoDec tp lat' lon' elev' c) j))
  have hM : deg (rad (|lat' - lat| + |lon' - lon - 360 * k|) + |elev' - elev| / 6378140)
      ≤ |lat' - lat| + |lon' - lon - 360 * k| + 9e-6 * |elev' - elev| := by
    have hp := pi_gt_d4
    rw [show ∀ x y : ℝ, deg (x + y) = deg x + deg y from fun x y => by unfold deg; ring, deg_rad]
    gcongr
    unfold deg
    rw [div_le_iff₀ pi_pos]
    calc |elev' - elev| / 6378140 * 180 = |elev' - elev| * (180 / 6378140) := by ring
      _ ≤ |elev' - elev| * (9e-6 * 3.1415) := by gcongr; norm_num
      _ ≤ |elev' - elev| * (9e-6 * π) := by gcongr
      _ = _ := by ring
  have bound := key.trans (c := 1.0003 * (|lat' - lat| + |lon' - lon - 360 * k|) + 2.5e-9 * |elev' - elev|) (by
    have x := abs_nonneg (lat' - lat)
    have y := abs_nonneg (lon' - lon - 360 * k)
    have z := abs_nonneg (elev' - elev)
    generalize deg (rad (|lat' - lat| + |lon' - lon - 360 * k|) + |elev' - elev| / 6378140) = m at *
    generalize |lat' - lat| = p at *
    generalize |lon' - lon - 360 * k| = q at *
    generalize |elev' - elev| = r at *
    norm_num at *
    linarith)
  refine ⟨?_, (altitude_diff (sunENU_unit _ _ _) (sunENU_unit _ _ _)).trans bound⟩
  rw [hdir h1 h2 he, hdir h1' h2' he']
  exact bound

/-- C152 for the altitude at standard pressure and temperature, with the sun above the threshold of the refraction formula
at both places, or below it at both. -/
theorem C152_altitude (tp : ℝ) (htp : tp ≠ 0) (d : DateTime) (c : Civil) (h : UtcFields d c)
    (lat lon elev lat' lon' elev' : ℝ) (h1 : -90 < lat) (h2 : lat < 90) (he : |elev| ≤ 50000) (h1' : -90 < lat')
    (h2' : lat' < 90) (he' : |elev'| ≤ 50000) (k : ℤ) (alt alt' : ℝ)
    (ha : get_altitude (mathB tp) (num lat) (num lon) (.dt d) (num elev) (num standard_temperature)
      (num standard_pressure) = .ok (num alt))
    (ha' : get_altitude (mathB tp) (num lat') (num lon') (.dt d) (num elev') (num standard_temperature)
      (num standard_pressure) = .ok (num alt')) :
    ∃ dec H e dec' H' e',
      get_topocentric_position (mathB tp) (num lat) (num lon) (.dt d) (num elev) = .ok (num dec, num H) ∧
      get_topocentric_elevation_angle (mathB tp) (num lat) (num dec) (num H) = .ok (num e) ∧
      get_topocentric_position (mathB tp) (num lat') (num lon') (.dt d) (num elev') = .ok (num dec', num H') ∧
      get_topocentric_elevation_angle (mathB tp) (num lat') (num dec') (num H') = .ok (num e') ∧
      ((-0.83337 ≤ e ∧ -0.83337 ≤ e' ∧ e + 10.3 / (e + 5.11) ≠ 90 ∧ e' + 10.3 / (e' + 5.11) ≠ 90) ∨
          (e < -0.83337 ∧ e' < -0.83337) →
        |alt' - alt| ≤ 1.0003 * (|lat' - lat| + |lon' - lon - 360 * k|) + 2.5e-9 * |elev' - elev|) := by
  obtain ⟨dec, H, e, a, dec', H', e', a', p1, p2, -, p1', p2', -, -, hE⟩ :=
    C152_place tp d c h lat lon elev lat' lon' elev' h1 h2 he h1' h2' he' k
  refine ⟨dec, H, e, dec', H', e', p1, p2, p1', p2', ?_⟩
  obtain ⟨b, r, hr, hv⟩ := altitude_parts h p1 p2 ha
  obtain ⟨b', r', hr', hv'⟩ := altitude_parts h p1' p2' ha'
  rintro (⟨t, t', n, n'⟩ | ⟨t, t'⟩)
  · refine le_trans ?_ hE
    rw [hv, hv']
    rcases lt_trichotomy e e' with hlt | heq | hlt
    · obtain ⟨x, y⟩ := C140_apparent_slower tp e e' r r' htp t hlt b' n n' hr hr'
      rw [abs_of_pos x, abs_of_pos (by linarith)]
      exact y.le
    · subst heq
      rw [num_injective (Except.ok.inj (hr.symm.trans hr'))]
      simp
    · obtain ⟨x, y⟩ := C140_apparent_slower tp e' e r' r htp t' hlt b n' n hr' hr
      rw [abs_sub_comm, abs_of_pos x, abs_sub_comm, abs_of_pos (by linarith)]
      exact y.le
  · rw [hv, hv', num_injective (C30_zero_below _ _ _ _ t _ hr), num_injective (C30_zero_below _ _ _ _ t' _ hr')]
    simpa using hE

/-- C152 in double precision, with the default pressure and temperature: both elevation angles between the threshold of
the refraction formula and 89.8 degrees, or both below the threshold and away from the poles of the formula. -/
theorem C152_double (F : F64) (tp : ℝ) (htp : 10 ^ 6 ≤ |tp|) (d : DateTime) (c : Civil) (h : UtcFields d c)
    (lat lon elev lat' lon' elev' : ℝ) (hlat : |lat| ≤ 90 - 1 / 10 ^ 9) (hlon : |lon| ≤ 360) (he : |elev| ≤ 50000)
    (hlat' : |lat'| ≤ 90 - 1 / 10 ^ 9) (hlon' : |lon'| ≤ 360) (he' : |elev'| ≤ 50000) (k : ℤ) :
    ∃ dec H e dec' H' e',
      get_topocentric_position (mathB tp) (num lat) (num lon) (.dt d) (num elev) = .ok (num dec, num H) ∧
      get_topocentric_elevation_angle (mathB tp) (num lat) (num dec) (num H) = .ok (num e) ∧
      get_topocentric_position (mathB tp) (num lat') (num lon') (.dt d) (num elev') = .ok (num dec', num H') ∧
      get_topocentric_elevation_angle (mathB tp) (num lat') (num dec') (num H') = .ok (num e') ∧
      ((-0.83333 ≤ e ∧ e ≤ 89.8 ∧ -0.83333 ≤ e' ∧ e' ≤ 89.8) ∨
          ((-89.9 ≤ e ∧ e ≤ -5.31 ∨ -4.89 ≤ e ∧ e ≤ -0.83341) ∧
            (-89.9 ≤ e' ∧ e' ≤ -5.31 ∨ -4.89 ≤ e' ∧ e' ≤ -0.83341)) →
        ∃ alt alt', get_altitude (rndB F) (flt F lat) (flt F lon) (.dt d) (flt F elev) = .ok (flt F alt) ∧
          get_altitude (rndB F) (flt F lat') (flt F lon') (.dt d) (flt F elev') = .ok (flt F alt') ∧
          |alt' - alt| ≤ 1.0003 * (|lat' - lat| + |lon' - lon - 360 * k|) + 2.5e-9 * |elev' - elev| + 4 / 10 ^ 5) := by
  have htp0 : tp ≠ 0 := by rintro rfl; norm_num at htp
  obtain ⟨h1, h2⟩ := abs_lt.mp (lt_of_le_of_lt hlat (by norm_num) : |lat| < 90)
  obtain ⟨h1', h2'⟩ := abs_lt.mp (lt_of_le_of_lt hlat' (by norm_num) : |lat'| < 90)
  obtain ⟨dec, H, e, p1, p2, q⟩ := C86_default F tp htp d c h lat lon elev (.inl hlat) hlon he
  obtain ⟨dec', H', e', p1', p2', q'⟩ := C86_default F tp htp d c h lat' lon' elev' (.inl hlat') hlon' he'
  refine ⟨dec, H, e, dec', H', e', p1, p2, p1', p2', fun hs => ?_⟩
  obtain ⟨x, al, g1, g2, g3⟩ := q
    (by rw [abs_lt]; rcases hs with hs | ⟨hs | hs, -⟩ <;> constructor <;> norm_num at * <;> linarith)
    (by rcases hs with hs | ⟨hs | hs, -⟩
        · exact .inr (.inr hs.1)
        · exact .inl hs.2
        · exact .inr (.inl hs))
  obtain ⟨x', al', g1', g2', g3'⟩ := q'
    (by rw [abs_lt]; rcases hs with hs | ⟨-, hs | hs⟩ <;> constructor <;> norm_num at * <;> linarith)
    (by rcases hs with hs | ⟨-, hs | hs⟩
        · exact .inr (.inr hs.2.2.1)
        · exact .inl hs.2
        · exact .inr (.inl hs))
  refine ⟨x, x', g1, g1', ?_⟩
  obtain ⟨dec2, H2, e2, dec2', H2', e2', r1, r2, r1', r2', r⟩ :=
    C152_altitude tp htp0 d c h lat lon elev lat' lon' elev' h1 h2 he h1' h2' he' k al al' g2 g2'
  have y := Prod.mk.inj (Except.ok.inj (p1.symm.trans r1))
  rw [← num_injective y.1, ← num_injective y.2, p2] at r2
  have y' := Prod.mk.inj (Except.ok.inj (p1'.symm.trans r1'))
  rw [← num_injective y'.1, ← num_injective y'.2, p2'] at r2'
  rw [← num_injective (Except.ok.inj r2), ← num_injective (Except.ok.inj r2')] at r
  have nz : ∀ {e : ℝ}, -0.83333 ≤ e → e ≤ 89.8 → e + 10.3 / (e + 5.11) ≠ 90 := fun {e} u v =>
    ((C30_zenith_zero e (by norm_num at *; linarith)).1 (by norm_num at *; linarith)).ne
  have bound := r (by
    rcases hs with ⟨u, v, u', v'⟩ | ⟨u, v⟩
    · exact .inl ⟨by norm_num at *; linarith, by norm_num at *; linarith, nz u v, nz u' v'⟩
    · right
      constructor
      · rcases u with u | u <;> norm_num at * <;> linarith
      · rcases v with u | u <;> norm_num at * <;> linarith)
  have e1 : x' - x = (x' - al') - (x - al) + (al' - al) := by ring
  rw [e1]
  have t1 := abs_add_le ((x' - al') - (x - al)) (al' - al)
  have t2 := abs_sub (x' - al') (x - al)
  norm_num at *
  linarith

/-! Instances of the hypotheses: Boston to four digits and to two. -/

example (tp : ℝ) : ∃ dec H e dec' H' e',
    get_topocentric_position (mathB tp) (num 42.3583) (num (-71.0603)) (.dt sampleDT) (num 40) = .ok (num dec, num H) ∧
    get_topocentric_elevation_angle (mathB tp) (num 42.3583) (num dec) (num H) = .ok (num e) ∧
    get_topocentric_position (mathB tp) (num 42.36) (num (-71.06)) (.dt sampleDT) (num 0) = .ok (num dec', num H') ∧
    get_topocentric_elevation_angle (mathB tp) (num 42.36) (num dec') (num H') = .ok (num e') ∧ |e' - e| ≤ 0.0021 := by
  obtain ⟨dec, H, e, _, dec', H', e', _, p1, p2, -, p1', p2', -, -, h⟩ := C152_place tp sampleDT sampleUTC sample_utc 42.3583
    (-71.0603) 40 42.36 (-71.06) 0 (by norm_num) (by norm_num) (by norm_num) (by norm_num) (by norm_num) (by norm_num) 0
  refine ⟨dec, H, e, dec', H', e', p1, p2, p1', p2', h.trans ?_⟩
  norm_num [abs_of_pos, abs_of_neg]

end Verif.Props
