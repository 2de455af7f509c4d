import Verif.Proofs.FastHour
import Verif.Proofs.SkyAngles
import Verif.Props.Motion

/-!
# How fast the computed direction of the sun moves
-/

namespace Verif

open Verif.Spec Verif.Props Pysolar Pysolar.Solar Pysolar.Constants Pysolar.Solartime Real

/-! ## Geometry -/

theorem angleBetween_rotX (e : ℝ) (u v : Vec3) : angleBetween (rotX e u) (rotX e v) = angleBetween u v := by
  unfold angleBetween
  rw [rotX_dot, rotX_dot, rotX_dot]

/-- Turning the frame about the x axis moves a unit vector by at most the angle turned. -/
theorem angleBetween_rotX_angle (e e' : ℝ) {u : Vec3} (hu : u.dot u = 1) :
    angleBetween (rotX e' u) (rotX e u) ≤ |e' - e| := by
  refine angleBetween_le ((rotX_dot _ _ _).trans hu) ((rotX_dot _ _ _).trans hu) ?_
  have hd : (rotX e' u).dot (rotX e u) = u.x ^ 2 + (u.y ^ 2 + u.z ^ 2) * cos (rad (e' - e)) := by
    rw [rad_sub, cos_sub]
    simp only [rotX, Vec3.dot]
    ring
  have hu' : u.x ^ 2 + u.y ^ 2 + u.z ^ 2 = 1 := by
    rw [← hu]; simp only [Vec3.dot]; ring
  rw [hd]
  nlinarith [sq_nonneg u.x, cos_le_one (rad (e' - e))]

/-- Hour angles are sidereal time minus right ascension. -/
theorem angleBetween_hour (t t' a a' δ δ' : ℝ) (k : ℤ) :
    angleBetween (sph (t' - a') δ') (sph (t - a) δ) ≤ |t' - t - 360 * k| + angleBetween (sph a' δ') (sph a δ) := by
  have h1 : angleBetween (sph (t - a') δ') (sph (t - a) δ) = angleBetween (sph a' δ') (sph a δ) := by
    have : (sph (t - a') δ').dot (sph (t - a) δ) = (sph a' δ').dot (sph a δ) := by
      simp only [sph, Vec3.dot, rad_sub, cos_sub, sin_sub]
      have := sin_sq_add_cos_sq (rad t)
      linear_combination (cos (rad δ') * cos (rad δ) * (cos (rad a') * cos (rad a) + sin (rad a') * sin (rad a))) * this
    unfold angleBetween
    rw [this, sph_unit, sph_unit, sph_unit, sph_unit]
  rw [← h1]
  refine (angleBetween_triangle _ (sph (t - a') δ') _).trans ?_
  gcongr
  rw [← sph_add_turns (t - a') δ' k]
  refine (angleBetween_sph_lon _ _ _).trans (le_of_eq ?_)
  congr 1
  ring

/-! ## Rates -/

theorem pow_lip {a b : ℝ} (ha : |a| ≤ 1) (hb : |b| ≤ 1) (n : ℕ) : |a ^ n - b ^ n| ≤ n * |a - b| := by
  induction n with
  | zero => simp
  | succ n ih =>
    have e : a ^ (n + 1) - b ^ (n + 1) = a * (a ^ n - b ^ n) + (a - b) * b ^ n := by ring
    rw [e]
    refine (abs_add_le _ _).trans ?_
    rw [abs_mul, abs_mul, abs_pow]
    have h1 : |a| * |a ^ n - b ^ n| ≤ 1 * (n * |a - b|) := by gcongr
    have h2 : |a - b| * |b| ^ n ≤ |a - b| * 1 := by
      gcongr
      exact pow_le_one₀ (abs_nonneg _) hb
    push_cast
    linarith

theorem meanObl_lip {u v : ℝ} (hu : |u| ≤ 1) (hv : |v| ≤ 1) : |meanObl u - meanObl v| ≤ 12800 * |u - v| := by
  have h1 := abs_le.mp (le_refl |u - v|)
  have h2 := abs_le.mp (pow_lip hu hv 2)
  have h3 := abs_le.mp (pow_lip hu hv 3)
  have h4 := abs_le.mp (pow_lip hu hv 4)
  have h5 := abs_le.mp (pow_lip hu hv 5)
  have h6 := abs_le.mp (pow_lip hu hv 6)
  have h7 := abs_le.mp (pow_lip hu hv 7)
  have h8 := abs_le.mp (pow_lip hu hv 8)
  have h9 := abs_le.mp (pow_lip hu hv 9)
  have h10 := abs_le.mp (pow_lip hu hv 10)
  generalize |u - v| = D at *
  unfold meanObl
  push_cast at *
  rw [abs_le]
  norm_num at *
  constructor <;> linarith

/-- Elapsed ephemeris and solar days against elapsed UTC. -/
theorem elapsed {c c' : Civil} (h : c.Valid) (h' : c'.Valid) {D : ℝ}
    (hD : D = |((c'.micros - c.micros : ℤ) : ℝ)| / 86400000000) :
    |jdOf c' - jdOf c| ≤ D + 6 / 86400 ∧ |jdeOf c' - jdeOf c| ≤ D + 27 / 86400 := by
  have hu := ut_small (Y := c.year) (M := c.month) h.2.2.1.1 h.2.2.1.2.1
  have hu' := ut_small (Y := c'.year) (M := c'.month) h'.2.2.1.1 h'.2.2.1.2.1
  have hb := taiMinusUtc_bounds c.year c.month
  have hb' := taiMinusUtc_bounds c'.year c'.month
  have u1 : (-3 : ℝ) ≤ taiMinusUtc c.year c.month + 32.184 - (dtVal c.year c.month : ℝ) := by
    have := (Rat.cast_le (K := ℝ)).mpr hu.1
    push_cast at this
    norm_num at this ⊢
    exact this
  have u2 : (taiMinusUtc c.year c.month : ℝ) + 32.184 - (dtVal c.year c.month : ℝ) ≤ 3 := by
    have := (Rat.cast_le (K := ℝ)).mpr hu.2
    push_cast at this
    norm_num at this ⊢
    exact this
  have v1 : (-3 : ℝ) ≤ taiMinusUtc c'.year c'.month + 32.184 - (dtVal c'.year c'.month : ℝ) := by
    have := (Rat.cast_le (K := ℝ)).mpr hu'.1
    push_cast at this
    norm_num at this ⊢
    exact this
  have v2 : (taiMinusUtc c'.year c'.month : ℝ) + 32.184 - (dtVal c'.year c'.month : ℝ) ≤ 3 := by
    have := (Rat.cast_le (K := ℝ)).mpr hu'.2
    push_cast at this
    norm_num at this ⊢
    exact this
  have b1 : (10 : ℝ) ≤ taiMinusUtc c.year c.month := by exact_mod_cast hb.1
  have b2 : (taiMinusUtc c.year c.month : ℝ) ≤ 37 := by exact_mod_cast hb.2
  have b1' : (10 : ℝ) ≤ taiMinusUtc c'.year c'.month := by exact_mod_cast hb'.1
  have b2' : (taiMinusUtc c'.year c'.month : ℝ) ≤ 37 := by exact_mod_cast hb'.2
  have hA := abs_le.mp (le_refl |((c'.micros - c.micros : ℤ) : ℝ)|)
  have hD' : |((c'.micros - c.micros : ℤ) : ℝ)| = 86400000000 * D := by rw [hD]; ring
  rw [hD'] at hA
  unfold jdOf jdeOf
  push_cast at *
  generalize (c.micros : ℝ) = m at *
  generalize (c'.micros : ℝ) = m' at *
  generalize (taiMinusUtc c.year c.month : ℝ) = a at *
  generalize (taiMinusUtc c'.year c'.month : ℝ) = a' at *
  generalize (dtVal c.year c.month : ℝ) = t at *
  generalize (dtVal c'.year c'.month : ℝ) = t' at *
  clear hu hu' hb hb' hD hD'
  constructor <;> rw [abs_le] <;> constructor <;> norm_num at * <;> linarith

/-- The sun's longitude, latitude and the obliquity. -/
theorem ecliptic_motion {c c' : Civil} (h : c.Valid) (h' : c'.Valid) :
    ∃ k : ℤ, |lamOf c' - lamOf c - 360 * k| ≤ 1.045 * |jdeOf c' - jdeOf c| + 0.01198 ∧
      |betaOf c' - betaOf c| ≤ 0.002 ∧ |oblOf c' - oblOf c| ≤ 1e-6 * |jdeOf c' - jdeOf c| + 0.00568 := by
  have hd : 365250 * (jmeOf c' - jmeOf c) = jdeOf c' - jdeOf c := by unfold jmeOf jceOf; ring
  have hl : ∃ k : ℤ, |mod360 (helioLon (jmeOf c') + 180) - mod360 (helioLon (jmeOf c) + 180) - 360 * k|
      ≤ 1.045 * |jdeOf c' - jdeOf c| := by
    rcases le_total (jmeOf c) (jmeOf c') with hle | hle
    · obtain ⟨k, h1, h2⟩ := glon_rate (a := 0.926) (b := 1.045) (c := 8) (by exact_mod_cast abs_jmeOf h)
        (by exact_mod_cast abs_jmeOf h') hle lonRest_lip8 (by norm_num) (by norm_num) (by norm_num) (by norm_num)
      refine ⟨-k, ?_⟩
      rw [hd] at h1 h2
      have h0 : 0 ≤ jdeOf c' - jdeOf c := by linarith
      rw [abs_of_nonneg h0, abs_le]
      push_cast at *
      norm_num at *
      constructor <;> linarith
    · obtain ⟨k, h1, h2⟩ := glon_rate (a := 0.926) (b := 1.045) (c := 8) (by exact_mod_cast abs_jmeOf h')
        (by exact_mod_cast abs_jmeOf h) hle lonRest_lip8 (by norm_num) (by norm_num) (by norm_num) (by norm_num)
      refine ⟨k, ?_⟩
      have hd' : 365250 * (jmeOf c - jmeOf c') = jdeOf c - jdeOf c' := by linarith
      rw [hd'] at h1 h2
      have h0 : jdeOf c' - jdeOf c ≤ 0 := by linarith
      rw [abs_of_nonpos h0, abs_le]
      push_cast at *
      norm_num at *
      constructor <;> linarith
  obtain ⟨k, hk⟩ := hl
  have hk := abs_le.mp hk
  have n1 := abs_le.mp (nutPsi_abs h)
  have n2 := abs_le.mp (nutPsi_abs h')
  have e1 := abs_le.mp (nutEps_abs h)
  have e2 := abs_le.mp (nutEps_abs h')
  have b1 := abs_le.mp (betaOf_bound h)
  have b2 := abs_le.mp (betaOf_bound h')
  have r1 := sunDist_bounds (abs_jmeOf h)
  have r2 := sunDist_bounds (abs_jmeOf h')
  have ab : ∀ x : ℝ, 0.97 ≤ x ∧ x ≤ 1.03 → -0.00587 ≤ -20.4898 / (3600 * x) ∧ -20.4898 / (3600 * x) ≤ -0.00552 := by
    intro x hx
    have hx0 : 0 < 3600 * x := by norm_num at *; linarith
    constructor
    · rw [le_div_iff₀ hx0]; norm_num at *; linarith
    · rw [div_le_iff₀ hx0]; norm_num at *; linarith
  have a1 := ab _ r1
  have a2 := ab _ r2
  refine ⟨k, ?_, ?_, ?_⟩
  · unfold lamOf
    rw [abs_le]
    norm_num at *
    constructor <;> linarith
  · rw [abs_le]
    norm_num at *
    constructor <;> linarith
  · have j1 := abs_le.mp (abs_jmeOf h)
    have j2 := abs_le.mp (abs_jmeOf h')
    have hm := meanObl_lip (u := jmeOf c' / 10) (v := jmeOf c / 10) (by rw [abs_le]; constructor <;> linarith)
      (by rw [abs_le]; constructor <;> linarith)
    have : jmeOf c' / 10 - jmeOf c / 10 = (jdeOf c' - jdeOf c) / 3652500 := by rw [← hd]; ring
    rw [this, abs_div, abs_of_pos (by norm_num : (0 : ℝ) < 3652500)] at hm
    have hm := abs_le.mp hm
    unfold oblOf
    have := abs_nonneg (jdeOf c' - jdeOf c)
    rw [abs_le]
    norm_num at *
    constructor <;> linarith

/-- Apparent sidereal time. -/
theorem sidereal_motion {c c' : Civil} (h : c.Valid) (h' : c'.Valid) :
    ∃ k : ℤ, |astOf c' - astOf c - 360 * k| ≤ 360.98566 * |jdOf c' - jdOf c| + 0.01162 := by
  have j1 := jdOf_bounds h
  have j2 := jdOf_bounds h'
  obtain ⟨k1, hk1⟩ := mod360_eq (280.46061837 + 360.98564736629 * (jdOf c - 2451545)
    + 0.000387933 * ((jdOf c - 2451545) / 36525) * ((jdOf c - 2451545) / 36525)
      * (1 - (jdOf c - 2451545) / 36525 / 38710000))
  obtain ⟨k2, hk2⟩ := mod360_eq (280.46061837 + 360.98564736629 * (jdOf c' - 2451545)
    + 0.000387933 * ((jdOf c' - 2451545) / 36525) * ((jdOf c' - 2451545) / 36525)
      * (1 - (jdOf c' - 2451545) / 36525 / 38710000))
  have n1 : |nutPsi (jceOf c) * cos (oblOf c)| ≤ 0.00581 := by
    rw [abs_mul]
    exact (mul_le_of_le_one_right (abs_nonneg _) (abs_cos_le_one _)).trans (nutPsi_abs h)
  have n2 : |nutPsi (jceOf c') * cos (oblOf c')| ≤ 0.00581 := by
    rw [abs_mul]
    exact (mul_le_of_le_one_right (abs_nonneg _) (abs_cos_le_one _)).trans (nutPsi_abs h')
  refine ⟨k1 - k2, ?_⟩
  unfold astOf
  rw [hk1, hk2]
  set u := (jdOf c - 2451545) / 36525 with hu
  set v := (jdOf c' - 2451545) / 36525 with hv
  have hj : jdOf c - 2451545 = 36525 * u := by rw [hu]; ring
  have hj' : jdOf c' - 2451545 = 36525 * v := by rw [hv]; ring
  have hjj : jdOf c' - jdOf c = 36525 * (v - u) := by linarith
  have hu1 : |u| ≤ 100 := by rw [abs_le]; constructor <;> linarith
  have hv1 : |v| ≤ 100 := by rw [abs_le]; constructor <;> linarith
  have hq : |0.000387933 * v * v * (1 - v / 38710000) - 0.000387933 * u * u * (1 - u / 38710000)| ≤ 0.1 * |v - u| := by
    have e : 0.000387933 * v * v * (1 - v / 38710000) - 0.000387933 * u * u * (1 - u / 38710000)
        = (0.000387933 * (v + u) - 0.000387933 / 38710000 * (v ^ 2 + v * u + u ^ 2)) * (v - u) := by ring
    rw [e, abs_mul]
    gcongr
    have a := abs_le.mp hu1
    have b := abs_le.mp hv1
    have hs : 0 ≤ v ^ 2 + v * u + u ^ 2 := by nlinarith [sq_nonneg (v + u), sq_nonneg v, sq_nonneg u]
    have hs' : v ^ 2 + v * u + u ^ 2 ≤ 30000 := by nlinarith
    rw [abs_le]
    norm_num
    constructor <;> linarith
  rw [hj, hj', hjj, abs_mul, abs_of_pos (by norm_num : (0 : ℝ) < 36525)]
  have q := abs_le.mp hq
  have d := abs_le.mp (le_refl |v - u|)
  have m1 := abs_le.mp n1
  have m2 := abs_le.mp n2
  have hd0 := abs_nonneg (v - u)
  clear hq n1 n2 hu1 hv1 hk1 hk2 hu hv hj hj' hjj
  clear_value u v
  generalize |v - u| = D at *
  generalize 0.000387933 * v * v * (1 - v / 38710000) = Q at *
  generalize 0.000387933 * u * u * (1 - u / 38710000) = R at *
  push_cast
  rw [abs_le]
  norm_num at *
  constructor <;> linarith

/-- The geocentric direction in the frame of the place. -/
theorem geocentric_motion (tp : ℝ) {c c' : Civil} (h : c.Valid) (h' : c'.Valid) (lat lon : ℝ) {D : ℝ}
    (hD : D = |((c'.micros - c.micros : ℤ) : ℝ)| / 86400000000) :
    angleBetween (sunENU lat (lhaOf tp lon c') (decOf c')) (sunENU lat (lhaOf tp lon c) (decOf c))
      ≤ 362.04 * D + 0.0569 := by
  obtain ⟨k, l1, l2, l3⟩ := ecliptic_motion h h'
  obtain ⟨j, s1⟩ := sidereal_motion h h'
  obtain ⟨d1, d2⟩ := elapsed h h' hD
  have hD0 : 0 ≤ D := by rw [hD]; positivity
  unfold sunENU
  rw [angleBetween_toHorizon]
  have hl : ∀ c : Civil, sph (lhaOf tp lon c) (decOf c) = sph (astOf c + lon - raOf tp c) (decOf c) := fun c => by
    unfold lhaOf
    obtain ⟨k, hk⟩ := mod360_eq (astOf c + lon - raOf tp c)
    rw [hk, ← sph_add_turns _ _ k]
    congr 1
    ring
  rw [hl, hl]
  refine (angleBetween_hour _ _ _ _ _ _ j).trans ?_
  rw [equatorial_eq tp h, equatorial_eq tp h']
  have a1 : angleBetween (rotX (oblOf c') (sph (lamOf c') (betaOf c'))) (rotX (oblOf c) (sph (lamOf c) (betaOf c)))
      ≤ |oblOf c' - oblOf c| + (|betaOf c' - betaOf c| + |lamOf c' - lamOf c - 360 * k|) := by
    refine (angleBetween_triangle _ (rotX (oblOf c) (sph (lamOf c') (betaOf c'))) _).trans ?_
    gcongr
    · exact angleBetween_rotX_angle _ _ (sph_unit _ _)
    · rw [angleBetween_rotX]
      refine (angleBetween_triangle _ (sph (lamOf c') (betaOf c)) _).trans (add_le_add (angleBetween_sph_lat _ _ _) ?_)
      rw [← sph_add_turns (lamOf c) (betaOf c) k]
      refine (angleBetween_sph_lon _ _ _).trans (le_of_eq ?_)
      congr 1
      ring
  have e : astOf c' + lon - (astOf c + lon) - 360 * j = astOf c' - astOf c - 360 * j := by ring
  rw [e]
  norm_num at *
  linarith

/-- The topocentric direction. -/
theorem topocentric_motion (tp : ℝ) {c c' : Civil} (h : c.Valid) (h' : c'.Valid) {lat lon elev : ℝ} (h1 : -90 < lat)
    (h2 : lat < 90) (he : |elev| ≤ 50000) {D : ℝ} (hD : D = |((c'.micros - c.micros : ℤ) : ℝ)| / 86400000000) :
    angleBetween (sunENU lat (topoH tp lat lon elev c') (topoDec tp lat lon elev c'))
      (sunENU lat (topoH tp lat lon elev c) (topoDec tp lat lon elev c)) ≤ 362.04 * D + 0.0922 := by
  have g := geocentric_motion tp h h' lat lon hD
  obtain ⟨t1, t2⟩ := topo_small tp h (lon := lon) h1 h2 he
  obtain ⟨t1', t2'⟩ := topo_small tp h' (lon := lon) h1 h2 he
  have a := angleBetween_sunENU lat (H := lhaOf tp lon c) (H' := topoH tp lat lon elev c) (δ := decOf c)
    (δ' := topoDec tp lat lon elev c) 0
  have a' := angleBetween_sunENU lat (H := lhaOf tp lon c') (H' := topoH tp lat lon elev c') (δ := decOf c')
    (δ' := topoDec tp lat lon elev c') 0
  rw [Int.cast_zero, mul_zero, sub_zero] at a a'
  have b := angleBetween_triangle (sunENU lat (topoH tp lat lon elev c') (topoDec tp lat lon elev c'))
    (sunENU lat (lhaOf tp lon c') (decOf c')) (sunENU lat (topoH tp lat lon elev c) (topoDec tp lat lon elev c))
  have b' := angleBetween_triangle (sunENU lat (lhaOf tp lon c') (decOf c')) (sunENU lat (lhaOf tp lon c) (decOf c))
    (sunENU lat (topoH tp lat lon elev c) (topoDec tp lat lon elev c))
  rw [angleBetween_comm] at a
  norm_num at *
  linarith

end Verif
