import Verif.Proofs.SolarEval

/-!
# C18-C20, C25-C28, C32-C34: directions, parallax and sidereal time in exact arithmetic

`num x` is a finite float of the `math` backend; `tp` is the arbitrary value of the tangent at its poles.
-/

namespace Verif.Props

open Verif.Spec Pysolar Pysolar.Solar Real

/-! ## C18 -/

/-- C18. -/
theorem C18_elevation_range (tp lat dec H : ℝ) :
    ∃ e, get_topocentric_elevation_angle (mathB tp) (num lat) (num dec) (num H) = .ok (num e) ∧
      -90 ≤ e ∧ e ≤ 90 :=
  ⟨_, tea_eval lat dec H, deg_arcsin_bounds _⟩

/-- At the equator at the equinox with hour angle 0 the elevation is 90: the bound is attained. -/
example (tp : ℝ) : get_topocentric_elevation_angle (mathB tp) (num 0) (num 0) (num 0) = .ok (num 90) := by
  rw [tea_eval]
  simp [sunENU, toHorizon, sph, deg_pi_div_two]

/-! ## C19 -/

theorem azimuth_direction (tp lat H dec : ℝ) (h1 : -90 < dec) (h2 : dec < 90) :
    horizontal (deg (arcsin (sunENU lat H dec).z)) (mod360 (180 + deg (Complex.arg
      ⟨cos (rad H) * sin (rad lat) - tanP tp (rad dec) * cos (rad lat), sin (rad H)⟩)))
      = sunENU lat H dec := by
  have hc := cos_rad_pos h1 h2
  apply horizontal_of_arg (sunENU_unit lat H dec) hc
  · simp [sunENU, toHorizon, sph]
  · rw [tanP_of_ne hc.ne', tan_eq_sin_div_cos]
    simp only [sunENU, toHorizon, sph]
    field_simp
    ring

/-- C19. -/
theorem C19_direction (tp lat H dec : ℝ) (h1 : -90 < dec) (h2 : dec < 90) :
    ∃ alt azi, get_topocentric_elevation_angle (mathB tp) (num lat) (num dec) (num H) = .ok (num alt) ∧
      get_topocentric_azimuth_angle (mathB tp) (num H) (num lat) (num dec) = .ok (num azi) ∧
      horizontal alt azi = sunENU lat H dec :=
  ⟨_, _, tea_eval lat dec H, taa_eval H lat dec, azimuth_direction tp lat H dec h1 h2⟩

/-- The specification itself at the equator: a sun with hour angle 90 is due west on the horizon. -/
example : sunENU 0 90 0 = ⟨-1, 0, 0⟩ := by
  simp [sunENU, toHorizon, sph, rad_90]

/-- ... and a sun on the meridian at latitude 90 with declination 0 lies on the horizon. -/
example : (sunENU 90 0 0).z = 0 := by
  simp [sunENU, toHorizon, sph, rad_90]

/-! ## C20 -/

/-- C20. -/
theorem C20_ecliptic_to_equatorial (tp lam eps beta : ℝ) (h1 : -90 < beta) (h2 : beta < 90) :
    ∃ ra dec,
      get_geocentric_sun_right_ascension (mathB tp) (num lam) (num eps) (num beta) = .ok (num ra) ∧
      get_geocentric_sun_declination (mathB tp) (num lam) (num eps) (num beta) = .ok (num dec) ∧
      sph ra dec = rotX eps (sph lam beta) ∧ 0 ≤ ra ∧ ra < 360 ∧ -90 ≤ dec ∧ dec ≤ 90 := by
  have hc := cos_rad_pos h1 h2
  refine ⟨_, _, gsra_eval lam eps beta, gsd_eval lam eps beta, ?_, mod360_nonneg _, mod360_lt _,
    deg_arcsin_bounds _⟩
  apply sph_of_arg (by rw [rotX_dot, sph_unit]) hc
  · simp [rotX, sph]
  · rw [tanP_of_ne hc.ne', tan_eq_sin_div_cos]
    simp only [rotX, sph]
    field_simp

/-- The summer solstice point (longitude 90) has right ascension 90 and declination equal to the
obliquity: the rotation of the specification goes the right way. -/
example (eps : ℝ) : rotX eps (sph 90 0) = sph 90 eps := by
  ext <;> simp [rotX, sph, rad_90]

/-! ## C25 -/

/-- `(x, y)` is on the meridian ellipse with semi-axes 1 and `f`, with outward normal of geodetic
latitude `lat`: the gradient `(x, y / f²)` is a positive multiple of `(cos lat, sin lat)`. -/
def OnEllipse (f lat x y : ℝ) : Prop :=
  x ^ 2 + (y / f) ^ 2 = 1 ∧ ∃ k, 0 < k ∧ x = k * cos (rad lat) ∧ y / f ^ 2 = k * sin (rad lat)

/-- C25. -/
theorem C25_ellipsoid (tp lat elev : ℝ) (h1 : -90 < lat) (h2 : lat < 90) :
    ∃ x y, OnEllipse 0.99664719 lat x y ∧
      get_projected_radial_distance (mathB tp) (num elev) (num lat)
        = .ok (num (x + elev / 6378140 * cos (rad lat))) ∧
      get_projected_axial_distance (mathB tp) (num elev) (num lat)
        = .ok (num (y + elev / 6378140 * sin (rad lat))) := by
  have hc := cos_rad_pos h1 h2
  set f : ℝ := 0.99664719 with hf
  have hf0 : f ≠ 0 := by rw [hf]; norm_num
  set u := arctan (f * tanP tp (rad lat)) with hu
  have hcu : 0 < cos u := cos_arctan_pos _
  have htan : sin u / cos u = f * (sin (rad lat) / cos (rad lat)) := by
    rw [← tan_eq_sin_div_cos, hu, tan_arctan, tanP_of_ne hc.ne', tan_eq_sin_div_cos]
  have hs : sin u = cos u * f * sin (rad lat) / cos (rad lat) := by
    field_simp at htan
    field_simp
    linarith
  refine ⟨cos u, f * sin u, ⟨?_, cos u / cos (rad lat), by positivity, ?_, ?_⟩, ?_, ?_⟩
  · rw [mul_div_cancel_left₀ _ hf0]
    have := sin_sq_add_cos_sq u
    linarith
  · field_simp
  · rw [hs]
    field_simp
  · rw [prd_eval]
    congr 2
    ring
  · rw [pad_eval]
    congr 2
    ring

/-- The specification on the equator: the point of normal latitude 0 is `(1, 0)`. -/
example : OnEllipse 0.99664719 0 1 0 := ⟨by norm_num, 1, by norm_num, by simp, by simp⟩

/-! ## C26, C27 -/

/-- Vector from the observer to the sun in units of the sun's distance, in the frame of the local meridian
(x: meridian, y: west, z: north pole). The observer is at `(rho, 0, zeta)` earth radii; `par` is the
equatorial horizontal parallax, whose sine is earth radius / sun distance. -/
noncomputable def fromObserver (rho zeta par H dec : ℝ) : Vec3 :=
  ⟨(sph H dec).x - rho * sin (rad par), (sph H dec).y, (sph H dec).z - zeta * sin (rad par)⟩

/-- `v` lies in the half plane of hour angle `H`. -/
def HasHourAngle (v : Vec3) (H : ℝ) : Prop :=
  ∃ r, 0 < r ∧ v.x = r * cos (rad H) ∧ v.y = r * sin (rad H)

/-- `v` has declination `dec`. -/
def HasDeclination (v : Vec3) (dec : ℝ) : Prop :=
  ∃ r, 0 < r ∧ v.z = r * sin (rad dec) ∧ sqrt (v.x ^ 2 + v.y ^ 2) = r * cos (rad dec)

theorem parallax_vector (rho par H dec : ℝ) (zeta : ℝ) :
    let a := -(rho * sin (rad par) * sin (rad H))
    let b := cos (rad dec) - rho * sin (rad par) * cos (rad H)
    let v := fromObserver rho zeta par H dec
    v.x = b * cos (rad H) - a * -sin (rad H) ∧ v.y = b * sin (rad H) + a * -cos (rad H) := by
  simp only [fromObserver, sph]
  have := sin_sq_add_cos_sq (rad H)
  constructor
  · linear_combination (rho * sin (rad par)) * this
  · ring

/-- C26. -/
theorem C26_parallax_right_ascension (tp rho zeta par H dec : ℝ)
    (h : ¬ ((fromObserver rho zeta par H dec).x = 0 ∧ (fromObserver rho zeta par H dec).y = 0)) :
    ∃ p, get_parallax_sun_right_ascension (mathB tp) (num rho) (num par) (num H) (num dec) = .ok (num p) ∧
      ∃ H', get_topocentric_local_hour_angle (mathB tp) (num H) (num p) = num H' ∧
        HasHourAngle (fromObserver rho zeta par H dec) H' := by
  refine ⟨_, psra_eval rho par H dec, _, tlha_eval _ _, ?_⟩
  obtain ⟨hx, hy⟩ := parallax_vector rho par H dec zeta
  set a := -(rho * sin (rad par) * sin (rad H)) with ha
  set b := cos (rad dec) - rho * sin (rad par) * cos (rad H) with hb
  have h1 := norm_mul_cos_arg b a
  have h2 := norm_mul_sin_arg b a
  have hpos : 0 < b ^ 2 + a ^ 2 := by
    rcases (sq_nonneg b).lt_or_eq with hb' | hb'
    · positivity
    · rcases (sq_nonneg a).lt_or_eq with ha' | ha'
      · positivity
      · exfalso
        apply h
        have hb0 : b = 0 := by
          have := hb'.symm
          exact pow_eq_zero_iff (two_ne_zero) |>.mp this
        have ha0 : a = 0 := pow_eq_zero_iff (two_ne_zero) |>.mp ha'.symm
        rw [hx, hy, hb0, ha0]
        simp
  refine ⟨sqrt (b ^ 2 + a ^ 2), sqrt_pos.mpr hpos, ?_, ?_⟩
  · rw [rad_sub, rad_deg, cos_sub, hx]
    linear_combination -(cos (rad H)) * h1 - sin (rad H) * h2
  · rw [rad_sub, rad_deg, sin_sub, hy]
    linear_combination -(sin (rad H)) * h1 + cos (rad H) * h2

/-- The hypothesis of C26 holds e.g. for any observer when the sun is due west at declination 0. -/
example (rho zeta par : ℝ) :
    ¬ ((fromObserver rho zeta par 90 0).x = 0 ∧ (fromObserver rho zeta par 90 0).y = 0) := by
  simp [fromObserver, sph, rad_90]

/-- The components used by the code for the declination point in the direction of the true vector if the
axial distance in the second component is replaced by the radial one. -/
theorem declination_of_components {rho zeta par H dec : ℝ}
    (hb : 0 < cos (rad dec) - rho * sin (rad par) * cos (rad H)) {p : ℝ}
    (hp : p = Complex.arg ⟨cos (rad dec) - rho * sin (rad par) * cos (rad H),
      -(rho * sin (rad par) * sin (rad H))⟩) :
    HasDeclination (fromObserver rho zeta par H dec)
      (deg (Complex.arg ⟨cos (rad dec) - rho * sin (rad par) * cos (rad H),
        (sin (rad dec) - zeta * sin (rad par)) * cos p⟩)) := by
  obtain ⟨hx, hy⟩ := parallax_vector rho par H dec zeta
  set a := -(rho * sin (rad par) * sin (rad H)) with ha
  set b := cos (rad dec) - rho * sin (rad par) * cos (rad H) with hb'
  set v := fromObserver rho zeta par H dec with hv
  have hz : v.z = sin (rad dec) - zeta * sin (rad par) := rfl
  have h1 := norm_mul_cos_arg b a
  have hr : sqrt (v.x ^ 2 + v.y ^ 2) = sqrt (b ^ 2 + a ^ 2) := by
    congr 1
    rw [hx, hy]
    have := sin_sq_add_cos_sq (rad H)
    linear_combination (b ^ 2 + a ^ 2) * this
  set r := sqrt (b ^ 2 + a ^ 2) with hrdef
  have hrpos : 0 < r := sqrt_pos.mpr (by positivity)
  have hcp : cos p = b / r := by
    rw [hp, eq_div_iff hrpos.ne']
    linarith
  have hk : 0 < b / r := by positivity
  have hn := norm_mul_cos_arg b (v.z * cos p)
  have hm := norm_mul_sin_arg b (v.z * cos p)
  rw [← hz]
  set n := sqrt (b ^ 2 + (v.z * cos p) ^ 2) with hndef
  have hnpos : 0 < n := sqrt_pos.mpr (by positivity)
  refine ⟨n / (b / r), by positivity, ?_, ?_⟩
  · rw [rad_deg]
    have : v.z * (b / r) = n * sin (Complex.arg ⟨b, v.z * cos p⟩) := by rw [hm, hcp]
    field_simp at this
    field_simp
    linarith
  · rw [hr, rad_deg]
    have : r * (b / r) = n * cos (Complex.arg ⟨b, v.z * cos p⟩) := by rw [hn]; field_simp
    field_simp at this
    field_simp
    linarith

/-- C27 is false: for an observer on the equator at `(1, 0)` earth radii with the sun on the meridian at
declination 45 and parallax 8.794 arc seconds, the returned topocentric declination is not that of the
vector from the observer to the sun. (The second component uses the axial distance where the published
formula has the radial one.) -/
theorem C27_refuted (tp : ℝ) :
    ¬ ∀ rho zeta par H dec : ℝ,
      ¬ ((fromObserver rho zeta par H dec).x = 0 ∧ (fromObserver rho zeta par H dec).y = 0) →
      ∀ p, get_parallax_sun_right_ascension (mathB tp) (num rho) (num par) (num H) (num dec)
          = .ok (num p) →
        ∃ d', get_topocentric_sun_declination (mathB tp) (num dec) (num zeta) (num par) (num p) (num H)
          = .ok (num d') ∧ HasDeclination (fromObserver rho zeta par H dec) d' := by
  intro hall
  have h45 : rad 45 = π / 4 := by unfold rad; ring
  have hs0 : 0 < sin (rad (8.794 / 3600)) := sin_rad_pos (by norm_num) (by norm_num)
  have hs1 : sin (rad (8.794 / 3600)) < sqrt 2 / 2 := by
    rw [← sin_pi_div_four, ← h45]
    apply sin_lt_sin_of_lt_of_le_pi_div_two
    · rw [← rad_90, ← rad_neg, rad_le_rad]; norm_num
    · rw [← rad_90, rad_le_rad]; norm_num
    · rw [rad_lt_rad]; norm_num
  set s := sin (rad (8.794 / 3600)) with hs
  have hbpos : 0 < cos (rad 45) - 1 * s * cos (rad 0) := by
    rw [h45, cos_pi_div_four]; simp; linarith
  have hp : Complex.arg ⟨cos (rad 45) - 1 * s * cos (rad 0), -(1 * s * sin (rad 0))⟩ = 0 := by
    rw [Complex.arg_eq_zero_iff]
    simp only [rad_zero, sin_zero]
    refine ⟨by simpa using hbpos.le, by simp⟩
  obtain ⟨d', h1, h2⟩ := hall 1 0 (8.794 / 3600) 0 45 (by
    simp only [fromObserver, sph, rad_zero, cos_zero, mul_one]
    intro h
    have := h.1
    rw [h45, cos_pi_div_four] at this
    rw [← hs] at this
    linarith) _ (psra_eval 1 (8.794 / 3600) 0 45)
  rw [tsd_eval, ← hs, hp] at h1
  have hd : deg (Complex.arg ⟨cos (rad 45) - 0 * s * cos (rad 0), (sin (rad 45) - 0 * s)
      * cos (rad (deg 0))⟩) = 45 := by
    have : Complex.arg ⟨cos (rad 45) - 0 * s * cos (rad 0), (sin (rad 45) - 0 * s)
      * cos (rad (deg 0))⟩ = rad 45 := by
      have he : (⟨cos (rad 45) - 0 * s * cos (rad 0), (sin (rad 45) - 0 * s) * cos (rad (deg 0))⟩ : ℂ)
          = ((1 : ℝ) : ℂ) * (Complex.cos (rad 45) + Complex.sin (rad 45) * Complex.I) := by
        apply Complex.ext
        · simp [← Complex.ofReal_cos, ← Complex.ofReal_sin]
        · simp [← Complex.ofReal_cos, ← Complex.ofReal_sin]
      rw [he]
      apply Complex.arg_mul_cos_add_sin_mul_I (by norm_num)
      rw [h45]
      constructor <;> linarith [pi_pos]
    rw [this, deg_rad]
  rw [hd] at h1
  have hd' : (45 : ℝ) = d' := num_injective (Except.ok.inj h1)
  rw [← hd'] at h2
  obtain ⟨r, -, hz, hxy⟩ := h2
  simp only [fromObserver, sph, rad_zero, sin_zero, cos_zero, mul_zero, mul_one, zero_mul, sub_zero,
    one_mul] at hz hxy
  rw [← hs] at hxy
  rw [h45, sin_pi_div_four] at hz
  rw [h45, cos_pi_div_four] at hxy
  have h2pos : 0 < sqrt 2 / 2 := by positivity
  have hr1 : r = 1 := by
    have : 1 * (sqrt 2 / 2) = r * (sqrt 2 / 2) := by linarith
    exact (mul_right_cancel₀ h2pos.ne' this).symm
  rw [hr1, show (sqrt 2 / 2 - s) ^ 2 + 0 ^ 2 = (sqrt 2 / 2 - s) ^ 2 by ring,
    sqrt_sq (by linarith)] at hxy
  linarith

/-- C27, partial: the returned declination is rigorous when the axial and radial distances agree (or the
sun is six hours off the meridian), the sun being nearer to the meridian plane's equator side than the
observer (true for all solar parallaxes). Missing: the general case, which is false (`C27_refuted`). -/
theorem C27_rigorous_partial (tp rho zeta par H dec : ℝ)
    (hb : 0 < cos (rad dec) - rho * sin (rad par) * cos (rad H))
    (heq : (zeta - rho) * sin (rad par) * cos (rad H) = 0) (p : ℝ)
    (hp : get_parallax_sun_right_ascension (mathB tp) (num rho) (num par) (num H) (num dec)
      = .ok (num p)) :
    ∃ d', get_topocentric_sun_declination (mathB tp) (num dec) (num zeta) (num par) (num p) (num H)
      = .ok (num d') ∧ HasDeclination (fromObserver rho zeta par H dec) d' := by
  rw [psra_eval] at hp
  have hp := num_injective (Except.ok.inj hp)
  refine ⟨_, tsd_eval _ _ _ _ _, ?_⟩
  have := declination_of_components (zeta := zeta) hb (p := rad p) (by rw [← hp, rad_deg])
  rwa [show cos (rad dec) - zeta * sin (rad par) * cos (rad H)
    = cos (rad dec) - rho * sin (rad par) * cos (rad H) by linarith]

example : 0 < cos (rad 0) - 1 * sin (rad 1) * cos (rad 90) ∧ (0 - 1) * sin (rad 1) * cos (rad 90) = 0 := by
  simp [rad_90]

/-- C27, partial: for every observer within 1.01 earth radii, every declination of the sun (C22) and every
parallax the code can compute (C21), the returned declination is within 0.003 degrees of the rigorous one.
Missing: equality, which is false (`C27_refuted`). -/
theorem C27_error_partial (tp rho zeta par H dec : ℝ) (hd : |dec| ≤ 24.1) (hr0 : 0 ≤ rho)
    (hr1 : rho ≤ 1.01) (hz : |zeta| ≤ 1.01) (hp0 : 0 ≤ par) (hp1 : par ≤ 0.0026) (p : ℝ)
    (hp : get_parallax_sun_right_ascension (mathB tp) (num rho) (num par) (num H) (num dec)
      = .ok (num p)) :
    ∃ d' dt, get_topocentric_sun_declination (mathB tp) (num dec) (num zeta) (num par) (num p) (num H)
      = .ok (num d') ∧ HasDeclination (fromObserver rho zeta par H dec) dt ∧ |d' - dt| ≤ 0.003 := by
  rw [psra_eval] at hp
  have hp := num_injective (Except.ok.inj hp)
  have hpi := pi_lt_d4
  have hpi3 := pi_gt_three
  set s := sin (rad par) with hs
  have hs0 : 0 ≤ s := by
    apply sin_nonneg_of_nonneg_of_le_pi
    · rw [← rad_zero, rad_le_rad]; exact hp0
    · rw [← rad_180, rad_le_rad]; linarith
  have hs1 : s ≤ 4.54e-5 := by
    have : s ≤ rad par := sin_le (by rw [← rad_zero, rad_le_rad]; exact hp0)
    unfold rad at this
    nlinarith
  have hrd : |rad dec| ≤ 0.4207 := by
    unfold rad
    rw [abs_div, abs_mul, abs_of_pos pi_pos, abs_of_pos (by norm_num : (0 : ℝ) < 180)]
    rw [div_le_iff₀ (by norm_num)]
    nlinarith [abs_nonneg dec]
  have hcd : 0.9115 ≤ cos (rad dec) := by
    have h1 := one_sub_sq_div_two_le_cos (x := rad dec)
    have h2 : rad dec ^ 2 ≤ 0.4207 ^ 2 := by
      rw [← sq_abs]
      exact pow_le_pow_left₀ (abs_nonneg _) hrd 2
    norm_num at h2 ⊢
    linarith
  have hsd : |sin (rad dec)| ≤ 0.4207 := (abs_sin_le_abs).trans hrd
  have hsc : ∀ {q c : ℝ}, |q| ≤ 1.01 → |c| ≤ 1 → |q * s * c| ≤ 4.6e-5 := by
    intro q c hq hc
    rw [abs_mul, abs_mul, abs_of_nonneg hs0]
    have h1 : |q| * s ≤ 1.01 * 4.54e-5 := mul_le_mul hq hs1 hs0 (by norm_num)
    have h2 : |q| * s * |c| ≤ 1.01 * 4.54e-5 * 1 :=
      mul_le_mul h1 hc (abs_nonneg _) (by norm_num)
    norm_num at h2 ⊢
    linarith
  have hrho := hsc (q := rho) (by rw [abs_of_nonneg hr0]; exact hr1) (abs_cos_le_one (rad H))
  have hzeta := hsc hz (abs_cos_le_one (rad H))
  have hzeta1 := hsc hz (c := 1) (by simp)
  rw [abs_le] at hrho hzeta hzeta1
  set b := cos (rad dec) - rho * s * cos (rad H) with hb
  set b' := cos (rad dec) - zeta * s * cos (rad H) with hb'
  have hbl : 0.91 ≤ b := by norm_num at *; linarith
  have hbl' : 0.91 ≤ b' := by norm_num at *; linarith
  have hb0 : 0 < b := by linarith
  have hb0' : 0 < b' := by linarith
  set w := (sin (rad dec) - zeta * s) * cos (rad p) with hw
  have hwl : |w| ≤ 0.421 := by
    rw [hw, abs_mul]
    have h1 : |sin (rad dec) - zeta * s| ≤ 0.421 := by
      rw [abs_le] at hsd ⊢
      norm_num at *
      constructor <;> linarith
    calc |sin (rad dec) - zeta * s| * |cos (rad p)| ≤ 0.421 * 1 :=
          mul_le_mul h1 (abs_cos_le_one _) (abs_nonneg _) (by norm_num)
      _ = 0.421 := by norm_num
  refine ⟨_, _, tsd_eval _ _ _ _ _,
    declination_of_components (zeta := zeta) hb0 (p := rad p) (by rw [← hp, rad_deg]), ?_⟩
  rw [← hs, ← hb, ← hb', ← hw, arg_eq_arctan hb0, arg_eq_arctan hb0', ← deg_sub]
  have h1 := abs_arctan_sub_le (w / b') (w / b)
  have h2 : |w / b' - w / b| ≤ 4.8e-5 := by
    rw [div_sub_div _ _ hb0'.ne' hb0.ne', show w * b - b' * w = w * (b - b') by ring, abs_div,
      abs_of_pos (mul_pos hb0' hb0), div_le_iff₀ (mul_pos hb0' hb0), abs_mul]
    have h3 : |b - b'| ≤ 9.2e-5 := by
      rw [abs_le, hb, hb']
      norm_num at *
      constructor <;> linarith
    have h4 : |w| * |b - b'| ≤ 0.421 * 9.2e-5 := mul_le_mul hwl h3 (abs_nonneg _) (by norm_num)
    have h5 : (0.91 : ℝ) * 0.91 ≤ b' * b := mul_le_mul hbl' hbl (by norm_num) hb0'.le
    norm_num at *
    linarith
  have h6 := h1.trans h2
  unfold deg
  rw [abs_div, abs_mul, abs_of_pos pi_pos, abs_of_pos (by norm_num : (0 : ℝ) < 180),
    div_le_iff₀ pi_pos]
  norm_num at *
  linarith

/-! ## C28 -/

/-- C28 is false: the parallax returned for a sun twice as far is larger. -/
theorem C28_refuted (tp : ℝ) :
    ¬ ∀ R R' : ℝ, 0 < R → R < R' → ∃ p p',
      get_equatorial_horizontal_parallax (mathB tp) (num R) = .ok (num p) ∧
      get_equatorial_horizontal_parallax (mathB tp) (num R') = .ok (num p') ∧ p' < p := by
  intro h
  obtain ⟨p, p', h1, h2, h3⟩ := h 1 2 (by norm_num) (by norm_num)
  rw [ehp_eval (by norm_num)] at h1 h2
  have h1 := num_injective (Except.ok.inj h1)
  have h2 := num_injective (Except.ok.inj h2)
  rw [← h1, ← h2] at h3
  norm_num at h3

/-- C28, what holds: for every positive distance the result is `8.794 R / 3600` degrees, the right value
`8.794 / (3600 R)` only at `R = 1`. Missing: the decrease, which is false (`C28_refuted`). -/
theorem C28_value_partial (tp R : ℝ) (h : 0 < R) :
    ∃ p, get_equatorial_horizontal_parallax (mathB tp) (num R) = .ok (num p) ∧ p = 8.794 * R / 3600 ∧
      (p = 8.794 / (3600 * R) ↔ R = 1) := by
  refine ⟨_, ehp_eval h.ne', by field_simp, ?_⟩
  constructor
  · intro h1
    have h2 : R ^ 2 = 1 := by
      field_simp at h1
      nlinarith
    nlinarith
  · rintro rfl
    norm_num

/-! ## C32 -/

/-- C32: the zenith angle is 90 minus elevation angle minus refraction, and raises exactly when the
refraction does. -/
theorem C32_complement (tp lat dec H P T : ℝ) (e r : ℝ)
    (he : get_topocentric_elevation_angle (mathB tp) (num lat) (num dec) (num H) = .ok (num e))
    (hr : get_refraction_correction (mathB tp) (num P) (num T) (num e) = .ok (num r)) :
    ∃ z, get_topocentric_zenith_angle (mathB tp) (num lat) (num dec) (num H) (num P) (num T)
        = .ok (num z) ∧ z + (e + r) = 90 := by
  refine ⟨90 - e - r, ?_, by ring⟩
  simp [get_topocentric_zenith_angle, he, hr]

/-- C32, errors: for every backend, an exception of the elevation or the refraction is passed on. -/
theorem C32_errors (B : Backend) (lat dec H P T e : B.α) (x : PyErr)
    (he : get_topocentric_elevation_angle B lat dec H = .ok e)
    (hr : get_refraction_correction B P T e = .error x) :
    get_topocentric_zenith_angle B lat dec H P T = .error x := by
  simp [get_topocentric_zenith_angle, he, hr]

/-! ## C33 -/

/-- The IAU 1982 polynomial as printed by Reda & Andreas (eq. 28), in degrees. -/
noncomputable def iauSidereal (jd : ℝ) : ℝ :=
  let jc := (jd - 2451545) / 36525
  280.46061837 + 360.98564736629 * (jd - 2451545) + 0.000387933 * jc ^ 2 - jc ^ 3 / 38710000

/-- C33. -/
theorem C33_mean_sidereal_time (tp jd : ℝ) :
    ∃ t, get_mean_sidereal_time (mathB tp) (num jd) = num t ∧ 0 ≤ t ∧ t < 360 ∧ ∃ k : ℤ,
      t - iauSidereal jd + 360 * k
        = (1 - 0.000387933) * ((jd - 2451545) / 36525) ^ 3 / 38710000 := by
  refine ⟨_, mst_eval jd, mod360_nonneg _, mod360_lt _,
    ⌊(280.46061837 + 360.98564736629 * (jd - 2451545)
          + 0.000387933 * ((jd - 2451545) / 36525) * ((jd - 2451545) / 36525)
            * (1 - (jd - 2451545) / 36525 / 38710000)) / 360⌋, ?_⟩
  unfold mod360 iauSidereal
  ring

theorem sidereal_error {jd c : ℝ} (h : |(jd - 2451545) / 36525| ≤ c) :
    |(1 - 0.000387933) * ((jd - 2451545) / 36525) ^ 3 / 38710000| ≤ c ^ 3 / 38710000 := by
  rw [abs_div, abs_mul, abs_pow]
  have h0 := abs_nonneg ((jd - 2451545) / 36525)
  have h3 : |(jd - 2451545) / 36525| ^ 3 ≤ c ^ 3 := pow_le_pow_left₀ h0 h 3
  have e1 : |(1 - 0.000387933 : ℝ)| ≤ 1 := by rw [abs_le]; constructor <;> norm_num
  have e2 : |(38710000 : ℝ)| = 38710000 := abs_of_pos (by norm_num)
  rw [e2]
  apply div_le_div_of_nonneg_right _ (by norm_num)
  calc |(1 - 0.000387933 : ℝ)| * |(jd - 2451545) / 36525| ^ 3
      ≤ 1 * |(jd - 2451545) / 36525| ^ 3 := by
        apply mul_le_mul_of_nonneg_right e1 (by positivity)
    _ ≤ c ^ 3 := by rw [one_mul]; exact h3

/-- C33: within 0.0134 degrees (modulo 360) for all Julian days of the years 1 to 9999, which are within
80 Julian centuries of J2000. -/
theorem C33_all_dates (tp jd : ℝ) (h1 : 1721424.5 ≤ jd) (h2 : jd ≤ 5373485.5) :
    ∃ t, get_mean_sidereal_time (mathB tp) (num jd) = num t ∧ ∃ k : ℤ,
      |t - iauSidereal jd + 360 * k| < 0.0134 := by
  obtain ⟨t, ht, -, -, k, hk⟩ := C33_mean_sidereal_time tp jd
  refine ⟨t, ht, k, ?_⟩
  rw [hk]
  refine lt_of_le_of_lt (sidereal_error (c := 80) ?_) (by norm_num)
  rw [abs_le]
  constructor
  · rw [le_div_iff₀ (by norm_num)]; linarith
  · rw [div_le_iff₀ (by norm_num)]; linarith

/-- C33: within 3e-8 degrees (modulo 360) within a century of J2000. -/
theorem C33_near_J2000 (tp jd : ℝ) (h1 : 2451545 - 36525 ≤ jd) (h2 : jd ≤ 2451545 + 36525) :
    ∃ t, get_mean_sidereal_time (mathB tp) (num jd) = num t ∧ ∃ k : ℤ,
      |t - iauSidereal jd + 360 * k| < 3e-8 := by
  obtain ⟨t, ht, -, -, k, hk⟩ := C33_mean_sidereal_time tp jd
  refine ⟨t, ht, k, ?_⟩
  rw [hk]
  refine lt_of_le_of_lt (sidereal_error (c := 1) ?_) (by norm_num)
  rw [abs_le]
  constructor
  · rw [le_div_iff₀ (by norm_num)]; linarith
  · rw [div_le_iff₀ (by norm_num)]; linarith

/-! ## C34 -/

/-- Normal of a panel tilted by `slope` towards the azimuth `180 + orient` (orientation counted from
south towards west). -/
noncomputable def panelNormal (slope orient : ℝ) : Vec3 := horizontal (90 - slope) (180 + orient)

theorem incidence_dot (z s o a : ℝ) :
    cos (rad z) * cos (rad s) + sin (rad s) * sin (rad z) * cos (rad a - π - rad o)
      = (horizontal (90 - z) a).dot (panelNormal s o) := by
  unfold panelNormal horizontal Vec3.dot
  simp only
  rw [rad_sub, rad_sub, rad_add, rad_90, rad_180, cos_pi_div_two_sub, cos_pi_div_two_sub,
    sin_pi_div_two_sub, sin_pi_div_two_sub, show rad a - π - rad o = rad a - (π + rad o) by ring, cos_sub]
  ring

theorem horizontal_unit (alt azi : ℝ) : (horizontal alt azi).dot (horizontal alt azi) = 1 := by
  unfold horizontal Vec3.dot
  simp only
  have h1 := sin_sq_add_cos_sq (rad alt)
  have h2 := sin_sq_add_cos_sq (rad azi)
  linear_combination h1 + cos (rad alt) ^ 2 * h2

theorem dot_unit_bounds {u v : Vec3} (hu : u.dot u = 1) (hv : v.dot v = 1) :
    -1 ≤ u.dot v ∧ u.dot v ≤ 1 := by
  unfold Vec3.dot at *
  constructor
  · nlinarith [sq_nonneg (u.x + v.x), sq_nonneg (u.y + v.y), sq_nonneg (u.z + v.z)]
  · nlinarith [sq_nonneg (u.x - v.x), sq_nonneg (u.y - v.y), sq_nonneg (u.z - v.z)]

/-- C34. -/
theorem C34_incidence (tp zen slope orient azi : ℝ) :
    ∃ i, get_incidence_angle (mathB tp) (num zen) (num slope) (num orient) (num azi) = .ok (num i) ∧
      0 ≤ i ∧ i ≤ 180 ∧
      cos (rad i) = (horizontal (90 - zen) azi).dot (panelNormal slope orient) := by
  have hb : -1 ≤ (horizontal (90 - zen) azi).dot (panelNormal slope orient) ∧
      (horizontal (90 - zen) azi).dot (panelNormal slope orient) ≤ 1 :=
    dot_unit_bounds (horizontal_unit (90 - zen) azi) (horizontal_unit (90 - slope) (180 + orient))
  have he := incidence_dot zen slope orient azi
  refine ⟨_, inc_eval _ _ _ _ (by rw [he]; exact hb), (deg_arccos_bounds _).1, (deg_arccos_bounds _).2, ?_⟩
  rw [rad_deg, he, cos_arccos hb.1 hb.2]

/-- C34: for a horizontal panel the incidence angle is the zenith angle. -/
theorem C34_horizontal_panel (tp zen orient azi : ℝ) (h1 : 0 ≤ zen) (h2 : zen ≤ 180) :
    get_incidence_angle (mathB tp) (num zen) (num 0) (num orient) (num azi) = .ok (num zen) := by
  obtain ⟨i, hi, i0, i1, hc⟩ := C34_incidence tp zen 0 orient azi
  rw [← incidence_dot] at hc
  simp only [rad_zero, cos_zero, sin_zero, mul_one, zero_mul, add_zero] at hc
  rw [hi]
  congr 2
  have := injOn_cos (x₁ := rad i) (x₂ := rad zen) ?_ ?_ hc
  · exact rad_injective this
  · constructor
    · rw [← rad_zero, rad_le_rad]; exact i0
    · rw [← rad_180, rad_le_rad]; exact i1
  · constructor
    · rw [← rad_zero, rad_le_rad]; exact h1
    · rw [← rad_180, rad_le_rad]; exact h2

/-- A vertical panel of orientation 0 faces south. -/
example : panelNormal 90 0 = ⟨0, -1, 0⟩ := by
  unfold panelNormal horizontal
  ext <;> simp [rad_180]

end Verif.Props
