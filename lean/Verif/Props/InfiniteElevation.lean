import Verif.Props.Undefined
import Verif.Props.Atmosphere

/-!
# C160: an infinite elevation
-/

namespace Verif.Props

open Verif.Spec Pysolar Pysolar.Solar Pysolar.Constants Real

variable {tp : ℝ} {d : DateTime} {c : Civil}

/-- The infinities as arguments and results. -/
def pinfM : (mathB tp).α := V.pinf
def ninfM : (mathB tp).α := V.ninf

theorem pinf_mul {a : ℝ} (h : 0 < a) : (mathB tp).mul pinfM (num a) = pinfM := if_pos h

theorem pinf_divq : (mathB tp).divq pinfM earth_radius = pinfM := by
  refine if_pos ?_
  norm_num [earth_radius]

theorem prd_pinf {lat : ℝ} (h : 0 < cos (rad lat)) :
    get_projected_radial_distance (mathB tp) pinfM (num lat) = .ok pinfM := by
  unfold get_projected_radial_distance
  simp only [flat_eval, ok_bind, m_radians, m_cos, pure_eq_ok]
  refine congrArg Except.ok ?_
  refine (congrArg (fun x => (mathB tp).add _ ((mathB tp).divq x earth_radius)) (pinf_mul h)).trans ?_
  refine (congrArg (fun x => (mathB tp).add _ x) pinf_divq).trans ?_
  rfl

theorem pad_pinf {lat : ℝ} (h : 0 < sin (rad lat)) :
    get_projected_axial_distance (mathB tp) pinfM (num lat) = .ok pinfM := by
  unfold get_projected_axial_distance
  simp only [flat_eval, ok_bind, m_radians, m_sin, m_sci, m_mul, pure_eq_ok]
  refine congrArg Except.ok ?_
  refine (congrArg (fun x => (mathB tp).add _ ((mathB tp).divq x earth_radius)) (pinf_mul h)).trans ?_
  refine (congrArg (fun x => (mathB tp).add _ x) pinf_divq).trans ?_
  rfl

theorem ninf_mul {a : ℝ} (h : 0 < a) : (mathB tp).mul ninfM (num a) = ninfM := if_pos h

theorem neg_one_pinf : (mathB tp).mul (-1 : (mathB tp).α) pinfM = ninfM := by
  have e : (-1 : (mathB tp).α) = num (-1) := by simp
  rw [e]
  refine (if_neg (by norm_num)).trans (if_pos (by norm_num))

theorem deg_quarter (x : ℝ) : deg (x * π / 4) = 45 * x := by
  unfold deg
  field_simp
  ring

theorem psra_pinf {p H δ : ℝ} (hp : 0 < sin (rad p)) (hs : 0 < sin (rad H)) (hc : 0 < cos (rad H)) :
    get_parallax_sun_right_ascension (mathB tp) pinfM (num p) (num H) (num δ) = .ok (num (-135)) := by
  unfold get_parallax_sun_right_ascension
  simp only [ok_bind, m_radians, m_sin, m_cos, pure_eq_ok]
  have ha : (-1 : (mathB tp).α) * pinfM * num (sin (rad p)) * num (sin (rad H)) = ninfM := by
    refine (congrArg (fun x => (mathB tp).mul ((mathB tp).mul x (num (sin (rad p)))) (num (sin (rad H)))) neg_one_pinf).trans ?_
    refine (congrArg (fun x => (mathB tp).mul x (num (sin (rad H)))) (ninf_mul hp)).trans ?_
    exact ninf_mul hs
  have hb : num (cos (rad δ)) - pinfM * num (sin (rad p)) * num (cos (rad H)) = ninfM (tp := tp) := by
    refine (congrArg (fun x => (mathB tp).sub (num (cos (rad δ))) ((mathB tp).mul x (num (cos (rad H))))) (pinf_mul hp)).trans ?_
    refine (congrArg (fun x => (mathB tp).sub (num (cos (rad δ))) x) (pinf_mul hc)).trans ?_
    rfl
  rw [ha, hb]
  refine congrArg (fun x : ℝ => (Except.ok (V.fin x) : Py V)) ?_
  have := deg_quarter (-3)
  show deg (-(3 * π / 4)) = -135
  rw [show -(3 * π / 4) = -3 * π / 4 by ring, this]
  norm_num

theorem tsd_pinf {p H δ : ℝ} (hp : 0 < sin (rad p)) (hc : 0 < cos (rad H)) :
    get_topocentric_sun_declination (mathB tp) (num δ) pinfM (num p) (num (-135)) (num H) = .ok (num 135) := by
  unfold get_topocentric_sun_declination
  simp only [ok_bind, m_radians, m_sin, m_cos, pure_eq_ok]
  have hn : cos (rad (-135)) < 0 := by
    rw [show rad (-135) = -(π - π / 4) by unfold rad; ring, cos_neg, cos_pi_sub, cos_pi_div_four]
    have := Real.sqrt_pos.mpr (show (0 : ℝ) < 2 by norm_num)
    linarith
  have ha : (num (sin (rad δ)) - pinfM * num (sin (rad p))) * num (cos (rad (-135))) = pinfM (tp := tp) := by
    refine (congrArg (fun x => (mathB tp).mul ((mathB tp).sub (num (sin (rad δ))) x) (num (cos (rad (-135)))))
      (pinf_mul hp)).trans ?_
    exact (if_neg hn.not_gt).trans (if_pos hn)
  have hb : num (cos (rad δ)) - pinfM * num (sin (rad p)) * num (cos (rad H)) = ninfM (tp := tp) := by
    refine (congrArg (fun x => (mathB tp).sub (num (cos (rad δ))) ((mathB tp).mul x (num (cos (rad H))))) (pinf_mul hp)).trans ?_
    refine (congrArg (fun x => (mathB tp).sub (num (cos (rad δ))) x) (pinf_mul hc)).trans ?_
    rfl
  rw [ha, hb]
  refine congrArg (fun x : ℝ => (Except.ok (V.fin x) : Py V)) ?_
  have := deg_quarter 3
  show deg (3 * π / 4) = 135
  rw [this]
  norm_num

theorem sin_par_pos (hv : c.Valid) : 0 < sin (rad (parOf c)) := by
  obtain ⟨h1, h2⟩ := sunDist_bounds (abs_jmeOf hv)
  have hd : 0 < sunDist (jmeOf c) := by linarith
  have hp : 0 < parOf c := by
    unfold parOf
    exact div_pos (by norm_num) (div_pos (by norm_num) hd)
  have hp' : parOf c ≤ 1 := by
    unfold parOf
    rw [div_div_eq_mul_div, div_le_iff₀ (by norm_num)]
    linarith
  apply sin_pos_of_pos_of_lt_pi
  · unfold rad; positivity
  · have := pi_pos
    unfold rad
    nlinarith

/-- With the sun between the meridian and six hours west of it, seen from the centre of the earth, the topocentric
declination for an infinite elevation north of the equator is 135 degrees. -/
theorem topo_pinf (h : UtcFields d c) {lat lon : ℝ} (h0 : 0 < lat) (h1 : lat < 90)
    (hs : 0 < sin (rad (lhaOf tp lon c))) (hc : 0 < cos (rad (lhaOf tp lon c))) :
    get_topocentric_position (mathB tp) (num lat) (num lon) (.dt d) pinfM
      = .ok (num 135, num (lhaOf tp lon c + 135)) := by
  have hR := sunDist_ne h.1
  have e1 := Props.jd_eq (tp := tp) h
  have e2 := Props.jde_eq (tp := tp) h
  rw [← jdOf] at e1
  rw [← jdeOf] at e2
  have hpi := pi_pos
  have c0 : 0 < cos (rad lat) := by
    apply cos_pos_of_mem_Ioo
    unfold rad
    constructor <;> nlinarith
  have s0 : 0 < sin (rad lat) := by
    apply sin_pos_of_pos_of_lt_pi
    · unfold rad; positivity
    · unfold rad; nlinarith
  have hp := sin_par_pos h.1
  unfold get_topocentric_position
  rw [guard_denotes h.2]
  simp -implicitDefEqProofs only [ok_bind, prd_pinf c0, pad_pinf s0, e1, e2, jce_eval, jme_eval]
  rw [← jceOf, ← jmeOf]
  simp -implicitDefEqProofs only [ok_bind, glat_eval, glon_eval, dist_eval, aberr_eval hR, ehp_eval hR, nutation_eval, ast_eval,
    teo_eval, asl_eval, gsra_eval, gsd_eval, lha_eval]
  simp only [lhaOf, parOf, astOf, raOf, lamOf, betaOf, oblOf, nutPsi, nutEps] at hp hs hc ⊢
  simp -implicitDefEqProofs only [psra_pinf hp hs hc, tsd_pinf hp hc, tlha_eval, ok_bind, pure_eq_ok, sub_neg_eq_add]

/-- C160 is false: at every time of the years 1 to 9999 and every latitude north of the equator there is a longitude
(in fact a quarter of them, `topo_pinf`) at which the elevation infinity gives finite angles: the declination 135 degrees
and the hour angle 180 degrees. At 45 degrees north the sun is then found exactly overhead. -/
theorem C160_refuted (tp : ℝ) (d : DateTime) (c : Civil) (h : UtcFields d c) :
    ∃ lon : ℝ, (∀ lat, 0 < lat → lat < 90 →
        get_topocentric_position (mathB tp) (num lat) (num lon) (.dt d) pinfM = .ok (num 135, num 180)) ∧
      ∀ T P : ℝ, 0 < T → 0 ≤ P → ∃ alt,
        get_altitude (mathB tp) (num 45) (num lon) (.dt d) pinfM (num T) (num P) = .ok (num alt) ∧
        get_altitude (mathB tp) (num 45) (num lon) (.dt d) pinfM (num T) (num 0) = .ok (num 90) := by
  have hl : lhaOf tp (45 - astOf c + raOf tp c) c = 45 := by
    unfold lhaOf
    rw [show astOf c + (45 - astOf c + raOf tp c) - raOf tp c = 45 by ring]
    unfold mod360
    norm_num
  have r45 : rad 45 = π / 4 := by unfold rad; ring
  have s2 := Real.sqrt_pos.mpr (show (0 : ℝ) < 2 by norm_num)
  have hs : 0 < sin (rad (lhaOf tp (45 - astOf c + raOf tp c) c)) := by
    rw [hl, r45, sin_pi_div_four]; positivity
  have hc : 0 < cos (rad (lhaOf tp (45 - astOf c + raOf tp c) c)) := by
    rw [hl, r45, cos_pi_div_four]; positivity
  have key : ∀ lat, 0 < lat → lat < 90 → get_topocentric_position (mathB tp) (num lat)
      (num (45 - astOf c + raOf tp c)) (.dt d) pinfM = .ok (num 135, num 180) := by
    intro lat h0 h1
    rw [topo_pinf h h0 h1 hs hc, hl]
    norm_num
  refine ⟨45 - astOf c + raOf tp c, key, fun T P hT hP => ?_⟩
  have ht : get_topocentric_elevation_angle (mathB tp) (num 45) (num 135) (num 180) = .ok (num 90) := by
    rw [tea_eval]
    have c135 : cos (rad 135) = -(√2 / 2) := by
      rw [show rad 135 = π - π / 4 by unfold rad; ring, cos_pi_sub, cos_pi_div_four]
    have s135 : sin (rad 135) = √2 / 2 := by
      rw [show rad 135 = π - π / 4 by unfold rad; ring, sin_pi_sub, sin_pi_div_four]
    have c180 : cos (rad 180) = -1 := by
      rw [show rad 180 = π by unfold rad; ring, cos_pi]
    have hz : (sunENU 45 180 135).z = 1 := by
      simp only [sunENU, toHorizon, sph]
      rw [c135, s135, c180, r45, sin_pi_div_four, cos_pi_div_four]
      have := Real.mul_self_sqrt (show (0 : ℝ) ≤ 2 by norm_num)
      linarith
    rw [hz, arcsin_one]
    have := deg_quarter 2
    rw [show π / 2 = 2 * π / 4 by ring, this]
    norm_num
  have hz : tanP tp (refrArg 90) ≠ 0 := by
    have e : refrArg 90 = π / 2 + rad (10.3 / 95.11) := by unfold refrArg rad; ring
    have b0 : 0 < rad (10.3 / 95.11) := by unfold rad; positivity
    have b1 : rad (10.3 / 95.11) < π / 2 := by
      have := pi_pos
      unfold rad
      rw [div_lt_iff₀ (by norm_num)]
      nlinarith
    have s0 : sin (refrArg 90) ≠ 0 := by
      rw [e, add_comm, sin_add_pi_div_two]
      exact (cos_pos_of_mem_Ioo ⟨by linarith, b1⟩).ne'
    have c0 : cos (refrArg 90) ≠ 0 := by
      rw [e, add_comm, cos_add_pi_div_two]
      exact neg_ne_zero.mpr (sin_pos_of_pos_of_lt_pi b0 (by linarith [pi_pos])).ne'
    rw [tanP_of_ne c0, tan_eq_sin_div_cos]
    exact div_ne_zero s0 c0
  have ev : ∀ P : ℝ, get_altitude (mathB tp) (num 45) (num (45 - astOf c + raOf tp c)) (.dt d) pinfM (num T) (num P) =
      get_refraction_correction (mathB tp) (num P) (num T) (num 90) >>= fun r => .ok (num 90 + r) := by
    intro P
    unfold get_altitude
    rw [guard_denotes h.2, key 45 (by norm_num) (by norm_num)]
    simp -implicitDefEqProofs only [ok_bind, ht]
    rfl
  have r := fun P : ℝ => refr_eval (tp := tp) (P := P) (T := T) (tea := 90) (by norm_num) hT.ne' hz
  refine ⟨_, (ev P).trans (by rw [r P, ok_bind, m_add]), ?_⟩
  rw [ev, r 0, ok_bind, m_add]
  simp

/-- On the equator an infinite elevation times the sine of the latitude is nan. -/
theorem pad_equator {elevation : (mathB tp).α} (he : elevation = pinfM ∨ elevation = ninfM) :
    get_projected_axial_distance (mathB tp) elevation (num 0) = .ok V.nan := by
  unfold get_projected_axial_distance
  simp only [flat_eval, ok_bind, m_radians, m_sin, m_sci, m_mul, pure_eq_ok]
  have z : sin (rad 0) = 0 := by simp [rad]
  have m : (mathB tp).mul elevation (num (sin (rad 0))) = V.nan := by
    rw [z]
    rcases he with rfl | rfl <;> exact (if_neg (lt_irrefl _)).trans (if_neg (lt_irrefl _))
  refine congrArg Except.ok ?_
  refine (congrArg (fun x => (mathB tp).add _ ((mathB tp).divq x earth_radius)) m).trans ?_
  have hn : (strictMath tp).nan V.nan := rfl
  nans (strictMath tp)

/-- C160, partial: on the equator whatever is returned for an infinite elevation is nan. Missing: everywhere else, where
finite angles are returned (`C160_refuted`). -/
theorem C160_equator_partial (tp : ℝ) (lon temperature pressure elevation : (mathB tp).α) (w : When (mathB tp))
    (he : elevation = pinfM ∨ elevation = ninfM) :
    (∀ r, get_altitude (mathB tp) (num 0) lon w elevation temperature pressure = .ok r → r = V.nan) ∧
    (∀ r, get_azimuth (mathB tp) (num 0) lon w elevation = .ok r → r = V.nan) ∧
    (∀ r, get_position (mathB tp) (num 0) lon w elevation temperature pressure = .ok r → r = (V.nan, V.nan)) := by
  let S := strictMath tp
  have ht : Ret (fun p => S.nan p.1) (get_topocentric_position (mathB tp) (num 0) lon w elevation) := by
    unfold get_topocentric_position
    dsimp only
    refine Ret.any fun _ => Ret.any fun prd => ?_
    refine Ret.bind (P := S.nan) (fun r hr => (Except.ok.inj (hr.symm.trans (pad_equator he)) : r = V.nan)) fun pad hpad => ?_
    iterate 12 refine Ret.any fun _ => ?_
    refine Ret.bind (P := S.nan) ?_ fun _ hd => Ret.pure hd
    unfold get_topocentric_sun_declination
    dsimp only
    rets S
  have dec : ∀ {dec H : (mathB tp).α}, S.nan dec →
      Ret S.nan (get_topocentric_elevation_angle (mathB tp) (num 0) dec H) ∧
      Ret S.nan (get_topocentric_azimuth_angle (mathB tp) H (num 0) dec) := by
    intro dec H h
    constructor
    · unfold get_topocentric_elevation_angle
      dsimp only
      rets S
    · unfold get_topocentric_azimuth_angle
      dsimp only
      rets S
  refine ⟨?_, ?_, ?_⟩
  · show Ret S.nan _
    unfold get_altitude
    refine Ret.any fun _ => Ret.bind ht ?_
    rintro ⟨d, ha⟩ hh
    refine Ret.bind (dec hh).1 fun _ _ => ?_
    rets S
  · show Ret S.nan _
    unfold get_azimuth
    refine Ret.any fun _ => Ret.bind ht ?_
    rintro ⟨d, ha⟩ hh
    exact (dec hh).2
  · have : Ret (fun p => S.nan p.1 ∧ S.nan p.2)
        (get_position (mathB tp) (num 0) lon w elevation temperature pressure) := by
      unfold get_position
      refine Ret.any fun _ => Ret.bind ht ?_
      rintro ⟨d, ha⟩ hh
      refine Ret.bind (dec hh).1 fun _ h1 => ?_
      refine Ret.any fun _ => ?_
      refine Ret.bind (dec hh).2 fun _ h2 => ?_
      exact Ret.pure ⟨h2, S.add_nan (.inl h1)⟩
    exact fun r hr => Prod.ext (this r hr).1 (this r hr).2

/-- Non-vacuity: the sample datetime, at which `C160_refuted` finds the sun overhead. -/
example : UtcFields sampleDT sampleUTC ∧ ∃ lon : ℝ,
    get_altitude (mathB tp) (num 45) (num lon) (.dt sampleDT) pinfM (num 288) (num 0) = .ok (num 90) := by
  obtain ⟨lon, -, k⟩ := C160_refuted tp _ _ sample_utc
  obtain ⟨-, -, k⟩ := k 288 0 (by norm_num) le_rfl
  exact ⟨sample_utc, lon, k⟩

end Verif.Props
