import Verif.Props.FloatAltitude
import Verif.Proofs.FloatPole

/-!
# C115: IEEE binary64 from pole to pole

The bounds of C84 to C86 hold at the poles for every rounding with `PoleOk`; IEEE binary64 has it (`binary64_pole`), so
for binary64 the comparison with the sun's direction needs no condition on the latitude beyond the closed range and no
exact value of a tangent at its pole.
-/

namespace Verif.Props

open Verif.Spec Verif.Chain Pysolar Pysolar.Solar Pysolar.Solartime

/-- C115: for every latitude from -90 to 90 inclusive, every longitude from -360 to 360 and every elevation within 50 km,
`get_azimuth` in IEEE binary64 raises nothing and returns a number from 0 to 360, and unless `asin` raises `ValueError`,
which needs the sun within 0.0321 degrees of the zenith or the nadir, azimuth and elevation angle give a direction within
0.0321 degrees of the sun. -/
theorem C115_pole_to_pole (d : DateTime) (c : Civil) (h : UtcFields d c) (lat lon elev : ℝ) (hlat : |lat| ≤ 90)
    (hlon : |lon| ≤ 360) (helev : |elev| ≤ 50000) :
    ∃ dec' H' a' jd jde,
      get_topocentric_position (rndB binary64) (flt binary64 lat) (flt binary64 lon) (.dt d) (flt binary64 elev)
        = .ok (flt binary64 dec', flt binary64 H') ∧
      get_azimuth (rndB binary64) (flt binary64 lat) (flt binary64 lon) (.dt d) (flt binary64 elev)
        = .ok (flt binary64 a') ∧
      0 ≤ a' ∧ a' ≤ 360 ∧
      (∃ tp, get_julian_solar_day (mathB tp) (.dt d) = .ok (num jd) ∧
        get_julian_ephemeris_day (mathB tp) (.dt d) = .ok (num jde)) ∧
      ((∃ e', get_topocentric_elevation_angle (rndB binary64) (flt binary64 lat) (flt binary64 dec') (flt binary64 H')
            = .ok (flt binary64 e') ∧
          angleBetween (horizontal e' a') (sunDirection lat lon elev jd jde) ≤ 0.0321) ∨
        (get_topocentric_elevation_angle (rndB binary64) (flt binary64 lat) (flt binary64 dec') (flt binary64 H')
            = .error .valueError ∧
          (angleBetween (horizontal 90 0) (sunDirection lat lon elev jd jde) ≤ 0.0321 ∨
            angleBetween (horizontal (-90) 0) (sunDirection lat lon elev jd jde) ≤ 0.0321))) := by
  obtain ⟨tp, hL⟩ : ∃ tp, LatOk binary64 tp lat := by
    by_cases hp : 0 ≤ lat
    · exact ⟨10 ^ 15, .inr ⟨binary64_pole, hlat, fun _ => le_refl _, fun e => by rw [e] at hp; norm_num at hp⟩⟩
    · exact ⟨-10 ^ 15, .inr ⟨binary64_pole, hlat, fun e => absurd (e ▸ (by norm_num : (0 : ℝ) ≤ 90)) hp,
        fun _ => le_refl _⟩⟩
  obtain ⟨dec', H', a', jd, jde, dec, H, a, e, f1, f2, b1, b2, m1, m2, m3, m4, m5, hor⟩ :=
    C85_direction binary64 tp d c h lat lon elev hL hlon helev
  refine ⟨dec', H', a', jd, jde, f1, f2, b1, b2, ⟨tp, m1, m2⟩, ?_⟩
  rcases hor with ⟨e', g1, -, -, g4⟩ | ⟨g1, g2⟩
  · exact .inl ⟨e', g1, g4⟩
  refine .inr ⟨g1, ?_⟩
  obtain ⟨jd', jde', dec2, H2, a2, e2, j1, j2, t1, a1, e1, hang⟩ := C71_direction_poles tp d c h lat lon elev hlat
    hL.poleTan helev
  obtain rfl : jd' = jd := num_injective (Except.ok.inj (j1.symm.trans m1))
  obtain rfl : jde' = jde := num_injective (Except.ok.inj (j2.symm.trans m2))
  have hpair := Except.ok.inj (t1.symm.trans m3)
  obtain rfl : dec2 = dec := num_injective (congrArg Prod.fst hpair)
  obtain rfl : H2 = H := num_injective (congrArg Prod.snd hpair)
  obtain rfl : e2 = e := num_injective (Except.ok.inj (e1.symm.trans m5))
  obtain rfl : a2 = a := num_injective (Except.ok.inj (a1.symm.trans m4))
  have hz : ∀ x : ℝ, (x = 90 ∨ x = -90) → horizontal x 0 = horizontal x a2 := by
    rintro x (rfl | rfl)
    · have : Real.cos (rad 90) = 0 := by rw [rad_90, Real.cos_pi_div_two]
      simp [horizontal, this]
    · have : Real.cos (rad (-90)) = 0 := by
        rw [show rad (-90) = -rad 90 by unfold rad; ring, Real.cos_neg, rad_90, Real.cos_pi_div_two]
      simp [horizontal, this]
  have he90 : |e2| ≤ 90 := by
    rw [tea_eval] at e1
    have := num_injective (Except.ok.inj e1)
    rw [← this, abs_le]
    have h1 := Real.arcsin_le_pi_div_two (sunENU lat H2 dec2).z
    have h2 := Real.neg_pi_div_two_le_arcsin (sunENU lat H2 dec2).z
    have hpi := Real.pi_pos
    unfold Spec.deg
    constructor
    · rw [le_div_iff₀ hpi]; linarith
    · rw [div_le_iff₀ hpi]; linarith
  have near : ∀ x : ℝ, (x = 90 ∨ x = -90) → |x - e2| ≤ 1 / 10 ^ 5 →
      angleBetween (horizontal x 0) (sunDirection lat lon elev jd' jde') ≤ 0.0321 := by
    intro x hx hxe
    rw [hz x hx]
    have s1 : angleBetween (horizontal x a2) (horizontal e2 a2) ≤ 1 / 10 ^ 5 := by
      rw [horizontal_eq_sph, horizontal_eq_sph]
      exact (angleBetween_sph_lat _ _ _).trans hxe
    have s2 := angleBetween_triangle (horizontal x a2) (horizontal e2 a2) (sunDirection lat lon elev jd' jde')
    norm_num at s1 s2 hang ⊢
    linarith
  have h9 := abs_le.1 he90
  rcases le_abs.1 g2 with g | g
  · left
    exact near 90 (.inl rfl) (by rw [abs_of_nonneg (by linarith)]; linarith)
  · right
    exact near (-90) (.inr rfl) (by rw [abs_of_nonpos (by linarith)]; linarith)

/-- At the north pole at the sample instant. -/
example : ∃ a', get_azimuth (rndB binary64) (flt binary64 90) (flt binary64 0) (.dt sampleDT) (flt binary64 2800)
    = .ok (flt binary64 a') ∧ 0 ≤ a' ∧ a' ≤ 360 := by
  obtain ⟨_, _, a', _, _, _, h, h0, h1, _⟩ := C115_pole_to_pole sampleDT sampleUTC sample_utc 90 0 2800 (by norm_num)
    (by norm_num) (by norm_num)
  exact ⟨a', h, h0, h1⟩

end Verif.Props
