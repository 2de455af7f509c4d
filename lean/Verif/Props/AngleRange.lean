import Verif.Props.BearingDouble

/-!
# C166: the ranges of the angles in double precision

Angles reduced with `% 360` lie from 0 to 360 in every floating-point arithmetic, but 360.0 itself is possible: the remainder of a
tiny negative number is 360 minus that number, which rounds to 360. Altitudes and declinations lie from -90 to 90 in IEEE double
precision, because `math.degrees` of the largest arcsine is 90 exactly; incidence angles lie from 0 to 180. All this holds for
whatever arguments, if a number is returned at all.
-/

namespace Verif.Props

open Verif Verif.Spec Pysolar Pysolar.Solar Pysolar.Constants Chain

/-- A number from `lo` to `hi`, or nan. -/
def Within (lo hi : ℝ) (v : V) : Prop := v = V.nan ∨ ∃ z : ℝ, v = V.fin z ∧ lo ≤ z ∧ z ≤ hi

theorem within_mod (F : F64) (v : V) : Within 0 360 (V.rnd F (V.modq v 360)) := by
  cases v with
  | fin a =>
    right
    have hm : V.modq (V.fin a) 360 = V.fin (a - 360 * ⌊a / 360⌋) := by
      show V.fin (a - ((360 : ℚ) : ℝ) * ⌊a / ((360 : ℚ) : ℝ)⌋) = _
      norm_num
    have h0 : 0 ≤ a - 360 * ⌊a / 360⌋ := by
      have := Int.floor_le (a / 360)
      rw [le_div_iff₀ (by norm_num)] at this
      linarith
    have h1 : a - 360 * ⌊a / 360⌋ ≤ 360 := by
      have := Int.lt_floor_add_one (a / 360)
      rw [div_lt_iff₀ (by norm_num)] at this
      linarith
    rw [hm]
    generalize a - 360 * ⌊a / 360⌋ = m at *
    refine ⟨F.rnd m, V.rnd_fin F (by rw [abs_of_nonneg h0]; norm_num; linarith), ?_, ?_⟩
    · have := F.rnd_mono h0
      have e := F.rnd_int 0 (by norm_num)
      push_cast at e
      rwa [e] at this
    · have := F.rnd_mono h1
      have e := F.rnd_int 360 (by norm_num)
      push_cast at e
      rwa [e] at this
  | _ => exact .inl rfl

/-- C166, what holds of the angles reduced with `% 360`, in every floating-point arithmetic and for whatever arguments: a number from
0 to 360, both included, or nan. Missing: that 360 is never returned, which is false (`C166_refuted`). -/
theorem C166_reduced_partial (F : F64) :
    (∀ x y z, Within 0 360 (get_local_hour_angle (rndB F) x y z)) ∧
    (∀ jd, Within 0 360 (get_mean_sidereal_time (rndB F) jd)) ∧
    (∀ jme v, get_heliocentric_longitude (rndB F) jme = .ok v → Within 0 360 v) ∧
    (∀ jme v, get_geocentric_longitude (rndB F) jme = .ok v → Within 0 360 v) ∧
    (∀ x y z v, get_geocentric_sun_right_ascension (rndB F) x y z = .ok v → Within 0 360 v) := by
  refine ⟨fun x y z => within_mod F _, fun jd => within_mod F _, fun jme v h => ?_, fun jme v h => ?_, fun x y z v h => ?_⟩
  · obtain ⟨_, -, h⟩ := bind_ok_inv h
    exact (Except.ok.inj h) ▸ within_mod F _
  · obtain ⟨_, -, h⟩ := bind_ok_inv h
    exact (Except.ok.inj h) ▸ within_mod F _
  · unfold get_geocentric_sun_right_ascension at h
    obtain ⟨_, -, h⟩ := bind_ok_inv h
    obtain ⟨_, -, h⟩ := bind_ok_inv h
    obtain ⟨_, -, h⟩ := bind_ok_inv h
    obtain ⟨_, -, h⟩ := bind_ok_inv h
    obtain ⟨_, -, h⟩ := bind_ok_inv h
    obtain ⟨_, -, h⟩ := bind_ok_inv h
    exact (Except.ok.inj h) ▸ within_mod F _

/-- The same with numpy. -/
theorem C166_reduced_numpy_partial (F : F64) :
    (∀ x y z, Within 0 360 (get_local_hour_angle (nprB F) x y z)) ∧
    (∀ jd, Within 0 360 (get_mean_sidereal_time (nprB F) jd)) ∧
    (∀ jme v, get_heliocentric_longitude (nprB F) jme = .ok v → Within 0 360 v) ∧
    (∀ jme v, get_geocentric_longitude (nprB F) jme = .ok v → Within 0 360 v) ∧
    (∀ x y z v, get_geocentric_sun_right_ascension (nprB F) x y z = .ok v → Within 0 360 v) := by
  refine ⟨fun x y z => within_mod F _, fun jd => within_mod F _, fun jme v h => ?_, fun jme v h => ?_, fun x y z v h => ?_⟩
  · obtain ⟨_, -, h⟩ := bind_ok_inv h
    exact (Except.ok.inj h) ▸ within_mod F _
  · obtain ⟨_, -, h⟩ := bind_ok_inv h
    exact (Except.ok.inj h) ▸ within_mod F _
  · unfold get_geocentric_sun_right_ascension at h
    obtain ⟨_, -, h⟩ := bind_ok_inv h
    obtain ⟨_, -, h⟩ := bind_ok_inv h
    obtain ⟨_, -, h⟩ := bind_ok_inv h
    obtain ⟨_, -, h⟩ := bind_ok_inv h
    obtain ⟨_, -, h⟩ := bind_ok_inv h
    obtain ⟨_, -, h⟩ := bind_ok_inv h
    exact (Except.ok.inj h) ▸ within_mod F _

/-- C166 is false: the local hour angle of sidereal time 0, longitude -1e-15 and right ascension 0 is 360.0 in IEEE double
precision. -/
theorem C166_refuted : get_local_hour_angle (rndB binary64) (V.fin 0) ((rndB binary64).lit (-1e-15)) (V.fin 0) = V.fin 360 := by
  have e : (rndB binary64).lit (-1e-15) = V.fin (-b64 1e-15) := by
    show V.fin (b64 ((-1e-15 : ℚ) : ℝ)) = _
    rw [← b64_neg]
    norm_num
  have ht := b64_err_nonneg (x := 1e-15) (by norm_num)
  have hid := b64_idem 1e-15
  rw [e]
  generalize b64 1e-15 = t at *
  have t0 : 0 < t := by norm_num at *; linarith
  have t1 : t ≤ 1 / 10 ^ 14 := by norm_num at *; linarith
  have hab : |t| ≤ 2 ^ 100 := by rw [abs_of_pos t0]; norm_num at *; linarith
  have a1 : (rndB binary64).add (V.fin 0) (V.fin (-t)) = V.fin (-t) :=
    vrnd64 (z := 0 + -t) (by rwa [zero_add, abs_neg]) (by rw [zero_add, b64_neg, hid])
  have a2 : (rndB binary64).sub (V.fin (-t)) (V.fin 0) = V.fin (-t) :=
    vrnd64 (z := -t + -0) (by rwa [neg_zero, add_zero, abs_neg]) (by rw [neg_zero, add_zero, b64_neg, hid])
  have a3 : (rndB binary64).modq (V.fin (-t)) 360 = V.fin 360 := by
    have hf : ⌊-t / ((360 : ℚ) : ℝ)⌋ = -1 := by
      rw [Int.floor_eq_iff]
      push_cast
      constructor
      · rw [le_div_iff₀ (by norm_num)]
        norm_num at *
        linarith
      · rw [div_lt_iff₀ (by norm_num)]
        linarith
    show V.rnd binary64 (.fin (-t - ((360 : ℚ) : ℝ) * ⌊-t / ((360 : ℚ) : ℝ)⌋)) = _
    rw [hf]
    have hz : -t - ((360 : ℚ) : ℝ) * ((-1 : ℤ) : ℝ) = -t + 360 := by push_cast; ring
    rw [hz]
    refine vrnd64 (z := -t + 360) (by rw [abs_of_nonneg] <;> norm_num at * <;> linarith) ?_
    have := b64_near (x := -t + 360) 6333186975989760 44 (by norm_num) (by norm_num at *; linarith) (by norm_num)
      (by rw [abs_lt]; constructor <;> norm_num at * <;> linarith)
    rw [this]
    norm_num
  have e' : (rndB binary64).modq ((rndB binary64).sub ((rndB binary64).add (V.fin 0) (V.fin (-t))) (V.fin 0)) 360 = V.fin 360 := by
    rw [a1, a2, a3]
  exact e'

/-! ## Altitudes, declinations, incidence angles -/

theorem asin_degrees {x a : V} (h : (rndB binary64).asin x = .ok a) : Within (-90) 90 ((rndB binary64).degrees a) := by
  have hasin : a = V.nan ∨ ∃ t, a = V.fin t ∧ |t| ≤ b64 (Real.pi / 2) := by
    cases x with
    | fin y =>
      have ha' : (if -1 ≤ y ∧ y ≤ 1 then Except.ok (V.fin (b64 (Real.arcsin y))) else Except.error PyErr.valueError) = .ok a := h
      split_ifs at ha'
      refine .inr ⟨_, (Except.ok.inj ha').symm, ?_⟩
      have p := b64_mono (Real.neg_pi_div_two_le_arcsin y)
      rw [b64_neg] at p
      exact abs_le.2 ⟨p, b64_mono (Real.arcsin_le_pi_div_two y)⟩
    | nan => exact .inl (Except.ok.inj h).symm
    | _ => cases h
  rcases hasin with rfl | ⟨t, rfl, ht⟩
  · exact .inl rfl
  · obtain ⟨g, hg, hg', -⟩ := deg_quarter_turn ht
    exact .inr ⟨g, hg, abs_le.1 hg'⟩

theorem asin_degrees_numpy {x a : V} (h : (nprB binary64).asin x = .ok a) : Within (-90) 90 ((nprB binary64).degrees a) := by
  have hasin : a = V.nan ∨ (rndB binary64).asin x = .ok a := by
    cases x with
    | fin y =>
      have ha' : (if -1 ≤ y ∧ y ≤ 1 then Except.ok (V.fin (b64 (Real.arcsin y))) else Except.ok V.nan) = .ok a := h
      by_cases hy : -1 ≤ y ∧ y ≤ 1
      · right
        rw [if_pos hy] at ha'
        exact (if_pos hy).trans ha'
      · left
        rw [if_neg hy] at ha'
        exact (Except.ok.inj ha').symm
    | _ => exact .inl (Except.ok.inj h).symm
  rcases hasin with rfl | h
  · exact .inl rfl
  · exact asin_degrees h

theorem acos_degrees {x a : V} (h : (rndB binary64).acos x = .ok a) : Within 0 180 ((rndB binary64).degrees a) := by
  have hacos : a = V.nan ∨ ∃ t, a = V.fin t ∧ 0 ≤ t ∧ t ≤ b64 Real.pi := by
    cases x with
    | fin y =>
      have ha' : (if -1 ≤ y ∧ y ≤ 1 then Except.ok (V.fin (b64 (Real.arccos y))) else Except.error PyErr.valueError) = .ok a := h
      split_ifs at ha'
      refine .inr ⟨_, (Except.ok.inj ha').symm, ?_, b64_mono (Real.arccos_le_pi y)⟩
      have := b64_mono (Real.arccos_nonneg y)
      rwa [b64_zero] at this
    | nan => exact .inl (Except.ok.inj h).symm
    | _ => cases h
  rcases hacos with rfl | ⟨t, rfl, h0, ht⟩
  · exact .inl rfl
  · obtain ⟨g, hg, hg'⟩ := deg_half_turn (t := t) (by rwa [abs_of_nonneg h0])
    refine .inr ⟨g, hg, ?_, (abs_le.1 hg').2⟩
    have e : (rndB binary64).degrees (V.fin t) = V.fin (b64 (t * (8063664102031864 / 2 ^ 47))) := by
      show V.rnd binary64 (.fin (t * b64 (180 / b64 Real.pi))) = _
      rw [b64_pi] at ht ⊢
      rw [eq_factor]
      refine vrnd64 ?_ rfl
      rw [abs_of_nonneg (by positivity)]
      norm_num at *
      linarith
    have := V.fin.inj (hg.symm.trans e)
    rw [this]
    have h := b64_mono (show 0 ≤ t * (8063664102031864 / 2 ^ 47) by positivity)
    rwa [b64_zero] at h

/-- C166 for altitudes, declinations and incidence angles in IEEE double precision, for whatever arguments. -/
theorem C166_arcs :
    (∀ x y z v, get_topocentric_elevation_angle (rndB binary64) x y z = .ok v → Within (-90) 90 v) ∧
    (∀ x y w v, get_altitude_fast (rndB binary64) x y w = .ok v → Within (-90) 90 v) ∧
    (∀ x y z v, get_geocentric_sun_declination (rndB binary64) x y z = .ok v → Within (-90) 90 v) ∧
    (∀ x y z u v, get_incidence_angle (rndB binary64) x y z u = .ok v → Within 0 180 v) := by
  refine ⟨fun x y z v h => ?_, fun x y w v h => ?_, fun x y z v h => ?_, fun x y z u v h => ?_⟩
  · unfold get_topocentric_elevation_angle at h
    obtain ⟨_, -, h⟩ := bind_ok_inv h
    obtain ⟨_, -, h⟩ := bind_ok_inv h
    obtain ⟨_, -, h⟩ := bind_ok_inv h
    obtain ⟨_, -, h⟩ := bind_ok_inv h
    obtain ⟨_, -, h⟩ := bind_ok_inv h
    obtain ⟨a, ha, h⟩ := bind_ok_inv h
    exact (Except.ok.inj h) ▸ asin_degrees ha
  · unfold get_altitude_fast at h
    obtain ⟨_, -, h⟩ := bind_ok_inv h
    obtain ⟨_, -, h⟩ := bind_ok_inv h
    obtain ⟨_, -, h⟩ := bind_ok_inv h
    obtain ⟨_, -, h⟩ := bind_ok_inv h
    obtain ⟨_, -, h⟩ := bind_ok_inv h
    obtain ⟨_, -, h⟩ := bind_ok_inv h
    obtain ⟨_, -, h⟩ := bind_ok_inv h
    obtain ⟨_, -, h⟩ := bind_ok_inv h
    obtain ⟨_, -, h⟩ := bind_ok_inv h
    obtain ⟨a, ha, h⟩ := bind_ok_inv h
    exact (Except.ok.inj h) ▸ asin_degrees ha
  · unfold get_geocentric_sun_declination at h
    obtain ⟨_, -, h⟩ := bind_ok_inv h
    obtain ⟨_, -, h⟩ := bind_ok_inv h
    obtain ⟨_, -, h⟩ := bind_ok_inv h
    obtain ⟨_, -, h⟩ := bind_ok_inv h
    obtain ⟨_, -, h⟩ := bind_ok_inv h
    obtain ⟨a, ha, h⟩ := bind_ok_inv h
    exact (Except.ok.inj h) ▸ asin_degrees ha
  · unfold get_incidence_angle at h
    obtain ⟨_, -, h⟩ := bind_ok_inv h
    obtain ⟨_, -, h⟩ := bind_ok_inv h
    obtain ⟨_, -, h⟩ := bind_ok_inv h
    obtain ⟨_, -, h⟩ := bind_ok_inv h
    obtain ⟨_, -, h⟩ := bind_ok_inv h
    obtain ⟨a, ha, h⟩ := bind_ok_inv h
    exact (Except.ok.inj h) ▸ acos_degrees ha

/-- With numpy, for altitudes and declinations. -/
theorem C166_arcs_numpy :
    (∀ x y z v, get_topocentric_elevation_angle (nprB binary64) x y z = .ok v → Within (-90) 90 v) ∧
    (∀ x y w v, get_altitude_fast (nprB binary64) x y w = .ok v → Within (-90) 90 v) ∧
    (∀ x y z v, get_geocentric_sun_declination (nprB binary64) x y z = .ok v → Within (-90) 90 v) := by
  refine ⟨fun x y z v h => ?_, fun x y w v h => ?_, fun x y z v h => ?_⟩
  · unfold get_topocentric_elevation_angle at h
    obtain ⟨_, -, h⟩ := bind_ok_inv h
    obtain ⟨_, -, h⟩ := bind_ok_inv h
    obtain ⟨_, -, h⟩ := bind_ok_inv h
    obtain ⟨_, -, h⟩ := bind_ok_inv h
    obtain ⟨_, -, h⟩ := bind_ok_inv h
    obtain ⟨a, ha, h⟩ := bind_ok_inv h
    exact (Except.ok.inj h) ▸ asin_degrees_numpy ha
  · unfold get_altitude_fast at h
    obtain ⟨_, -, h⟩ := bind_ok_inv h
    obtain ⟨_, -, h⟩ := bind_ok_inv h
    obtain ⟨_, -, h⟩ := bind_ok_inv h
    obtain ⟨_, -, h⟩ := bind_ok_inv h
    obtain ⟨_, -, h⟩ := bind_ok_inv h
    obtain ⟨_, -, h⟩ := bind_ok_inv h
    obtain ⟨_, -, h⟩ := bind_ok_inv h
    obtain ⟨_, -, h⟩ := bind_ok_inv h
    obtain ⟨_, -, h⟩ := bind_ok_inv h
    obtain ⟨a, ha, h⟩ := bind_ok_inv h
    exact (Except.ok.inj h) ▸ asin_degrees_numpy ha
  · unfold get_geocentric_sun_declination at h
    obtain ⟨_, -, h⟩ := bind_ok_inv h
    obtain ⟨_, -, h⟩ := bind_ok_inv h
    obtain ⟨_, -, h⟩ := bind_ok_inv h
    obtain ⟨_, -, h⟩ := bind_ok_inv h
    obtain ⟨_, -, h⟩ := bind_ok_inv h
    obtain ⟨a, ha, h⟩ := bind_ok_inv h
    exact (Except.ok.inj h) ▸ asin_degrees_numpy ha

/-- The hypothesis of `C166_arcs` holds, with a number, on the equator at the equinox. -/
example : ∃ z : ℝ, get_altitude_fast (rndB binary64) (V.fin 0) (V.fin 0) (.dt (utcDT equinox)) = .ok (V.fin z) ∧ -90 ≤ z ∧ z ≤ 90 := by
  rcases C166_arcs.2.1 _ _ _ _ eq_alt with h | ⟨z, h, hz⟩
  · cases h
  · exact ⟨z, eq_alt.trans (congrArg Except.ok h), hz⟩

end Verif.Props
