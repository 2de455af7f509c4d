import Verif.Proofs.FloatRefr
import Verif.Props.Float
import Verif.Props.Horizon

/-!
# C86: the apparent altitude in double precision
-/

namespace Verif.Props

open Verif.Spec Verif.Chain Pysolar Pysolar.Solar Pysolar.Solartime Pysolar.Constants

/-- The exact refraction correction differs from the cotangent formula at most in the exact pole of the tangent. -/
theorem refr_exact {tp P T e : ℝ} (htp : 10 ^ 6 ≤ |tp|) (hP1 : 1 ≤ P) (hP2 : P ≤ 120000) (hT1 : 180 ≤ T)
    (h1 : -0.83337 ≤ e) (h2 : e ≤ 90) :
    ∃ r, get_refraction_correction (mathB tp) (num P) (num T) (num e) = .ok (num r) ∧ |r - refrOf P T e| ≤ 4 / 10 ^ 8 := by
  have htp0 : tp ≠ 0 := abs_pos.1 (lt_of_lt_of_le (by norm_num) htp)
  have hT0 : T ≠ 0 := by linarith
  have hs := sin_bennett h1 h2
  have hs0 : Real.sin (refrArg e) ≠ 0 := ne_of_gt (lt_trans (by norm_num) hs)
  by_cases hc : Real.cos (refrArg e) = 0
  · refine ⟨_, refr_eval (by norm_num at h1 ⊢; intro h; rw [h] at h1; norm_num at h1) hT0 (tanP_ne_of_sin htp0 hs0), ?_⟩
    rw [if_pos h1, tanP, if_pos hc, refrOf, hc, zero_div, mul_zero, sub_zero, abs_div, abs_mul (1010 * T * 60),
      abs_of_pos (by linarith : 0 < 1010 * T * 60), abs_of_pos (by positivity)]
    have h3 : 10000000 * 10 ^ 6 ≤ 1010 * T * 60 * |tp| :=
      mul_le_mul (by linarith) htp (by norm_num) (by linarith)
    calc P * 2.830 * 1.02 / (1010 * T * 60 * |tp|) ≤ 346400 / (10000000 * 10 ^ 6) :=
          div_le_div₀ (by norm_num) (by norm_num at *; linarith) (by norm_num) h3
      _ ≤ _ := by norm_num
  · refine ⟨_, refr_value htp0 hT0 h1 h2 hc, ?_⟩
    unfold refrOf
    rw [sub_self, abs_zero]
    norm_num

/-- The refraction correction changes by less than 0.75 degrees per degree. -/
theorem refrOf_lip {P T a b : ℝ} (hP1 : 1 ≤ P) (hP2 : P ≤ 120000) (hT1 : 180 ≤ T)
    (ha1 : -0.83337 ≤ a) (ha2 : a ≤ 90) (hb1 : -0.83337 ≤ b) (hb2 : b ≤ 90) :
    |refrOf P T a - refrOf P T b| ≤ 0.75 * |a - b| := by
  have key : ∀ a b : ℝ, -0.83337 ≤ a → b ≤ 90 → a ≤ b → |refrOf P T a - refrOf P T b| ≤ 0.75 * (b - a) := by
    intro a b h1 h2 hab
    have hsa := sin_bennett h1 (hab.trans h2)
    have hsb := sin_bennett (h1.trans hab) h2
    have hl := cot_lip (x := refrArg a) (y := refrArg b) (s := 0.02748) (by norm_num) (hsa.le.trans (le_abs_self _))
      (hsb.le.trans (le_abs_self _))
    have hd := bennett_sub_le h1 hab
    have hd0 : 0 ≤ bennett b - bennett a := by
      rcases hab.eq_or_lt with h | h
      · rw [h]; simp
      · exact sub_nonneg.2 (bennett_lt h1 h).le
    have hx : |refrArg a - refrArg b| ≤ 0.017454 * (b - a) := by
      rw [refrArg_eq, refrArg_eq, ← rad_sub, ← neg_sub (bennett b), rad_neg, abs_neg]
      have p1 := Real.pi_gt_d4
      have p2 := Real.pi_lt_d6
      unfold rad
      rw [abs_div, abs_mul, abs_of_nonneg hd0, abs_of_pos Real.pi_pos, abs_of_pos (by norm_num : (0 : ℝ) < 180)]
      have h3 : (bennett b - bennett a) * Real.pi ≤ (b - a) * 3.141593 :=
        mul_le_mul hd (by norm_num at *; linarith) Real.pi_pos.le (by linarith)
      have h4 : (b - a) * 3.141593 / 180 ≤ 0.017454 * (b - a) := by
        norm_num
        nlinarith
      exact (div_le_div_of_nonneg_right h3 (by norm_num)).trans h4
    have hT0 : 0 < 1010 * T * 60 := by linarith
    have hK0 : 0 ≤ P * 2.830 * 1.02 / (1010 * T * 60) := by positivity
    have hK : P * 2.830 * 1.02 / (1010 * T * 60) ≤ 0.032 := by
      rw [div_le_iff₀ hT0]
      norm_num
      linarith
    unfold refrOf
    rw [← mul_sub, abs_mul, abs_of_nonneg hK0]
    calc _ ≤ 0.032 * (0.017454 * (b - a) / 0.02748 ^ 2) :=
          mul_le_mul hK (hl.trans (div_le_div_of_nonneg_right hx (by norm_num))) (abs_nonneg _) (by norm_num)
      _ ≤ _ := by
        norm_num
        linarith
  rcases le_total a b with h | h
  · rw [abs_sub_comm a b, abs_of_nonneg (sub_nonneg.2 h)]
    exact key a b ha1 hb2 h
  · rw [abs_sub_comm, abs_of_nonneg (sub_nonneg.2 h)]
    exact key b a hb1 ha2 h

/-- C86: `get_altitude` in double precision, against the same formulas in exact arithmetic: if the sun's elevation angle
`e` before refraction is not within 1e-5 degrees of the zenith or nadir, of the threshold of the refraction formula or
in the interval from -5.31 to -4.89 degrees that contains its poles, both computations return, 2e-5 degrees apart at
most. The pressure and temperature may differ by rounding (the default temperature 288.15 is not a double). -/
theorem C86_altitude (F : F64) (tp : ℝ) (htp : 10 ^ 6 ≤ |tp|) (d : DateTime) (c : Civil) (h : UtcFields d c)
    (lat lon elev P P' T T' : ℝ) (hlat : LatOk F tp lat) (hlon : |lon| ≤ 360) (helev : |elev| ≤ 50000)
    (hP1 : 1 ≤ P) (hP2 : P ≤ 120000) (hP3 : |P' - P| ≤ 1 / 10 ^ 9)
    (hT1 : 180 ≤ T) (hT2 : T ≤ 340) (hT3 : |T' - T| ≤ 1 / 10 ^ 13) :
    ∃ dec H e,
      get_topocentric_position (mathB tp) (num lat) (num lon) (.dt d) (num elev) = .ok (num dec, num H) ∧
      get_topocentric_elevation_angle (mathB tp) (num lat) (num dec) (num H) = .ok (num e) ∧
      (|e| < 90 - 1 / 10 ^ 5 → (e ≤ -5.31 ∨ (-4.89 ≤ e ∧ e ≤ -0.83341) ∨ -0.83333 ≤ e) →
        ∃ alt' alt,
          get_altitude (rndB F) (flt F lat) (flt F lon) (.dt d) (flt F elev) (flt F T') (flt F P') = .ok (flt F alt') ∧
          get_altitude (mathB tp) (num lat) (num lon) (.dt d) (num elev) (num T) (num P) = .ok (num alt) ∧
          |alt' - alt| ≤ 2 / 10 ^ 5) := by
  obtain ⟨dec', H', a', jd, jde, dec, H, a, e, hf, -, -, -, -, -, hm, -, he, hor⟩ :=
    C85_direction F tp d c h lat lon elev hlat hlon helev
  refine ⟨dec, H, e, hm, he, fun h90 hreg => ?_⟩
  rcases hor with ⟨e', he', hee, -⟩ | ⟨-, hbad⟩
  swap
  · linarith
  have h90' := abs_lt.1 h90
  have hee' := abs_le.1 hee
  have hT0 : T ≠ 0 := by linarith
  -- the correction in floating point
  have hdom : (-4.9 ≤ e' ∧ e' ≤ 90.1) ∨ (-90.1 ≤ e' ∧ e' ≤ -5.3) := by
    rcases hreg with h1 | ⟨h1, h2⟩ | h1
    · right; constructor <;> norm_num at * <;> linarith
    · left; constructor <;> norm_num at * <;> linarith
    · left; constructor <;> norm_num at * <;> linarith
  obtain ⟨r', hr', hr0, hr1⟩ := refr_float F hP1 hP2 hP3 hT1 hT2 hT3 hdom
  -- the exact correction
  have hx : ∃ r, get_refraction_correction (mathB tp) (num P) (num T) (num e) = .ok (num r) ∧
      |r' - r| ≤ 83 / 10 ^ 7 ∧ |r'| ≤ 2 := by
    have hlow : e ≤ -0.83341 → (e ≤ -5.31 ∨ -4.89 ≤ e) → ∃ r, get_refraction_correction (mathB tp) (num P) (num T) (num e)
        = .ok (num r) ∧ |r' - r| ≤ 83 / 10 ^ 7 ∧ |r'| ≤ 2 := by
      intro h1 h2
      have h3 : e' ≤ -0.83339 := by norm_num at *; linarith
      have htp0 : tp ≠ 0 := abs_pos.1 (lt_of_lt_of_le (by norm_num) htp)
      have hdomE : (-4.9 ≤ e ∧ e ≤ 90.1) ∨ (-90.1 ≤ e ∧ e ≤ -5.3) := by
        rcases h2 with h2 | h2
        · right; constructor <;> norm_num at * <;> linarith
        · left; constructor <;> norm_num at * <;> linarith
      obtain ⟨b1, b2⟩ := bennett_range hdomE
      have hs := sin_range b1 b2
      rw [← refrArg_eq] at hs
      have hs0 : Real.sin (refrArg e) ≠ 0 := abs_pos.1 (lt_of_lt_of_le (by norm_num) hs)
      have hne : e ≠ -5.11 := by
        rintro rfl
        rcases hdomE with ⟨k, -⟩ | ⟨-, k⟩ <;> norm_num at k
      refine ⟨_, refr_eval hne hT0 (tanP_ne_of_sin htp0 hs0), ?_⟩
      rw [if_neg (not_le.2 (by norm_num at *; linarith)), hr0 h3, sub_zero, abs_zero]
      norm_num
    rcases hreg with h1 | ⟨h1, h2⟩ | h1
    · exact hlow (by norm_num at *; linarith) (.inl h1)
    · exact hlow h2 (.inr h1)
    · have k1 : -0.83337 ≤ e := by norm_num at *; linarith
      have k2 : e ≤ 90 := by norm_num at *; linarith
      have k3 : -0.83335 ≤ e' := by norm_num at *; linarith
      have k4 : e' ≤ 90 := by norm_num at *; linarith
      have k5 : -0.83337 ≤ e' := by norm_num at *; linarith
      obtain ⟨r, hr, hre⟩ := refr_exact (T := T) htp hP1 hP2 hT1 k1 k2
      have hr1 := hr1 k3
      have hl := refrOf_lip hP1 hP2 hT1 k5 k4 k1 k2
      have hb := refrOf_lip hP1 hP2 hT1 k5 k4 (b := 89.89) (by norm_num) (by norm_num)
      refine ⟨r, hr, ?_, ?_⟩
      · have h4 : r' - r = (r' - refrOf P T e') + (refrOf P T e' - refrOf P T e) - (r - refrOf P T e) := by ring
        rw [h4]
        refine (abs_sub _ _).trans ?_
        have h5 := abs_add_le (r' - refrOf P T e') (refrOf P T e' - refrOf P T e)
        have h6 : 0.75 * |e' - e| ≤ 0.75 * (1 / 10 ^ 5) := by gcongr
        norm_num at *
        linarith
      · have h7 : |refrOf P T e'| ≤ 0.032 * (1 / 0.02748) := by
          have hs := sin_bennett k5 k4
          have hT0' : 0 < 1010 * T * 60 := by linarith
          have hK0 : 0 ≤ P * 2.830 * 1.02 / (1010 * T * 60) := by positivity
          have hK : P * 2.830 * 1.02 / (1010 * T * 60) ≤ 0.032 := by
            rw [div_le_iff₀ hT0']
            norm_num
            linarith
          unfold refrOf
          rw [abs_mul, abs_of_nonneg hK0, abs_div]
          exact mul_le_mul hK (div_le_div₀ (by norm_num) (Real.abs_cos_le_one _) (by norm_num)
            (hs.le.trans (le_abs_self _))) (by positivity) (by norm_num)
        have h8 := abs_sub_abs_le_abs_sub r' (refrOf P T e')
        norm_num at *
        linarith
  obtain ⟨r, hr, hrr, hr2⟩ := hx
  have hsum : |e' + r'| ≤ 93 := by
    have h1 := abs_add_le e' r'
    have h2 : |e'| ≤ 90.1 := by rw [abs_le]; constructor <;> norm_num at * <;> linarith
    norm_num at *
    linarith
  refine ⟨F.rnd (e' + r'), e + r, ?_, ?_, ?_⟩
  · unfold get_altitude
    refine bind_of_ok (guard_denotes h.2) (bind_of_ok hf (bind_of_ok he' (bind_of_ok hr' ?_)))
    exact congrArg Except.ok (V.rnd_fin F (hsum.trans (by norm_num)))
  · unfold get_altitude
    rw [guard_denotes h.2, hm]
    simp only [ok_bind, he, hr]
    rfl
  · have h1 := F.err (e' + r')
    have h2 : |e' + r'| / 2 ^ 53 ≤ 93 / 2 ^ 53 := by gcongr
    have h3 := tiny_le
    have h4 : F.rnd (e' + r') - (e + r) = (F.rnd (e' + r') - (e' + r')) + (e' - e) + (r' - r) := by ring
    rw [h4]
    refine (abs_add_le _ _).trans ?_
    have h5 := abs_add_le (F.rnd (e' + r') - (e' + r')) (e' - e)
    norm_num at *
    linarith

/-- C86 with the default temperature and pressure. -/
theorem C86_default (F : F64) (tp : ℝ) (htp : 10 ^ 6 ≤ |tp|) (d : DateTime) (c : Civil) (h : UtcFields d c)
    (lat lon elev : ℝ) (hlat : LatOk F tp lat) (hlon : |lon| ≤ 360) (helev : |elev| ≤ 50000) :
    ∃ dec H e,
      get_topocentric_position (mathB tp) (num lat) (num lon) (.dt d) (num elev) = .ok (num dec, num H) ∧
      get_topocentric_elevation_angle (mathB tp) (num lat) (num dec) (num H) = .ok (num e) ∧
      (|e| < 90 - 1 / 10 ^ 5 → (e ≤ -5.31 ∨ (-4.89 ≤ e ∧ e ≤ -0.83341) ∨ -0.83333 ≤ e) →
        ∃ alt' alt,
          get_altitude (rndB F) (flt F lat) (flt F lon) (.dt d) (flt F elev) = .ok (flt F alt') ∧
          get_altitude (mathB tp) (num lat) (num lon) (.dt d) (num elev) = .ok (num alt) ∧
          |alt' - alt| ≤ 2 / 10 ^ 5) := by
  have hT := F.err (standard_temperature : ℝ)
  have hP := F.err (standard_pressure : ℝ)
  have ht := tiny_le
  have e1 : ((standard_temperature : ℚ) : ℝ) = 288.15 := by norm_num [standard_temperature]
  have e2 : ((standard_pressure : ℚ) : ℝ) = 101325 := by norm_num [standard_pressure]
  refine C86_altitude F tp htp d c h lat lon elev (standard_pressure : ℚ) (F.rnd (standard_pressure : ℚ))
    (standard_temperature : ℚ) (F.rnd (standard_temperature : ℚ)) hlat hlon helev ?_ ?_ ?_ ?_ ?_ ?_
  · rw [e2]; norm_num
  · rw [e2]; norm_num
  · refine hP.trans ?_
    rw [e2, abs_of_pos (by norm_num)]
    norm_num at *
    linarith
  · rw [e1]; norm_num
  · rw [e1]; norm_num
  · refine hT.trans ?_
    rw [e1, abs_of_pos (by norm_num)]
    norm_num at *
    linarith

/-- The hypotheses of C86 hold at every instant at a place on the parallel of 45 degrees south. -/
theorem C86_applies (F : F64) (tp : ℝ) (htp : 10 ^ 6 ≤ |tp|) (d : DateTime) (c : Civil) (h : UtcFields d c) :
    ∃ lon alt' alt,
      get_altitude (rndB F) (flt F (-45)) (flt F lon) (.dt d) (flt F 0) = .ok (flt F alt') ∧
      get_altitude (mathB tp) (num (-45)) (num lon) (.dt d) (num 0) = .ok (num alt) ∧
      |alt' - alt| ≤ 2 / 10 ^ 5 := by
  obtain ⟨-, h1, h2⟩ := afternoon_south tp h.1
  set l := raOf tp c - astOf c + 0.1 with hl
  have hmod : mod360 l = l + 360 * ((-⌊l / 360⌋ : ℤ) : ℝ) := by
    unfold mod360
    push_cast
    ring
  obtain ⟨p1, p2⟩ := topo_periodic tp (-45) l 0 c (-⌊l / 360⌋)
  rw [← hmod] at p1 p2
  have hm : 0 ≤ mod360 l ∧ mod360 l < 360 := ⟨mod360_nonneg l, mod360_lt l⟩
  obtain ⟨dec, H, e, q1, q2, q3⟩ := C86_default F tp htp d c h (-45) (mod360 l) 0
    (.inl (by rw [abs_neg, abs_of_pos] <;> norm_num)) (by rw [abs_of_nonneg hm.1]; exact hm.2.le) (by norm_num)
  rw [topo_eval h, p1, p2] at q1
  have hp := Except.ok.inj q1
  have r1 := num_injective (congrArg Prod.fst hp)
  have r2 := num_injective (congrArg Prod.snd hp)
  rw [← r1, ← r2, tea_eval] at q2
  have he : teaOf tp (-45) l 0 c = e := num_injective (Except.ok.inj q2)
  rw [← he] at q3
  obtain ⟨alt', alt, a1, a2, a3⟩ := q3 (by rw [abs_of_pos h1]; norm_num at *; linarith)
    (.inr (.inr (by norm_num at *; linarith)))
  exact ⟨_, _, _, a1, a2, a3⟩

example : ∃ lon alt', get_altitude (rndB binary64) (flt binary64 (-45)) (flt binary64 lon) (.dt sampleDT) (flt binary64 0)
    = .ok (flt binary64 alt') := by
  obtain ⟨lon, alt', -, h, -⟩ := C86_applies binary64 (10 ^ 6) (le_abs_self _) sampleDT sampleUTC sample_utc
  exact ⟨lon, alt', h⟩

end Verif.Props
