import Verif.Props.Simulate

/-!
# C56: the index into the horizon of `simulate_span`
-/

namespace Verif.Props

open Verif.Spec Pysolar Pysolar.Simulate Pysolar.Solar Pysolar.Constants Real

variable {tp : ℝ}

/-- C56: the rounded azimuth is between 0 and 360, and is 360 exactly from 359.5 on. -/
theorem C56_index (azi : ℝ) (h0 : 0 ≤ azi) (h1 : azi < 360) :
    0 ≤ roundHalfEven azi ∧ roundHalfEven azi ≤ 360 ∧ (roundHalfEven azi = 360 ↔ 359.5 ≤ azi) := by
  have b := abs_le.mp (roundHalfEven_bounds azi)
  have e0 := roundHalfEven_mono h0
  have e1 := roundHalfEven_mono h1.le
  have z := roundHalfEven_int 0
  have t := roundHalfEven_int 360
  push_cast at z t
  rw [z] at e0
  rw [t] at e1
  refine ⟨e0, e1, fun h => ?_, fun h => ?_⟩
  · rw [h] at b
    push_cast at b
    norm_num at b ⊢
    linarith [b.2]
  · have hf : ⌊azi⌋ = 359 := by
      rw [Int.floor_eq_iff]
      push_cast
      constructor <;> linarith
    have hfr : 1 / 2 ≤ Int.fract azi := by
      have := Int.self_sub_floor azi
      rw [hf] at this
      push_cast at this
      linarith
    unfold roundHalfEven
    rw [if_neg (not_lt.mpr hfr), hf, if_neg (by decide : ¬ Even (359 : ℤ))]
    split_ifs <;> rfl

theorem pyIndex_lt {α : Type} {xs : List α} {i : ℕ} (h : i < xs.length) : pyIndex xs i = .ok xs[i] := by
  unfold pyIndex
  rw [List.getElem?_eq_getElem h]

theorem pyIndex_ge {α : Type} {xs : List α} {i : ℕ} (h : xs.length ≤ i) : pyIndex xs i = .error .indexError := by
  unfold pyIndex
  rw [List.getElem?_eq_none h]

theorem direct_no_index {d : DateTime} {c : Civil} (h : UtcFields d c) (alt : ℝ) :
    Radiation.get_radiation_direct (mathB tp) (.dt d) (num alt) ≠ .error .indexError := by
  intro hh
  by_cases hs : sin (rad alt) = 0
  · have ham : Radiation.get_air_mass_ratio (mathB tp) (num alt) = .ok (mathB tp).inf := by
      simp only [Radiation.get_air_mass_ratio, m_radians, m_sin, ok_bind, hs, m_div_zero, m_one]
    simp only [Radiation.get_radiation_direct, yday_eval h, ok_bind, flux_eval, depth_eval, ham] at hh
    cases hx : (mathB tp).exp (-1 * num (depthF (yday c.date)) * (mathB tp).inf) with
    | ok y => rw [hx] at hh; simp at hh
    | error e =>
      rw [hx] at hh
      have he : e = .overflow := by
        revert hx
        generalize (-1 * num (depthF (yday c.date)) * (mathB tp).inf : (mathB tp).α) = v
        intro hx
        cases v with
        | fin a =>
          by_cases ha : exp a < 2 ^ 1024
          · have := m_exp (tp := tp) ha
            exact absurd (hx.symm.trans this) (by simp)
          · have := m_exp_err (tp := tp) (not_lt.mp ha)
            exact Except.error.inj (hx.symm.trans this)
        | pinf => exact absurd hx (by intro h; cases h)
        | ninf => exact absurd hx (by intro h; cases h)
        | nan => exact absurd hx (by intro h; cases h)
      subst he
      simp at hh
  · by_cases he : exp (-(depthF (yday c.date) / sin (rad alt))) < 2 ^ 1024
    · rw [direct_eval h hs he] at hh; simp at hh
    · rw [direct_eval_overflow h hs (not_lt.mp he)] at hh; simp at hh

theorem refr_cases (P T tea : ℝ) :
    (∃ r, get_refraction_correction (mathB tp) (num P) (num T) (num tea) = .ok (num r)) ∨
      get_refraction_correction (mathB tp) (num P) (num T) (num tea) = .error .zeroDivision := by
  by_cases h : tea = -5.11 ∨ T = 0 ∨ tanP tp (refrArg tea) = 0
  · exact Or.inr (refr_err h)
  · push Not at h
    exact Or.inl ⟨_, refr_eval h.1 h.2.1 h.2.2⟩

theorem altitude_cases {d : DateTime} {c : Civil} (h : UtcFields d c) (lat lon elev T P : ℝ) :
    (∃ a, get_altitude (mathB tp) (num lat) (num lon) (.dt d) (num elev) (num T) (num P) = .ok (num a)) ∨
      get_altitude (mathB tp) (num lat) (num lon) (.dt d) (num elev) (num T) (num P) = .error .zeroDivision := by
  rw [altitude_eval h]
  rcases refr_cases (tp := tp) P T (teaOf tp lat lon elev c) with ⟨r, hr⟩ | hr <;> rw [hr]
  · exact Or.inl ⟨_, rfl⟩
  · exact Or.inr rfl

theorem aziOf_range (tp lat lon elev : ℝ) (c : Civil) :
    0 ≤ aziOf tp lat lon elev c ∧ aziOf tp lat lon elev c < 360 := ⟨mod360_nonneg _, mod360_lt _⟩

/-- C56: with a horizon of at least 361 entries no row raises `IndexError`. -/
theorem C56_no_index_error (tp : ℝ) (d : DateTime) (c : Civil) (h : UtcFields d c) (lat lon elev T P : ℝ)
    (horizon : List (mathB tp).α) (hl : 361 ≤ horizon.length) :
    simulateRow (mathB tp) (num lat) (num lon) horizon (num elev) (num T) (num P) d ≠ .error .indexError := by
  unfold simulateRow
  rcases altitude_cases (tp := tp) h lat lon elev T P with ⟨a, ha⟩ | ha
  · obtain ⟨z0, z1⟩ := aziOf_range tp lat lon elev c
    obtain ⟨i0, i1, -⟩ := C56_index _ z0 z1
    have hround : (mathB tp).round (num (aziOf tp lat lon elev c)) = .ok (roundHalfEven (aziOf tp lat lon elev c)) :=
      rfl
    have hround' : (mathB tp).round (num (((380 : ℤ) : ℚ) * sin (rad a)))
        = .ok (roundHalfEven (((380 : ℤ) : ℚ) * sin (rad a))) := rfl
    have hidx : pyIndexInt horizon (roundHalfEven (aziOf tp lat lon elev c))
        = .ok (horizon[(roundHalfEven (aziOf tp lat lon elev c)).toNat]'(by omega)) := by
      unfold pyIndexInt
      rw [if_pos i0, pyIndex_lt]
    simp only [ha, ok_bind, azimuth_eval h, hround, hidx, m_radians, m_sin, m_lit, m_mul, hround']
    cases ht : (mathB tp).truth ((mathB tp).lt (horizon[(roundHalfEven (aziOf tp lat lon elev c)).toNat]'(by omega))
        (num (((380 - roundHalfEven (((380 : ℤ) : ℚ) * sin (rad a)) : ℤ) : ℚ) : ℝ))) with
    | error e => exact absurd ht (by intro h; cases h)
    | ok b =>
      cases b with
      | true => simp
      | false =>
        simp only [ok_bind, Bool.false_eq_true, if_false]
        intro hh
        cases hr : Radiation.get_radiation_direct (mathB tp) (.dt d) (num a) with
        | ok r => rw [hr] at hh; simp at hh
        | error e =>
          rw [hr] at hh
          have he : e = .indexError := by simpa using hh
          exact direct_no_index h a (by rw [hr, he])
  · rw [ha]
    simp

/-- C56 for the whole simulation: it never ends with `IndexError` if every time in it is an aware datetime. -/
theorem C56_span_no_index_error (tp : ℝ) (s e : DateTime) (k : ℤ) (lat lon elev T P : ℝ)
    (horizon : List (mathB tp).α) (hl : 361 ≤ horizon.length)
    (hu : ∀ t ∈ (datetime_range s e k).yields, ∃ c, UtcFields t c) :
    (simulate_span (mathB tp) (num lat) (num lon) horizon s e k (num elev) (num T) (num P)).err
      ≠ some .indexError := by
  intro h
  rcases C55_exception _ _ _ _ _ _ _ _ _ _ _ h with ⟨t, ht, hr⟩ | ⟨he, -⟩
  · obtain ⟨c, hc⟩ := hu t (List.mem_of_getElem? ht)
    exact C56_no_index_error tp t c hc lat lon elev T P horizon hl hr
  · rcases range_err he with h | h | h <;> cases h

/-- C56: with a horizon of at most 360 entries, a row whose azimuth is at least 359.5 raises `IndexError` (if the
altitude can be computed). -/
theorem C56_short_horizon (tp : ℝ) (d : DateTime) (lat lon elev T P azi : ℝ) (alt : (mathB tp).α)
    (horizon : List (mathB tp).α) (hl : horizon.length ≤ 360)
    (halt : get_altitude (mathB tp) (num lat) (num lon) (.dt d) (num elev) (num T) (num P) = .ok alt)
    (hazi : get_azimuth (mathB tp) (num lat) (num lon) (.dt d) (num elev) = .ok (num azi))
    (h0 : 359.5 ≤ azi) (h1 : azi < 360) :
    simulateRow (mathB tp) (num lat) (num lon) horizon (num elev) (num T) (num P) d = .error .indexError := by
  obtain ⟨-, -, h2⟩ := C56_index azi (by norm_num at h0; linarith) h1
  have hround : (mathB tp).round (num azi) = .ok 360 := by
    rw [← h2.mpr h0]; rfl
  have hidx : pyIndexInt horizon 360 = .error .indexError := by
    unfold pyIndexInt
    rw [if_pos (by norm_num)]
    exact pyIndex_ge hl
  unfold simulateRow
  simp only [halt, hazi, ok_bind, hround, hidx, error_bind]

/-! ### A place where the azimuth is above 359.5 -/

theorem cos_dec_gt {c : Civil} (h : c.Valid) : 0.9 < cos (rad (decOf c)) ∧ |sin (rad (decOf c))| ≤ 0.42 := by
  have hd := decOf_bound h
  have hr : |rad (decOf c)| ≤ 0.4208 := by
    have hp := pi_lt_d4
    have hp0 := pi_pos
    unfold rad
    rw [abs_div, abs_mul, abs_of_pos hp0, abs_of_pos (by norm_num : (0 : ℝ) < 180), div_le_iff₀ (by norm_num)]
    have h1 : |decOf c| * π ≤ 24.1 * 3.1416 := mul_le_mul hd (by norm_num at *; linarith) hp0.le (by norm_num)
    norm_num at *
    linarith
  have h2 : rad (decOf c) ^ 2 ≤ 0.4208 ^ 2 := sq_le_sq' (abs_le.mp hr).1 (abs_le.mp hr).2
  have hc := one_sub_sq_div_two_le_cos (x := rad (decOf c))
  have hc1 : 0.91 < cos (rad (decOf c)) := by
    norm_num at *
    linarith
  refine ⟨by norm_num at *; linarith, ?_⟩
  apply abs_le_of_sq_le_sq _ (by norm_num)
  have h3 := sin_sq_add_cos_sq (rad (decOf c))
  have h4 : (0.91 : ℝ) ^ 2 ≤ cos (rad (decOf c)) ^ 2 := pow_le_pow_left₀ (by norm_num) hc1.le 2
  norm_num at h4 ⊢
  linarith

theorem sin_par {c : Civil} (h : c.Valid) : 0 ≤ sin (rad (parOf c)) ∧ sin (rad (parOf c)) ≤ 0.0001 := by
  have hb := sunDist_bounds (abs_jmeOf h)
  have hp0 := pi_pos
  have hp := pi_lt_d4
  have h0 : 0 < sunDist (jmeOf c) := by linarith [hb.1]
  have e : parOf c = 8.794 / 3600 * sunDist (jmeOf c) := by
    unfold parOf
    field_simp
  have h1 : 0 ≤ rad (parOf c) := by
    rw [e]; unfold rad; positivity
  have h2 : rad (parOf c) ≤ 0.0001 := by
    rw [e]
    unfold rad
    have : 8.794 / 3600 * sunDist (jmeOf c) * π ≤ 8.794 / 3600 * 1.1 * 3.1416 := by
      apply mul_le_mul _ (by norm_num at *; linarith) hp0.le (by norm_num)
      apply mul_le_mul_of_nonneg_left _ (by norm_num)
      linarith [hb.2]
    norm_num at *
    linarith
  refine ⟨sin_nonneg_of_nonneg_of_le_pi h1 (by norm_num at h2; linarith [pi_gt_three]), (sin_le h1).trans h2⟩

theorem rad_tenth : 0.0017 < rad 0.1 ∧ rad 0.1 < 0.0018 := by
  have h1 := pi_gt_d4
  have h2 := pi_lt_d4
  unfold rad
  norm_num at *
  constructor <;> linarith

theorem sin_80 : (0.95 : ℝ) ≤ sin (rad 80) := by
  have e80 : rad 80 = π / 2 - rad 10 := by unfold rad; ring
  rw [e80, sin_pi_div_two_sub]
  have h1 := one_sub_sq_div_two_le_cos (x := rad 10)
  have h2 : rad 10 ≤ 0.2 := by
    unfold rad
    have := pi_lt_d4
    norm_num at *
    linarith
  have h3 : 0 ≤ rad 10 := by unfold rad; positivity
  have h4 : rad 10 ^ 2 ≤ 0.2 ^ 2 := pow_le_pow_left₀ h3 h2 2
  norm_num at *
  linarith

theorem up45_le {t H : ℝ} (htb : |t| ≤ 0.48) (cH : 0 < cos H) : (√2 / 2) * cos (arctan t) * (cos H - t) ≤ 0.95 := by
  refine (abs_le_of_sq_le_sq' ?_ (by norm_num)).2
  have h2 : (√2 / 2) ^ 2 = 1 / 2 := by rw [div_pow, sq_sqrt (by norm_num)]; norm_num
  have h3 : cos (arctan t) ^ 2 = 1 / (1 + t ^ 2) := by rw [cos_sq_arctan]
  have h4 : (cos H - t) ^ 2 ≤ (1 + |t|) ^ 2 := by
    apply sq_le_sq'
    · have := le_abs_self t
      linarith
    · have := neg_abs_le t
      have := cos_le_one H
      linarith
  have h5 : (0 : ℝ) < 1 + t ^ 2 := by positivity
  have h6 : (1 + |t|) ^ 2 ≤ 1.8 * (1 + t ^ 2) := by
    have h7 := abs_nonneg t
    have h8 : t ^ 2 = |t| ^ 2 := (sq_abs t).symm
    rw [h8]
    generalize |t| = a at *
    norm_num at htb ⊢
    nlinarith
  rw [mul_pow, mul_pow, h2, h3]
  calc 1 / 2 * (1 / (1 + t ^ 2)) * (cos H - t) ^ 2 ≤ 1 / 2 * (1 / (1 + t ^ 2)) * (1.8 * (1 + t ^ 2)) :=
        mul_le_mul_of_nonneg_left (h4.trans h6) (by positivity)
    _ = 0.9 := by field_simp; norm_num
    _ ≤ _ := by norm_num

/-- At 45 degrees south, a tenth of a degree after noon. -/
theorem afternoon_south (tp : ℝ) {c : Civil} (h : c.Valid) :
    359.5 ≤ aziOf tp (-45) (raOf tp c - astOf c + 0.1) 0 c ∧
      0 < teaOf tp (-45) (raOf tp c - astOf c + 0.1) 0 c ∧
      teaOf tp (-45) (raOf tp c - astOf c + 0.1) 0 c ≤ 80 := by
  obtain ⟨hcd, hsd⟩ := cos_dec_gt h
  obtain ⟨hp0, hp1⟩ := sin_par h
  obtain ⟨r0, r1⟩ := rad_tenth
  have hl : lhaOf tp (raOf tp c - astOf c + 0.1) c = 0.1 := by
    unfold lhaOf
    rw [show astOf c + (raOf tp c - astOf c + 0.1) - raOf tp c = 0.1 by ring]
    exact mod360_of_mem (by norm_num) (by norm_num)
  have hc45 : cos (rad (-45)) = √2 / 2 := by
    rw [rad_neg, cos_neg, show rad 45 = π / 4 by unfold rad; ring, cos_pi_div_four]
  have hs45 : sin (rad (-45)) = -(√2 / 2) := by
    rw [rad_neg, sin_neg, show rad 45 = π / 4 by unfold rad; ring, sin_pi_div_four]
  have hsq : 0.7 < √2 / 2 := by
    have : (1.4 : ℝ) < √2 := by
      apply lt_sqrt_of_sq_lt; norm_num
    norm_num at *; linarith
  have hsq1 : √2 / 2 < 1 := by
    have : √2 < 2 := by
      rw [sqrt_lt' (by norm_num)]; norm_num
    linarith
  have hrho : 0 ≤ rhoOf tp (-45) 0 ∧ rhoOf tp (-45) 0 ≤ 1 := by
    unfold rhoOf
    rw [zero_mul, zero_div, add_zero]
    exact ⟨(cos_arctan_pos _).le, cos_le_one _⟩
  have hzeta : |zetaOf tp (-45) 0| ≤ 1 := by
    unfold zetaOf
    rw [zero_mul, zero_div, add_zero, abs_mul]
    have := abs_sin_le_one (arctan (0.99664719 * tanP tp (rad (-45))))
    rw [abs_of_pos (by norm_num : (0 : ℝ) < 0.99664719)]
    norm_num at *
    linarith
  have hsinH : 0 < sin (rad 0.1) ∧ sin (rad 0.1) ≤ 0.0018 :=
    ⟨sin_pos_of_pos_of_lt_pi (by norm_num at *; linarith) (by norm_num at *; linarith [pi_gt_three]),
      (sin_le (by norm_num at *; linarith)).trans r1.le⟩
  have hcosH : 0 ≤ cos (rad 0.1) ∧ cos (rad 0.1) ≤ 1 := by
    refine ⟨?_, cos_le_one _⟩
    have := one_sub_sq_div_two_le_cos (x := rad 0.1)
    norm_num at *
    nlinarith
  -- parallax
  set q := rhoOf tp (-45) 0 * sin (rad (parOf c)) with hq
  have q0 : 0 ≤ q := mul_nonneg hrho.1 hp0
  have q1 : q ≤ 0.0001 := by
    calc q ≤ 1 * sin (rad (parOf c)) := mul_le_mul_of_nonneg_right hrho.2 hp0
      _ ≤ 0.0001 := by rw [one_mul]; exact hp1
  set z := zetaOf tp (-45) 0 * sin (rad (parOf c)) with hz
  have z1 : |z| ≤ 0.0001 := by
    rw [hz, abs_mul, abs_of_nonneg hp0]
    calc |zetaOf tp (-45) 0| * sin (rad (parOf c)) ≤ 1 * sin (rad (parOf c)) := mul_le_mul_of_nonneg_right hzeta hp0
      _ ≤ 0.0001 := by rw [one_mul]; exact hp1
  have hb : 0.89 < cos (rad (decOf c)) - q * cos (rad 0.1) := by
    have : q * cos (rad 0.1) ≤ 0.0001 * 1 := mul_le_mul q1 hcosH.2 hcosH.1 (by norm_num)
    norm_num at *
    linarith
  obtain ⟨p, hp, hpa, hpb⟩ : ∃ p, psraOf tp (-45) (raOf tp c - astOf c + 0.1) 0 c = deg p ∧ -0.0001 ≤ p ∧ p ≤ 0 := by
    refine ⟨arctan (-(q * sin (rad 0.1)) / (cos (rad (decOf c)) - q * cos (rad 0.1))), ?_, ?_, ?_⟩
    · unfold psraOf
      rw [hl, ← hq, arg_eq_arctan (by norm_num at *; linarith)]
    · have hb0 : 0 < cos (rad (decOf c)) - q * cos (rad 0.1) := by norm_num at *; linarith
      have ht := abs_arctan_sub_le (-(q * sin (rad 0.1)) / (cos (rad (decOf c)) - q * cos (rad 0.1))) 0
      rw [arctan_zero, sub_zero, sub_zero, abs_div, abs_neg, abs_of_nonneg (mul_nonneg q0 hsinH.1.le),
        abs_of_pos hb0] at ht
      have : q * sin (rad 0.1) / (cos (rad (decOf c)) - q * cos (rad 0.1)) ≤ 0.0001 := by
        rw [div_le_iff₀ hb0]
        have : q * sin (rad 0.1) ≤ 0.0001 * 0.0018 := mul_le_mul q1 hsinH.2 hsinH.1.le (by norm_num)
        norm_num at *
        linarith
      have := neg_abs_le (arctan (-(q * sin (rad 0.1)) / (cos (rad (decOf c)) - q * cos (rad 0.1))))
      linarith
    · rw [← arctan_zero]
      apply arctan_mono
      apply div_nonpos_of_nonpos_of_nonneg
      · linarith [mul_nonneg q0 hsinH.1.le]
      · norm_num at *; linarith
  have hH : rad (topoH tp (-45) (raOf tp c - astOf c + 0.1) 0 c) = rad 0.1 - p := by
    unfold topoH
    rw [hl, hp, rad_sub, rad_deg]
  set H := rad (topoH tp (-45) (raOf tp c - astOf c + 0.1) 0 c) with hHdef
  have H0 : 0 < H := by rw [hH]; norm_num at *; linarith
  have H1 : H ≤ 0.0019 := by rw [hH]; norm_num at *; linarith
  have sH : 0 < sin H ∧ sin H ≤ 0.0019 :=
    ⟨sin_pos_of_pos_of_lt_pi H0 (by norm_num at *; linarith [pi_gt_three]), (sin_le H0.le).trans H1⟩
  have cH : 0.99 < cos H := by
    have := one_sub_sq_div_two_le_cos (x := H)
    have : H ^ 2 ≤ 0.0019 ^ 2 := pow_le_pow_left₀ H0.le H1 2
    norm_num at *
    linarith
  -- declination
  have hb2 : 0.8998 < cos (rad (decOf c)) - z * cos (rad 0.1) := by
    have : |z * cos (rad 0.1)| ≤ 0.0001 * 1 := by
      rw [abs_mul, abs_of_nonneg hcosH.1]
      exact mul_le_mul z1 hcosH.2 hcosH.1 (by norm_num)
    have := (abs_le.mp this).2
    norm_num at *
    linarith
  have hb20 : 0 < cos (rad (decOf c)) - z * cos (rad 0.1) := lt_trans (by norm_num) hb2
  obtain ⟨t, ht, htb⟩ : ∃ t, rad (topoDec tp (-45) (raOf tp c - astOf c + 0.1) 0 c) = arctan t ∧ |t| ≤ 0.48 := by
    refine ⟨(sin (rad (decOf c)) - z) * cos (rad (psraOf tp (-45) (raOf tp c - astOf c + 0.1) 0 c))
      / (cos (rad (decOf c)) - z * cos (rad 0.1)), ?_, ?_⟩
    · unfold topoDec
      rw [rad_deg, hl, ← hz, arg_eq_arctan hb20]
    · rw [abs_div, abs_mul, abs_of_pos hb20, div_le_iff₀ hb20]
      have e1 : |sin (rad (decOf c)) - z| ≤ 0.4201 := by
        refine (abs_sub _ _).trans ?_
        norm_num at *
        linarith
      have e2 := abs_cos_le_one (rad (psraOf tp (-45) (raOf tp c - astOf c + 0.1) 0 c))
      have : |sin (rad (decOf c)) - z| * |cos (rad (psraOf tp (-45) (raOf tp c - astOf c + 0.1) 0 c))| ≤ 0.4201 * 1 :=
        mul_le_mul e1 e2 (abs_nonneg _) (by norm_num)
      norm_num at *
      linarith
  have htan : tanP tp (rad (topoDec tp (-45) (raOf tp c - astOf c + 0.1) 0 c)) = t := by
    rw [ht, tanP_of_ne (cos_arctan_pos t).ne', tan_arctan]
  have ht2 := abs_le.mp htb
  constructor
  · unfold aziOf
    rw [htan, ← hHdef, hc45, hs45]
    have hx : cos H * -(√2 / 2) - t * (√2 / 2) < -0.35 := by
      have : 0.51 * 0.7 < (cos H + t) * (√2 / 2) :=
        mul_lt_mul'' (by norm_num at *; linarith) hsq (by norm_num) (by norm_num)
      norm_num at *
      linarith
    set x := cos H * -(√2 / 2) - t * (√2 / 2) with hxdef
    have hx0 : 0 < -x := by norm_num at *; linarith
    have hneg := Complex.arg_neg_eq_arg_sub_pi_of_im_pos (x := ⟨x, sin H⟩) sH.1
    have hneg' : (-(⟨x, sin H⟩ : ℂ)) = ⟨-x, -sin H⟩ := by
      apply Complex.ext <;> simp
    rw [hneg', arg_eq_arctan hx0] at hneg
    have harg : Complex.arg ⟨x, sin H⟩ = π + arctan (-sin H / -x) := by rw [hneg]; ring
    have hle := abs_arctan_sub_le (-sin H / -x) 0
    rw [arctan_zero, sub_zero, sub_zero, abs_div, abs_neg, abs_of_pos sH.1, abs_of_pos hx0] at hle
    have hq : sin H / -x ≤ 0.006 := by
      rw [div_le_iff₀ hx0]
      norm_num at *
      linarith
    have hlt0 : arctan (-sin H / -x) < 0 := by
      rw [← arctan_zero]
      apply arctan_strictMono
      exact div_neg_of_neg_of_pos (by linarith [sH.1]) hx0
    have hge : -0.006 ≤ arctan (-sin H / -x) := by
      have := neg_abs_le (arctan (-sin H / -x))
      linarith
    have hdeg : 180 + deg (Complex.arg ⟨x, sin H⟩) = 360 + deg (arctan (-sin H / -x)) := by
      rw [harg, show deg (π + arctan (-sin H / -x)) = deg π + deg (arctan (-sin H / -x)) by unfold deg; ring,
        show deg π = 180 by unfold deg; field_simp]
      ring
    have hd1 : -0.5 ≤ deg (arctan (-sin H / -x)) := by
      unfold deg
      rw [le_div_iff₀ pi_pos]
      have := pi_gt_d4
      norm_num at *
      linarith
    have hd2 : deg (arctan (-sin H / -x)) < 0 := by
      unfold deg
      apply div_neg_of_neg_of_pos _ pi_pos
      linarith
    rw [hdeg, mod360_of_mem (by norm_num at *; linarith) (by linarith)]
    norm_num at *
    linarith
  · unfold teaOf
    have hcd' : 0 < cos (arctan t) := cos_arctan_pos t
    have hzeq : (sunENU (-45) (topoH tp (-45) (raOf tp c - astOf c + 0.1) 0 c)
        (topoDec tp (-45) (raOf tp c - astOf c + 0.1) 0 c)).z = (√2 / 2) * cos (arctan t) * (cos H - t) := by
      rw [← up_eq, ← hHdef, ht, hc45, hs45]
      have : sin (arctan t) = t * cos (arctan t) := by
        rw [← tan_mul_cos hcd'.ne', tan_arctan]
      rw [this]
      ring
    have hhi : (sunENU (-45) (topoH tp (-45) (raOf tp c - astOf c + 0.1) 0 c)
        (topoDec tp (-45) (raOf tp c - astOf c + 0.1) 0 c)).z ≤ 0.95 := by
      rw [hzeq]
      exact up45_le htb (lt_trans (by norm_num) cH)
    have h80 := sin_80
    refine ⟨?_, ?_⟩
    swap
    · rw [← deg_rad 80]
      have h1 : arcsin (sunENU (-45) (topoH tp (-45) (raOf tp c - astOf c + 0.1) 0 c)
          (topoDec tp (-45) (raOf tp c - astOf c + 0.1) 0 c)).z ≤ rad 80 := by
        rw [← arcsin_sin (x := rad 80)]
        · exact monotone_arcsin (hhi.trans h80)
        · rw [← rad_90, ← rad_neg, rad_le_rad]; norm_num
        · rw [← rad_90, rad_le_rad]; norm_num
      unfold deg
      gcongr
    have hup : 0 < (sunENU (-45) (topoH tp (-45) (raOf tp c - astOf c + 0.1) 0 c)
        (topoDec tp (-45) (raOf tp c - astOf c + 0.1) 0 c)).z := by
      rw [← up_eq, ← hHdef, ht, hc45, hs45]
      have : sin (arctan t) = t * cos (arctan t) := by
        rw [← tan_mul_cos hcd'.ne', tan_arctan]
      rw [this]
      have hpos : 0 < (√2 / 2) * cos (arctan t) * (cos H - t) :=
        mul_pos (mul_pos (lt_trans (by norm_num) hsq) hcd') (by norm_num at cH ht2; linarith)
      calc (0 : ℝ) < (√2 / 2) * cos (arctan t) * (cos H - t) := hpos
        _ = _ := by ring
    have := arcsin_pos.mpr hup
    unfold deg
    exact div_pos (by linarith) pi_pos

/-- C56: at every time there is a place where a horizon of 360 entries makes `simulate_span` fail with
`IndexError`, at standard conditions. -/
theorem C56_short_fails (tp : ℝ) (htp : 1 ≤ |tp|) (d : DateTime) (c : Civil) (h : UtcFields d c) :
    ∃ lat lon : ℝ, ∀ horizon : List (mathB tp).α, horizon.length = 360 →
      simulateRow (mathB tp) (num lat) (num lon) horizon (num 0) ((mathB tp).lit standard_temperature)
        ((mathB tp).lit standard_pressure) d = .error .indexError := by
  obtain ⟨h1, h2, -⟩ := afternoon_south tp h.1
  have h90 : teaOf tp (-45) (raOf tp c - astOf c + 0.1) 0 c ≤ 90 := by
    unfold teaOf deg
    rw [div_le_iff₀ pi_pos]
    linarith [arcsin_le_pi_div_two (sunENU (-45) (topoH tp (-45) (raOf tp c - astOf c + 0.1) 0 c)
      (topoDec tp (-45) (raOf tp c - astOf c + 0.1) 0 c)).z]
  have hr := refr_abs_le htp (show -0.83337 ≤ teaOf tp (-45) (raOf tp c - astOf c + 0.1) 0 c by
    norm_num at *; linarith) h90
  refine ⟨-45, raOf tp c - astOf c + 0.1, fun horizon hl => ?_⟩
  rw [m_lit, m_lit]
  obtain ⟨a, ha⟩ : ∃ a, get_altitude (mathB tp) (num (-45)) (num (raOf tp c - astOf c + 0.1)) (.dt d) (num 0)
      (num standard_temperature) (num standard_pressure) = .ok (num a) := by
    rw [altitude_eval h, refr_eval]
    · exact ⟨_, rfl⟩
    · intro h0; rw [h0] at h2; norm_num at h2
    · norm_num [standard_temperature]
    · intro h0
      rw [h0] at hr
      norm_num at hr
  exact C56_short_horizon tp d _ _ _ _ _ _ _ horizon hl.le ha (azimuth_eval h _ _ _) h1 (aziOf_range ..).2

example : ∀ t ∈ (datetime_range sampleDT sampleEnd 60).yields, ∃ c, UtcFields t c := by
  rw [sample_range.1]
  simp only [List.mem_singleton, forall_eq]
  exact ⟨_, sample_utc⟩

/-- C56 is not vacuous. -/
example (tp : ℝ) (htp : 1 ≤ |tp|) : ∃ lat lon : ℝ, ∀ horizon : List (mathB tp).α, horizon.length = 360 →
    simulateRow (mathB tp) (num lat) (num lon) horizon (num 0) ((mathB tp).lit standard_temperature)
      ((mathB tp).lit standard_pressure) sampleDT = .error .indexError :=
  C56_short_fails tp htp sampleDT sampleUTC sample_utc

end Verif.Props
