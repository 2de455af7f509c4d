import Verif.Props.NonNegative
import Mathlib.Analysis.SpecialFunctions.Log.Deriv

/-!
# C168: with the sun just above the horizon the direct radiation underflows

In real arithmetic `get_radiation_direct` is positive whenever the sun is above the horizon (C40). In IEEE double precision it is
0.0 for every altitude up to 0.01 degrees, on every day; from 0.017 degrees on it is positive.
-/

namespace Verif.Props

open Verif Verif.Spec Pysolar Pysolar.Numeric Pysolar.Radiation Chain

/-! ## Rounding near zero -/

/-- Less than half the smallest double rounds to 0. -/
theorem b64_underflow {x : ℝ} (h0 : 0 ≤ x) (h : x < 1 / 2 ^ 1075) : b64 x = 0 := by
  rcases h0.eq_or_lt with e | hp
  · rw [← e, b64_zero]
  have e74 : (2 : ℝ) ^ (-1074 : ℤ) = 1 / 2 ^ 1074 := by rw [zpow_neg, one_div]; rfl
  have hl : lastPlace x = -1074 := by
    refine max_eq_right ?_
    have : Int.log 2 x < -1022 := by
      rw [← Int.lt_zpow_iff_log_lt (by norm_num) hp]
      refine h.trans ?_
      push_cast
      rw [zpow_neg, one_div]
      refine (inv_lt_inv₀ (by positivity) (by positivity)).2 ?_
      exact pow_lt_pow_right₀ (by norm_num : (1 : ℝ) < 2) (by norm_num)
    omega
  unfold b64
  rw [if_neg (not_lt.2 h0)]
  unfold b64pos
  rw [hl, e74]
  have hx : x / (1 / 2 ^ 1074) < 1 / 2 := by
    rw [div_lt_iff₀ (by positivity)]
    refine h.trans_eq ?_
    rw [one_div_mul_one_div, pow_succ', ]
  have hx0 : 0 ≤ x / (1 / 2 ^ 1074) := by positivity
  have hfl : ⌊x / (1 / 2 ^ 1074)⌋ = 0 := by
    rw [Int.floor_eq_zero_iff]
    exact ⟨hx0, hx.trans (by norm_num)⟩
  have hr : roundEven (x / (1 / 2 ^ 1074)) = 0 := by
    unfold roundEven
    have : Int.fract (x / (1 / 2 ^ 1074)) < 1 / 2 := by
      rw [Int.fract, hfl]
      simpa using hx
    rw [if_pos this, hfl]
  rw [hr]
  simp

/-- The smallest double and what is above it does not round to 0. -/
theorem b64_pos_of_le {x : ℝ} (h : 1 / 2 ^ 1074 ≤ x) : 1 / 2 ^ 1074 / 4 ≤ b64 x := by
  have hp : (0 : ℝ) < 1 / 2 ^ 1074 := by positivity
  have h0 : 0 < x := hp.trans_le h
  have := (abs_le.1 (b64_err x)).1
  rw [abs_of_pos h0] at this
  have e : (1 : ℝ) / 2 ^ 1075 = 1 / 2 ^ 1074 / 2 := by rw [pow_succ, div_div]
  rw [e] at this
  generalize (1 : ℝ) / 2 ^ 1074 = t at *
  norm_num at *
  linarith

theorem exp_underflow {x : ℝ} (h : x ≤ -746) : b64 (Real.exp x) = 0 := by
  refine b64_underflow (Real.exp_pos _).le ?_
  have h1 : Real.exp (-(1075 * Real.log 2)) = 1 / 2 ^ 1075 := by
    rw [Real.exp_neg, one_div, show (1075 : ℝ) = ((1075 : ℕ) : ℝ) by norm_num, Real.exp_nat_mul, Real.exp_log (by norm_num)]
  rw [← h1]
  refine Real.exp_lt_exp.2 ?_
  have := Real.log_two_lt_d9
  norm_num at *
  linarith

theorem exp_no_underflow {x : ℝ} (h : -744 ≤ x) : (1 : ℝ) / 2 ^ 1074 ≤ Real.exp x := by
  have h1 : Real.exp (-(1074 * Real.log 2)) = 1 / 2 ^ 1074 := by
    rw [Real.exp_neg, one_div, show (1074 : ℝ) = ((1074 : ℕ) : ℝ) by norm_num, Real.exp_nat_mul, Real.exp_log (by norm_num)]
  rw [← h1]
  refine Real.exp_le_exp.2 ?_
  have := Real.log_two_gt_d9
  norm_num at *
  linarith

/-! ## The chain -/

/-- The optical depth. -/
theorem depth_range {s : V} (h : Sine s) : Within 0.138 0.21 (lin 0.174 0.035 s) := by
  have e1 := b64_err_nonneg (x := ((0.174 : ℚ) : ℝ)) (by norm_num)
  have e2 := b64_err_nonneg (x := ((0.035 : ℚ) : ℝ)) (by norm_num)
  rcases h with rfl | ⟨t, rfl, ht⟩
  · exact .inl rfl
  · right
    have ht' := abs_le.1 ht
    unfold lin
    generalize b64 ((0.174 : ℚ) : ℝ) = p at *
    generalize b64 ((0.035 : ℚ) : ℝ) = q at *
    have q0 : 0 ≤ q := by norm_num at *; linarith
    have q1 : q ≤ 0.0351 := by norm_num at *; linarith
    have hq : |q * t| ≤ 0.0351 := by
      rw [abs_mul, abs_of_nonneg q0]
      calc q * |t| ≤ 0.0351 * 1 := mul_le_mul q1 ht (abs_nonneg _) (by norm_num)
        _ = _ := by norm_num
    have m : V.rnd binary64 (V.mul (.fin q) (.fin t)) = V.fin (b64 (q * t)) :=
      vrnd64 (hq.trans (by norm_num)) rfl
    have em := abs_le.1 (F64.rnd_abs binary64 _ hq)
    have tl := tiny_le
    rw [m]
    have y1 : -0.0352 ≤ b64 (q * t) := by
      refine le_trans ?_ em.1
      norm_num at *
      linarith
    have y2 : b64 (q * t) ≤ 0.0352 := by
      refine em.2.trans ?_
      norm_num at *
      linarith
    generalize b64 (q * t) = y at *
    have s0 : 0 ≤ p + y := by norm_num at *; linarith
    have es := b64_err_nonneg s0
    refine ⟨b64 (p + y), vrnd64 (by rw [abs_of_nonneg s0]; norm_num at *; linarith) rfl, ?_, ?_⟩ <;> norm_num at * <;> linarith

/-- The sine of the altitude: at most 1.746e-4 up to 0.01 degrees, at least 2.96e-4 from 0.017 degrees to 90. -/
theorem sin_range {a : ℝ} (h0 : 0 < a) (h1 : a ≤ 90) :
    ∃ s : ℝ, 0 ≤ s ∧ (a ≤ 1 / 100 → s ≤ 0.0001746) ∧ (17 / 1000 ≤ a → 0.000296 ≤ s) ∧
      (rndB binary64).sin ((rndB binary64).radians (V.fin a)) = .ok (V.fin s) ∧
      (nprB binary64).sin ((nprB binary64).radians (V.fin a)) = .ok (V.fin s) := by
  have hr := rad64 (x := a) (by rw [abs_of_pos h0]; linarith) rfl
  have e := b64_err_nonneg (x := a * (5030569068109113 / 2 ^ 58)) (by positivity)
  have r0 : 0 ≤ b64 (a * (5030569068109113 / 2 ^ 58)) := b64_nonneg (by positivity)
  have r1 : b64 (a * (5030569068109113 / 2 ^ 58)) ≤ 7074237752028440 / 2 ^ 52 := by
    have := b64_near (x := 90 * (5030569068109113 / 2 ^ 58)) 7074237752028440 52 (by norm_num) (by norm_num) (by norm_num)
      (by rw [abs_lt]; constructor <;> norm_num)
    push_cast at this
    rw [← this]
    exact b64_mono (mul_le_mul_of_nonneg_right h1 (by positivity))
  have hpi := Real.pi_gt_d20
  have r2 : b64 (a * (5030569068109113 / 2 ^ 58)) ≤ Real.pi / 2 := r1.trans (by norm_num at *; linarith)
  generalize b64 (a * (5030569068109113 / 2 ^ 58)) = r at *
  have s0 : 0 ≤ Real.sin r := Real.sin_nonneg_of_nonneg_of_le_pi r0 (by linarith)
  have es := b64_err_nonneg s0
  refine ⟨b64 (Real.sin r), b64_nonneg s0, fun ha => ?_, fun ha => ?_, (congrArg (rndB binary64).sin hr).trans rfl,
    (congrArg (nprB binary64).sin (show (nprB binary64).radians (V.fin a) = V.fin r from hr)).trans rfl⟩
  · have := Real.sin_le r0
    norm_num at *
    linarith
  · have hl : (0.0002965 : ℝ) ≤ r := by norm_num at *; linarith
    have h3 := Real.sin_le_sin_of_le_of_le_pi_div_two (x := 0.0002965) (by linarith) r2 hl
    have h4 := Real.sin_gt_sub_cube (x := 0.0002965) (by norm_num)
    norm_num at *
    linarith

theorem inv_round {s : ℝ} (h : 0 < s) : V.rnd binary64 (V.fin (1 / s)) = V.pinf ∨ V.rnd binary64 (V.fin (1 / s)) = V.fin (b64 (1 / s)) := by
  have e : V.rnd binary64 (.fin (1 / s)) = if (2 : ℝ) ^ 1024 ≤ b64 (1 / s) then V.pinf else if b64 (1 / s) ≤ -2 ^ 1024 then V.ninf
        else V.fin (b64 (1 / s)) := rfl
  have h0 : 0 ≤ b64 (1 / s) := b64_nonneg (by positivity)
  have h2 : ¬b64 (1 / s) ≤ -2 ^ 1024 := by
    have : (0 : ℝ) < 2 ^ 1024 := by positivity
    exact not_le.2 (lt_of_lt_of_le (neg_neg_of_pos this) h0)
  rw [e, if_neg h2]
  by_cases h1 : (2 : ℝ) ^ 1024 ≤ b64 (1 / s)
  · exact .inl (if_pos h1)
  · exact .inr (if_neg h1)

/-- The air mass of a sine. -/
theorem mass_exact {a s : ℝ} (s0 : 0 ≤ s) (m : V) :
    ((rndB binary64).sin ((rndB binary64).radians (V.fin a)) = .ok (V.fin s) ∧ get_air_mass_ratio (rndB binary64) (V.fin a) = .ok m) ∨
    ((nprB binary64).sin ((nprB binary64).radians (V.fin a)) = .ok (V.fin s) ∧ get_air_mass_ratio (nprB binary64) (V.fin a) = .ok m) →
    m = V.pinf ∧ s = 0 ∨ 0 < s ∧ m = V.rnd binary64 (.fin (1 / s)) := by
  rintro (⟨hs, h⟩ | ⟨hs, h⟩)
  · have hone : ((1 : (rndB binary64).α) : V) = V.fin 1 := by
      have := lit64 1 (by norm_num)
      push_cast at this
      exact this
    by_cases hz : s = 0
    · have e : (rndB binary64).sin ((rndB binary64).radians (V.fin a)) >>= (fun t => (rndB binary64).div (1 : (rndB binary64).α) t)
          = .error .zeroDivision := bind_of_ok hs (if_pos hz)
      exact .inl ⟨Except.ok.inj (h.symm.trans (ratio_zero e)), hz⟩
    · have e : (rndB binary64).sin ((rndB binary64).radians (V.fin a)) >>= (fun t => (rndB binary64).div (1 : (rndB binary64).α) t)
          = .ok (V.rnd binary64 (.fin (1 / s))) := bind_of_ok hs (by rw [hone]; exact if_neg hz)
      have hm := Except.ok.inj (h.symm.trans (ratio_ok e))
      have hp : 0 < s := lt_of_le_of_ne s0 (Ne.symm hz)
      exact .inr ⟨hp, hm⟩
  · have hone : ((1 : (nprB binary64).α) : V) = V.fin 1 := by
      have := lit64 1 (by norm_num)
      push_cast at this
      exact this
    by_cases hz : s = 0
    · have e : (nprB binary64).sin ((nprB binary64).radians (V.fin a)) >>= (fun t => (nprB binary64).div (1 : (nprB binary64).α) t)
          = .ok V.pinf := bind_of_ok hs (by
            rw [hone]
            refine (if_pos hz).trans (congrArg Except.ok ?_)
            exact if_pos one_pos)
      exact .inl ⟨Except.ok.inj (h.symm.trans (ratio_ok e)), hz⟩
    · have e : (nprB binary64).sin ((nprB binary64).radians (V.fin a)) >>= (fun t => (nprB binary64).div (1 : (nprB binary64).α) t)
          = .ok (V.rnd binary64 (.fin (1 / s))) := bind_of_ok hs (by rw [hone]; exact if_neg hz)
      have hm := Except.ok.inj (h.symm.trans (ratio_ok e))
      have hp : 0 < s := lt_of_le_of_ne s0 (Ne.symm hz)
      exact .inr ⟨hp, hm⟩

theorem mass_cases {a s : ℝ} (s0 : 0 ≤ s) (m : V)
    (h : ((rndB binary64).sin ((rndB binary64).radians (V.fin a)) = .ok (V.fin s) ∧ get_air_mass_ratio (rndB binary64) (V.fin a) = .ok m) ∨
    ((nprB binary64).sin ((nprB binary64).radians (V.fin a)) = .ok (V.fin s) ∧ get_air_mass_ratio (nprB binary64) (V.fin a) = .ok m)) :
    m = V.pinf ∧ s < 1 / 10 ^ 4 ∨ 0 < s ∧ m = V.rnd binary64 (.fin (1 / s)) := by
  rcases mass_exact s0 m h with ⟨h1, h2⟩ | h
  · exact .inl ⟨h1, by rw [h2]; positivity⟩
  · exact .inr h

/-- Air mass near the horizon. -/
theorem mass_big {s : ℝ} (s1 : s ≤ 0.0001746) {m : V}
    (h : m = V.pinf ∧ s < 1 / 10 ^ 4 ∨ 0 < s ∧ m = V.rnd binary64 (.fin (1 / s))) :
    m = V.pinf ∨ ∃ r : ℝ, m = V.fin r ∧ 5700 ≤ r := by
  rcases h with ⟨h, -⟩ | ⟨hp, h⟩
  · exact .inl h
  rcases inv_round hp with h' | h'
  · exact .inl (h.trans h')
  · refine .inr ⟨_, h.trans h', ?_⟩
    have := b64_mono (show ((5700 : ℤ) : ℝ) ≤ 1 / s by
      rw [le_div_iff₀ hp]
      push_cast
      norm_num at *
      linarith)
    rw [b64_int _ (by norm_num)] at this
    push_cast at this
    exact this

/-- Air mass higher up. -/
theorem mass_moderate {s : ℝ} (s1 : 0.000296 ≤ s) {m : V}
    (h : m = V.pinf ∧ s < 1 / 10 ^ 4 ∨ 0 < s ∧ m = V.rnd binary64 (.fin (1 / s))) :
    ∃ r : ℝ, m = V.fin r ∧ 0 ≤ r ∧ r ≤ 3400 := by
  rcases h with ⟨-, h⟩ | ⟨hp, h⟩
  · norm_num at *
    linarith
  · have h1 : 1 / s ≤ ((3400 : ℤ) : ℝ) := by
      rw [div_le_iff₀ hp]
      push_cast
      norm_num at *
      linarith
    have h0 : 0 ≤ 1 / s := by positivity
    have h2 := b64_mono h1
    rw [b64_int _ (by norm_num)] at h2
    push_cast at h1 h2
    exact ⟨b64 (1 / s), h.trans (vrnd64 (by rw [abs_of_nonneg h0]; norm_num at *; linarith) rfl), b64_nonneg h0, h2⟩

theorem minus_one : V.neg (.fin (b64 ((1 : ℚ) : ℝ))) = V.fin (-1) := by
  have := b64_int 1 (by norm_num)
  push_cast at this ⊢
  rw [this]
  rfl

/-- Minus the optical depth. -/
theorem minus_depth {d : ℝ} (h0 : 0.138 ≤ d) (h1 : d ≤ 0.21) :
    V.rnd binary64 (V.mul (V.neg (.fin (b64 ((1 : ℚ) : ℝ)))) (.fin d)) = V.fin (-b64 d) ∧ 0.137 ≤ b64 d ∧ b64 d ≤ 0.211 := by
  have hb := b64_err_nonneg (x := d) (by norm_num at *; linarith)
  rw [minus_one]
  refine ⟨vrnd64 (z := -1 * d) (by rw [neg_one_mul, abs_neg, abs_of_nonneg] <;> norm_num at * <;> linarith) (by rw [neg_one_mul, b64_neg]),
    ?_, ?_⟩ <;> norm_num at * <;> linarith

/-- The exponent near the horizon. -/
theorem exponent_low {d m : V} (hd : Within 0.138 0.21 d) (hm : m = V.pinf ∨ ∃ r : ℝ, m = V.fin r ∧ 5700 ≤ r) :
    V.rnd binary64 (V.mul (V.rnd binary64 (V.mul (V.neg (.fin (b64 ((1 : ℚ) : ℝ)))) d)) m) = V.nan ∨
    V.rnd binary64 (V.mul (V.rnd binary64 (V.mul (V.neg (.fin (b64 ((1 : ℚ) : ℝ)))) d)) m) = V.ninf ∨
    ∃ x : ℝ, V.rnd binary64 (V.mul (V.rnd binary64 (V.mul (V.neg (.fin (b64 ((1 : ℚ) : ℝ)))) d)) m) = V.fin x ∧ x ≤ -746 := by
  rcases hd with rfl | ⟨d, rfl, d0, d1⟩
  · rw [minus_one]
    exact .inl rfl
  · obtain ⟨hx, b0, b1⟩ := minus_depth d0 d1
    rw [hx]
    generalize b64 d = d at *
    have dp : 0 < d := by norm_num at *; linarith
    rcases hm with rfl | ⟨r, rfl, hr⟩
    · right; left
      have : V.mul (.fin (-d)) .pinf = V.ninf := by
        show V.infMul (-d) .pinf = _
        unfold V.infMul
        rw [if_neg (by linarith), if_pos (by linarith)]
        rfl
      rw [this]
      rfl
    · right
      have e : V.rnd binary64 (V.mul (.fin (-d)) (.fin r)) = if (2 : ℝ) ^ 1024 ≤ b64 (-d * r) then V.pinf
        else if b64 (-d * r) ≤ -2 ^ 1024 then V.ninf else V.fin (b64 (-d * r)) := rfl
      have hle : b64 (-d * r) ≤ -746 := by
        have := b64_mono (show -d * r ≤ ((-746 : ℤ) : ℝ) by
          push_cast
          norm_num at *
          nlinarith)
        rw [b64_int _ (by norm_num)] at this
        push_cast at this
        exact this
      have hbig : ¬(2 : ℝ) ^ 1024 ≤ b64 (-d * r) := by
        have : (0 : ℝ) < 2 ^ 1024 := by positivity
        exact not_le.2 (lt_of_le_of_lt (hle.trans (by norm_num)) this)
      rw [e, if_neg hbig]
      by_cases hlow : b64 (-d * r) ≤ -2 ^ 1024
      · rw [if_pos hlow]
        exact .inl rfl
      · rw [if_neg hlow]
        exact .inr ⟨_, rfl, hle⟩

theorem exp_low {x v : V} (hx : x = V.nan ∨ x = V.ninf ∨ ∃ a : ℝ, x = V.fin a ∧ a ≤ -746)
    (h : (rndB binary64).exp x = .ok v ∨ (nprB binary64).exp x = .ok v) : Within 0 0 v := by
  rcases hx with rfl | rfl | ⟨a, rfl, ha⟩
  · rcases h with h | h <;> exact .inl (Except.ok.inj h).symm
  · rcases h with h | h <;> exact .inr ⟨0, (Except.ok.inj h).symm, le_rfl, le_rfl⟩
  · have h0 := exp_underflow ha
    have hb : ¬(2 : ℝ) ^ 1024 ≤ b64 (Real.exp a) := by rw [h0]; exact not_le.2 (by positivity)
    refine .inr ⟨b64 (Real.exp a), ?_, h0.ge, h0.le⟩
    rcases h with h | h
    · have e : (rndB binary64).exp (V.fin a) = .ok (V.fin (b64 (Real.exp a))) := if_neg hb
      exact Except.ok.inj (h.symm.trans e)
    · have e : (nprB binary64).exp (V.fin a) = .ok (V.fin (b64 (Real.exp a))) := if_neg hb
      exact Except.ok.inj (h.symm.trans e)

theorem product_low {f e : V} (hf : Within 1085 1235 f) (he : Within 0 0 e) (c : Bool) :
    Within 0 0 (V.rnd binary64 (V.mul (V.rnd binary64 (V.mul f e)) (if c then V.fin 1 else V.fin 0))) := by
  rcases hf with rfl | ⟨f, rfl, f0, f1⟩
  · cases c <;> exact .inl rfl
  rcases he with rfl | ⟨e, rfl, e0, e1⟩
  · cases c <;> exact .inl rfl
  have hz : e = 0 := le_antisymm e1 e0
  subst hz
  have hp : V.rnd binary64 (V.mul (.fin f) (.fin 0)) = V.fin 0 :=
    vrnd64 (z := f * 0) (by rw [mul_zero]; norm_num) (by rw [mul_zero]; exact b64_zero)
  rw [hp]
  refine .inr ⟨0, ?_, le_rfl, le_rfl⟩
  cases c
  · exact vrnd64 (z := 0 * 0) (by rw [mul_zero]; norm_num) (by rw [mul_zero]; exact b64_zero)
  · exact vrnd64 (z := 0 * 1) (by rw [zero_mul]; norm_num) (by rw [zero_mul]; exact b64_zero)

/-- Up to 0.01 degrees above the horizon, at any time, the result is 0.0 or nan. -/
theorem low_sun (w : When (rndB binary64)) (a : ℝ) (h0 : 0 < a) (ha : a ≤ 1 / 100) (v : V)
    (h : get_radiation_direct (rndB binary64) w (V.fin a) = .ok v) : Within 0 0 v := by
  unfold get_radiation_direct at h
  obtain ⟨day, -, h⟩ := bind_ok_inv h
  obtain ⟨flux, hf, h⟩ := bind_ok_inv h
  obtain ⟨depth, hd, h⟩ := bind_ok_inv h
  obtain ⟨mass, hm, h⟩ := bind_ok_inv h
  obtain ⟨e, he, h⟩ := bind_ok_inv h
  obtain ⟨s, hs, hf⟩ := bind_ok_inv hf
  obtain ⟨s', hs', hd⟩ := bind_ok_inv hd
  have hf' : lin 1160 75 s = flux := Except.ok.inj hf
  have hd' : lin 0.174 0.035 s' = depth := Except.ok.inj hd
  have hf2 : Within 1085 1235 flux := hf' ▸ lin_flux (sine hs)
  have hd2 : Within 0.138 0.21 depth := hd' ▸ depth_range (sine hs')
  obtain ⟨t, t0, t1, -, ht, -⟩ := sin_range h0 (ha.trans (by norm_num))
  have hm2 := mass_big (t1 ha) (mass_cases t0 mass (.inl ⟨ht, hm⟩))
  exact (Except.ok.inj h) ▸ product_low hf2 (exp_low (exponent_low hd2 hm2) (.inl he)) _

/-- With numpy too. -/
theorem low_sun_numpy (w : When (nprB binary64)) (a : ℝ) (h0 : 0 < a) (ha : a ≤ 1 / 100) (v : V)
    (h : get_radiation_direct (nprB binary64) w (V.fin a) = .ok v) : Within 0 0 v := by
  unfold get_radiation_direct at h
  obtain ⟨day, -, h⟩ := bind_ok_inv h
  obtain ⟨flux, hf, h⟩ := bind_ok_inv h
  obtain ⟨depth, hd, h⟩ := bind_ok_inv h
  obtain ⟨mass, hm, h⟩ := bind_ok_inv h
  obtain ⟨e, he, h⟩ := bind_ok_inv h
  obtain ⟨s, hs, hf⟩ := bind_ok_inv hf
  obtain ⟨s', hs', hd⟩ := bind_ok_inv hd
  have hf' : lin 1160 75 s = flux := Except.ok.inj hf
  have hd' : lin 0.174 0.035 s' = depth := Except.ok.inj hd
  have hf2 : Within 1085 1235 flux := hf' ▸ lin_flux (sine_numpy hs)
  have hd2 : Within 0.138 0.21 depth := hd' ▸ depth_range (sine_numpy hs')
  obtain ⟨t, t0, t1, -, -, ht⟩ := sin_range h0 (ha.trans (by norm_num))
  have hm2 := mass_big (t1 ha) (mass_cases t0 mass (.inr ⟨ht, hm⟩))
  exact (Except.ok.inj h) ▸ product_low hf2 (exp_low (exponent_low hd2 hm2) (.inr he)) _

/-- From 0.017 degrees on: nan or a positive number. -/
def Pos (v : V) : Prop := v = V.nan ∨ ∃ r : ℝ, v = V.fin r ∧ 0 < r

theorem exponent_high {d m : V} (hd : Within 0.138 0.21 d) (hm : ∃ r : ℝ, m = V.fin r ∧ 0 ≤ r ∧ r ≤ 3400) :
    Within (-744) 0 (V.rnd binary64 (V.mul (V.rnd binary64 (V.mul (V.neg (.fin (b64 ((1 : ℚ) : ℝ)))) d)) m)) := by
  obtain ⟨r, rfl, r0, r1⟩ := hm
  rcases hd with rfl | ⟨d, rfl, d0, d1⟩
  · rw [minus_one]
    exact .inl rfl
  · obtain ⟨hx, b0, b1⟩ := minus_depth d0 d1
    rw [hx]
    generalize b64 d = d at *
    have h1 : ((-744 : ℤ) : ℝ) ≤ -d * r := by
      push_cast
      norm_num at *
      nlinarith
    have h2 : -d * r ≤ 0 := by norm_num at *; nlinarith
    have h3 := b64_mono h1
    have h4 := b64_mono h2
    rw [b64_int _ (by norm_num)] at h3
    rw [b64_zero] at h4
    push_cast at h1 h3
    exact .inr ⟨b64 (-d * r), vrnd64 (z := -d * r) (by rw [abs_of_nonpos h2]; norm_num at *; linarith) rfl, h3, h4⟩

theorem exp_high {x v : V} (hx : Within (-744) 0 x)
    (h : (rndB binary64).exp x = .ok v ∨ (nprB binary64).exp x = .ok v) : Within (1 / 2 ^ 1074 / 4) 1 v := by
  rcases hx with rfl | ⟨a, rfl, ha, ha0⟩
  · rcases h with h | h <;> exact .inl (Except.ok.inj h).symm
  · have h1 : b64 (Real.exp a) ≤ 1 := by
      rw [← b64_one]
      exact b64_mono (Real.exp_le_one_iff.2 ha0)
    have h0 := b64_pos_of_le (exp_no_underflow ha)
    have hb : ¬(2 : ℝ) ^ 1024 ≤ b64 (Real.exp a) := not_le.2 (h1.trans_lt (one_lt_pow₀ one_lt_two (by norm_num)))
    refine .inr ⟨b64 (Real.exp a), ?_, h0, h1⟩
    rcases h with h | h
    · have e : (rndB binary64).exp (V.fin a) = .ok (V.fin (b64 (Real.exp a))) := if_neg hb
      exact Except.ok.inj (h.symm.trans e)
    · have e : (nprB binary64).exp (V.fin a) = .ok (V.fin (b64 (Real.exp a))) := if_neg hb
      exact Except.ok.inj (h.symm.trans e)

theorem product_high {f e : V} (hf : Within 1085 1235 f) (he : Within (1 / 2 ^ 1074 / 4) 1 e) {c : Bool} (hc : c = true) :
    Pos (V.rnd binary64 (V.mul (V.rnd binary64 (V.mul f e)) (if c then V.fin 1 else V.fin 0))) := by
  subst hc
  rcases hf with rfl | ⟨f, rfl, f0, f1⟩
  · exact .inl rfl
  rcases he with rfl | ⟨e, rfl, e0, e1⟩
  · exact .inl rfl
  have hp : (0 : ℝ) < 1 / 2 ^ 1074 := by positivity
  have hfe : 1 / 2 ^ 1074 ≤ f * e := by
    generalize (1 : ℝ) / 2 ^ 1074 = t at *
    nlinarith
  have hb := b64_pos_of_le hfe
  have p0 : 0 < f * e := hp.trans_le hfe
  have p1 : f * e ≤ 1235 := by
    have : 0 ≤ e := le_trans (by positivity) e0
    nlinarith
  have hm : V.rnd binary64 (V.mul (.fin f) (.fin e)) = V.fin (b64 (f * e)) :=
    vrnd64 (by rw [abs_of_pos p0]; norm_num; linarith) rfl
  have r1 := b64_mono (show f * e ≤ ((1235 : ℤ) : ℝ) by push_cast; exact p1)
  rw [b64_int _ (by norm_num)] at r1
  push_cast at r1
  have r0 : 0 < b64 (f * e) := lt_of_lt_of_le (by positivity) hb
  rw [hm]
  refine .inr ⟨b64 (f * e), ?_, r0⟩
  exact vrnd64 (z := b64 (f * e) * 1) (by rw [mul_one, abs_of_pos r0]; norm_num; linarith) (by rw [mul_one, b64_idem])

theorem high_sun (w : When (rndB binary64)) (a : ℝ) (h0 : 17 / 1000 ≤ a) (ha : a ≤ 90) (v : V)
    (h : get_radiation_direct (rndB binary64) w (V.fin a) = .ok v) : Pos v := by
  have hp : 0 < a := by norm_num at *; linarith
  have l0 : ((0 : (rndB binary64).α) : V) = V.fin 0 := by
    have := lit64 0 (by norm_num)
    push_cast at this
    exact this
  unfold get_radiation_direct at h
  obtain ⟨day, -, h⟩ := bind_ok_inv h
  obtain ⟨flux, hf, h⟩ := bind_ok_inv h
  obtain ⟨depth, hd, h⟩ := bind_ok_inv h
  obtain ⟨mass, hm, h⟩ := bind_ok_inv h
  obtain ⟨e, he, h⟩ := bind_ok_inv h
  obtain ⟨s, hs, hf⟩ := bind_ok_inv hf
  obtain ⟨s', hs', hd⟩ := bind_ok_inv hd
  have hf' : lin 1160 75 s = flux := Except.ok.inj hf
  have hd' : lin 0.174 0.035 s' = depth := Except.ok.inj hd
  have hf2 : Within 1085 1235 flux := hf' ▸ lin_flux (sine hs)
  have hd2 : Within 0.138 0.21 depth := hd' ▸ depth_range (sine hs')
  obtain ⟨t, t0, -, t1, ht, -⟩ := sin_range hp ha
  have hm2 := mass_moderate (t1 h0) (mass_cases t0 mass (.inl ⟨ht, hm⟩))
  have hc : (rndB binary64).lt (0 : (rndB binary64).α) (V.fin a) = true := by
    rw [l0]
    exact decide_eq_true hp
  exact (Except.ok.inj h) ▸ product_high hf2 (exp_high (exponent_high hd2 hm2) (.inl he)) hc

theorem high_sun_numpy (w : When (nprB binary64)) (a : ℝ) (h0 : 17 / 1000 ≤ a) (ha : a ≤ 90) (v : V)
    (h : get_radiation_direct (nprB binary64) w (V.fin a) = .ok v) : Pos v := by
  have hp : 0 < a := by norm_num at *; linarith
  have l0 : ((0 : (nprB binary64).α) : V) = V.fin 0 := by
    have := lit64 0 (by norm_num)
    push_cast at this
    exact this
  unfold get_radiation_direct at h
  obtain ⟨day, -, h⟩ := bind_ok_inv h
  obtain ⟨flux, hf, h⟩ := bind_ok_inv h
  obtain ⟨depth, hd, h⟩ := bind_ok_inv h
  obtain ⟨mass, hm, h⟩ := bind_ok_inv h
  obtain ⟨e, he, h⟩ := bind_ok_inv h
  obtain ⟨s, hs, hf⟩ := bind_ok_inv hf
  obtain ⟨s', hs', hd⟩ := bind_ok_inv hd
  have hf' : lin 1160 75 s = flux := Except.ok.inj hf
  have hd' : lin 0.174 0.035 s' = depth := Except.ok.inj hd
  have hf2 : Within 1085 1235 flux := hf' ▸ lin_flux (sine_numpy hs)
  have hd2 : Within 0.138 0.21 depth := hd' ▸ depth_range (sine_numpy hs')
  obtain ⟨t, t0, -, t1, -, ht⟩ := sin_range hp ha
  have hm2 := mass_moderate (t1 h0) (mass_cases t0 mass (.inr ⟨ht, hm⟩))
  have hc : (nprB binary64).lt (0 : (nprB binary64).α) (V.fin a) = true := by
    rw [l0]
    exact decide_eq_true hp
  exact (Except.ok.inj h) ▸ product_high hf2 (exp_high (exponent_high hd2 hm2) (.inr he)) hc

/-! ## The claim -/

/-- C168, the claim: at every instant, with the sun above the horizon and not beyond the zenith, a positive number. -/
def C168_claim : Prop := ∀ (d : DateTime) (c : Civil), UtcFields d c → ∀ a : ℝ, 0 < a → a ≤ 90 →
  ∃ r : ℝ, get_radiation_direct (rndB binary64) (.dt d) (flt binary64 a) = .ok (flt binary64 r) ∧ 0 < r

/-- C168: at every instant, for every altitude above 0 and up to 0.01 degrees, exactly 0.0. -/
theorem C168_underflow (d : DateTime) (c : Civil) (hu : UtcFields d c) (a : ℝ) (h0 : 0 < a) (h1 : a ≤ 1 / 100) :
    get_radiation_direct (rndB binary64) (.dt d) (flt binary64 a) = .ok (flt binary64 0) := by
  have h90 : a ≤ 90 := h1.trans (by norm_num)
  obtain ⟨fl, hfl, -⟩ := flux_float binary64 hu.1
  obtain ⟨k, hk, -⟩ := depth_float binary64 hu.1
  obtain ⟨m, hm⟩ := air_mass_ok binary64 (alt := a) (by rw [abs_of_pos h0]; exact h90)
  have hsplit := direct_split (rndB binary64) rfl hu (flt binary64 a)
  obtain ⟨s, hs, hf⟩ := bind_ok_inv hfl
  obtain ⟨s', hs', hd⟩ := bind_ok_inv hk
  have hf' : lin 1160 75 s = V.fin fl := Except.ok.inj hf
  have hd' : lin 0.174 0.035 s' = V.fin k := Except.ok.inj hd
  have hd2 : Within 0.138 0.21 (V.fin k) := hd' ▸ depth_range (sine hs')
  obtain ⟨t, t0, t1, -, ht, -⟩ := sin_range h0 h90
  have hm2 := mass_big (t1 h1) (mass_cases t0 m (.inl ⟨ht, hm⟩))
  have hx := exponent_low hd2 hm2
  have he : (rndB binary64).exp ((rndB binary64).mul ((rndB binary64).mul ((rndB binary64).neg ((rndB binary64).lit 1)) (V.fin k)) m) =
      .ok (V.fin 0) := by
    rcases hx with hx | hx | ⟨x, hx, hx1⟩
    · exfalso
      rcases hd2 with h | ⟨d, h, d0, d1⟩
      · cases h
      · obtain ⟨e1, b0, -⟩ := minus_depth d0 d1
        rw [h, e1] at hx
        rcases hm2 with rfl | ⟨r, rfl, -⟩
        · have : V.mul (.fin (-b64 d)) .pinf = V.ninf := by
            show V.infMul (-b64 d) .pinf = _
            unfold V.infMul
            rw [if_neg (by norm_num at *; linarith), if_pos (by norm_num at *; linarith)]
            rfl
          rw [this] at hx
          cases hx
        · have e : V.rnd binary64 (V.mul (.fin (-b64 d)) (.fin r)) = if (2 : ℝ) ^ 1024 ≤ b64 (-b64 d * r) then V.pinf
            else if b64 (-b64 d * r) ≤ -2 ^ 1024 then V.ninf else V.fin (b64 (-b64 d * r)) := rfl
          rw [e] at hx
          split_ifs at hx
    · exact (congrArg (rndB binary64).exp hx).trans rfl
    · have hb : ¬(2 : ℝ) ^ 1024 ≤ b64 (Real.exp x) := by rw [exp_underflow hx1]; exact not_le.2 (by positivity)
      have e : (rndB binary64).exp (V.fin x) = .ok (V.fin (b64 (Real.exp x))) := if_neg hb
      rw [exp_underflow hx1] at e
      exact (congrArg (rndB binary64).exp hx).trans e
  have hr := hsplit.trans (bind_of_ok hfl (bind_of_ok hk (bind_of_ok hm (bind_of_ok he rfl))))
  have hc : (rndB binary64).ofC ((rndB binary64).lt (0 : (rndB binary64).α) (V.fin a)) = V.fin 1 := by
    have l0 : ((0 : (rndB binary64).α) : V) = V.fin 0 := by
      have := lit64 0 (by norm_num)
      push_cast at this
      exact this
    rw [l0]
    exact if_pos (decide_eq_true h0)
  have hp : V.rnd binary64 (V.mul (.fin fl) (.fin 0)) = V.fin 0 :=
    vrnd64 (z := fl * 0) (by rw [mul_zero]; norm_num) (by rw [mul_zero]; exact b64_zero)
  have hq : V.rnd binary64 (V.mul (V.rnd binary64 (V.mul (.fin fl) (.fin 0))) (V.fin 1)) = V.fin 0 := by
    rw [hp]
    exact vrnd64 (z := 0 * 1) (by rw [zero_mul]; norm_num) (by rw [zero_mul]; exact b64_zero)
  refine hr.trans (congrArg Except.ok ?_)
  refine Eq.trans ?_ hq
  exact congrArg (fun z => V.rnd binary64 (V.mul (V.rnd binary64 (V.mul (.fin fl) (.fin 0))) z)) hc

/-- C168 is false: 0.0 at the sample instant with the sun 1/128 degree up. -/
theorem C168_refuted : ¬C168_claim := by
  intro hc
  obtain ⟨r, h, hr⟩ := hc sampleDT sampleUTC sample_utc (1 / 128) (by norm_num) (by norm_num)
  rw [C168_underflow sampleDT sampleUTC sample_utc (1 / 128) (by norm_num) (by norm_num)] at h
  have e : (0 : ℝ) = r := by
    have := Except.ok.inj h
    injection this
  linarith

/-- C168, what holds: positive from 0.017 degrees on. -/
theorem C168_positive_partial (d : DateTime) (c : Civil) (hu : UtcFields d c) (a : ℝ) (h0 : 17 / 1000 ≤ a) (h1 : a ≤ 90) :
    ∃ r : ℝ, get_radiation_direct (rndB binary64) (.dt d) (flt binary64 a) = .ok (flt binary64 r) ∧ 0 < r := by
  obtain ⟨_, r', _, h, _⟩ := C105_direct_radiation binary64 0 d c hu a (le_trans (by norm_num) h0) h1
  rcases high_sun (.dt d) a h0 h1 _ h with h' | ⟨r, h', h2⟩
  · cases h'
  · have e : r' = r := by injection h'
    exact ⟨r', h, e ▸ h2⟩

/-- C168 with numpy, for datetimes and arrays of days: 0.0 up to 0.01 degrees, positive from 0.017 degrees on, if not nan. -/
theorem C168_numpy_partial (w : When (nprB binary64)) (a : ℝ) (v : V) (h : get_radiation_direct (nprB binary64) w (V.fin a) = .ok v) :
    (0 < a → a ≤ 1 / 100 → v = V.nan ∨ v = V.fin 0) ∧
    (17 / 1000 ≤ a → a ≤ 90 → v = V.nan ∨ ∃ r : ℝ, v = V.fin r ∧ 0 < r) := by
  refine ⟨fun h0 h1 => ?_, fun h0 h1 => high_sun_numpy w a h0 h1 v h⟩
  rcases low_sun_numpy w a h0 h1 v h with h' | ⟨r, h', h2, h3⟩
  · exact .inl h'
  · exact .inr (le_antisymm h3 h2 ▸ h')

/-- The hypotheses hold at the sample instant. -/
example : ∃ r : ℝ, get_radiation_direct (rndB binary64) (.dt sampleDT) (flt binary64 (17 / 1000)) = .ok (flt binary64 r) ∧ 0 < r :=
  C168_positive_partial sampleDT sampleUTC sample_utc _ le_rfl (by norm_num)

end Verif.Props
