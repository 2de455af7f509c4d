import Verif.Props.AngleRange

/-!
# C167: the direct radiation is never negative

Whatever time and altitude are passed to `get_radiation_direct`, in IEEE double precision it returns no negative number; and for an
altitude of at most 180 degrees no number above 1235 and no infinity.
-/

namespace Verif.Props

open Verif Verif.Spec Pysolar Pysolar.Numeric Pysolar.Radiation Pysolar.Solar Chain

/-- Not a negative number. -/
def NN (v : V) : Prop := v = V.nan ∨ v = V.pinf ∨ ∃ r : ℝ, v = V.fin r ∧ 0 ≤ r

theorem b64_nonneg {x : ℝ} (h : 0 ≤ x) : 0 ≤ b64 x := by
  have := b64_mono h
  rwa [b64_zero] at this

theorem nn_rnd {x : ℝ} (h : 0 ≤ x) : NN (V.rnd binary64 (.fin x)) := by
  have h0 := b64_nonneg h
  have e : V.rnd binary64 (.fin x) = if (2 : ℝ) ^ 1024 ≤ b64 x then V.pinf else if b64 x ≤ -2 ^ 1024 then V.ninf else V.fin (b64 x) := rfl
  rw [e]
  by_cases h1 : (2 : ℝ) ^ 1024 ≤ b64 x
  · rw [if_pos h1]
    exact .inr (.inl rfl)
  · have h2 : ¬b64 x ≤ -2 ^ 1024 := by
      have : (0 : ℝ) < 2 ^ 1024 := by positivity
      exact not_le.2 (lt_of_lt_of_le (neg_neg_of_pos this) h0)
    rw [if_neg h1, if_neg h2]
    exact .inr (.inr ⟨_, rfl, h0⟩)

theorem nn_mul {x y : V} (hx : NN x) (hy : NN y) : NN (V.rnd binary64 (V.mul x y)) := by
  have inf : ∀ a : ℝ, 0 ≤ a → NN (V.rnd binary64 (V.infMul a .pinf)) := fun a ha => by
    unfold V.infMul
    by_cases h : 0 < a
    · rw [if_pos h]
      exact .inr (.inl rfl)
    · rw [if_neg h, if_neg (by linarith)]
      exact .inl rfl
  rcases hx with rfl | rfl | ⟨a, rfl, ha⟩ <;> rcases hy with rfl | rfl | ⟨b, rfl, hb⟩
  · exact .inl rfl
  · exact .inl rfl
  · exact .inl rfl
  · exact .inl rfl
  · exact .inr (.inl rfl)
  · exact inf b hb
  · exact .inl rfl
  · exact inf a ha
  · exact nn_rnd (mul_nonneg ha hb)

/-- What `sin` returns: a number from -1 to 1, or nan. -/
def Sine (v : V) : Prop := v = V.nan ∨ ∃ t : ℝ, v = V.fin t ∧ |t| ≤ 1

theorem sine {x v : V} (h : (rndB binary64).sin x = .ok v) : Sine v := by
  cases x with
  | fin a => exact .inr ⟨_, (Except.ok.inj h).symm, b64_abs_le_one (Real.abs_sin_le_one a)⟩
  | nan => exact .inl (Except.ok.inj h).symm
  | _ => cases h

theorem sine_numpy {x v : V} (h : (nprB binary64).sin x = .ok v) : Sine v := by
  cases x with
  | fin a => exact .inr ⟨_, (Except.ok.inj h).symm, b64_abs_le_one (Real.abs_sin_le_one a)⟩
  | _ => exact .inl (Except.ok.inj h).symm

/-- A linear function of the sine. -/
noncomputable def lin (p q : ℚ) (s : V) : V := V.rnd binary64 (V.add (.fin (b64 p)) (V.rnd binary64 (V.mul (.fin (b64 q)) s)))

theorem lin_flux {s : V} (h : Sine s) : Within 1085 1235 (lin 1160 75 s) := by
  have e1 : b64 ((1160 : ℚ) : ℝ) = 1160 := by have := b64_int 1160 (by norm_num); norm_num at this ⊢; exact this
  have e2 : b64 ((75 : ℚ) : ℝ) = 75 := by have := b64_int 75 (by norm_num); norm_num at this ⊢; exact this
  rcases h with rfl | ⟨t, rfl, ht⟩
  · exact .inl rfl
  · right
    have ht' := abs_le.1 ht
    unfold lin
    rw [e1, e2]
    have m : V.rnd binary64 (V.mul (.fin 75) (.fin t)) = V.fin (b64 (75 * t)) :=
      vrnd64 (by rw [abs_mul]; norm_num; linarith) rfl
    have m1 := b64_mono (show 75 * t ≤ ((75 : ℤ) : ℝ) by push_cast; linarith)
    have m2 := b64_mono (show ((-75 : ℤ) : ℝ) ≤ 75 * t by push_cast; linarith)
    rw [b64_int _ (by norm_num)] at m1 m2
    push_cast at m1 m2
    rw [m]
    generalize b64 (75 * t) = y at *
    refine ⟨b64 (1160 + y), vrnd64 (by rw [abs_of_nonneg] <;> norm_num at * <;> linarith) rfl, ?_, ?_⟩
    · have := b64_mono (show ((1085 : ℤ) : ℝ) ≤ 1160 + y by push_cast; linarith)
      rw [b64_int _ (by norm_num)] at this
      push_cast at this
      exact this
    · have := b64_mono (show 1160 + y ≤ ((1235 : ℤ) : ℝ) by push_cast; linarith)
      rw [b64_int _ (by norm_num)] at this
      push_cast at this
      exact this

theorem lin_depth {s : V} (h : Sine s) : Within 0.1 1 (lin 0.174 0.035 s) := by
  have e1 := b64_err_nonneg (x := ((0.174 : ℚ) : ℝ)) (by norm_num)
  have e2 := b64_err_nonneg (x := ((0.035 : ℚ) : ℝ)) (by norm_num)
  rcases h with rfl | ⟨t, rfl, ht⟩
  · exact .inl rfl
  · right
    have ht' := abs_le.1 ht
    unfold lin
    generalize b64 ((0.174 : ℚ) : ℝ) = p at *
    generalize b64 ((0.035 : ℚ) : ℝ) = q at *
    have q0 : 0 ≤ q := by norm_num at *; linarith
    have q1 : q ≤ 0.04 := by norm_num at *; linarith
    have hq : |q * t| ≤ 0.04 := by
      rw [abs_mul, abs_of_nonneg q0]
      calc q * |t| ≤ 0.04 * 1 := mul_le_mul q1 ht (abs_nonneg _) (by norm_num)
        _ = _ := by norm_num
    have m : V.rnd binary64 (V.mul (.fin q) (.fin t)) = V.fin (b64 (q * t)) :=
      vrnd64 (hq.trans (by norm_num)) rfl
    have em := abs_le.1 (F64.rnd_abs binary64 _ hq)
    have tl := tiny_le
    rw [m]
    have y1 : -0.05 ≤ b64 (q * t) := by
      refine le_trans ?_ em.1
      norm_num at *
      linarith
    have y2 : b64 (q * t) ≤ 0.05 := by
      refine em.2.trans ?_
      norm_num at *
      linarith
    generalize b64 (q * t) = y at *
    have s0 : 0 ≤ p + y := by norm_num at *; linarith
    have es := b64_err_nonneg s0
    refine ⟨b64 (p + y), vrnd64 (by rw [abs_of_nonneg s0]; norm_num at *; linarith) rfl, ?_, ?_⟩ <;> norm_num at * <;> linarith

/-- The exponential is never negative. -/
theorem exp_nn {x v : V} (h : (rndB binary64).exp x = .ok v) : NN v := by
  cases x with
  | fin a =>
    have h' : (if (2 : ℝ) ^ 1024 ≤ b64 (Real.exp a) then Except.error PyErr.overflow else Except.ok (V.fin (b64 (Real.exp a)))) = .ok v := h
    split_ifs at h'
    exact .inr (.inr ⟨_, (Except.ok.inj h').symm, b64_nonneg (Real.exp_pos a).le⟩)
  | pinf => exact .inr (.inl (Except.ok.inj h).symm)
  | ninf => exact .inr (.inr ⟨0, (Except.ok.inj h).symm, le_rfl⟩)
  | nan => exact .inl (Except.ok.inj h).symm

theorem exp_nn_numpy {x v : V} (h : (nprB binary64).exp x = .ok v) : NN v := by
  cases x with
  | fin a =>
    have h' : (if (2 : ℝ) ^ 1024 ≤ b64 (Real.exp a) then Except.ok V.pinf else Except.ok (V.fin (b64 (Real.exp a)))) = .ok v := h
    split_ifs at h'
    · exact .inr (.inl (Except.ok.inj h').symm)
    · exact .inr (.inr ⟨_, (Except.ok.inj h').symm, b64_nonneg (Real.exp_pos a).le⟩)
  | pinf => exact .inr (.inl (Except.ok.inj h).symm)
  | ninf => exact .inr (.inr ⟨0, (Except.ok.inj h).symm, le_rfl⟩)
  | nan => exact .inl (Except.ok.inj h).symm

theorem within_nn {lo hi : ℝ} (h0 : 0 ≤ lo) {v : V} (h : Within lo hi v) : NN v := by
  rcases h with h | ⟨r, h, h1, -⟩
  · exact .inl h
  · exact .inr (.inr ⟨r, h, h0.trans h1⟩)

theorem ofC_nn (c : Bool) : NN (if c then V.fin 1 else V.fin 0) := by
  cases c
  · exact .inr (.inr ⟨0, rfl, le_rfl⟩)
  · exact .inr (.inr ⟨1, rfl, zero_le_one⟩)

/-- C167: whatever the time and the altitude, in IEEE double precision `get_radiation_direct` returns no negative number. -/
theorem C167_nonneg (w : When (rndB binary64)) (alt : V) (v : V) (h : get_radiation_direct (rndB binary64) w alt = .ok v) : NN v := by
  unfold get_radiation_direct at h
  obtain ⟨day, -, h⟩ := bind_ok_inv h
  obtain ⟨flux, hf, h⟩ := bind_ok_inv h
  obtain ⟨depth, -, h⟩ := bind_ok_inv h
  obtain ⟨mass, -, h⟩ := bind_ok_inv h
  obtain ⟨e, he, h⟩ := bind_ok_inv h
  obtain ⟨s, hs, hf⟩ := bind_ok_inv hf
  have hf' : lin 1160 75 s = flux := Except.ok.inj hf
  have hn : NN flux := hf' ▸ within_nn (by norm_num) (lin_flux (sine hs))
  exact (Except.ok.inj h) ▸ nn_mul (nn_mul hn (exp_nn he)) (ofC_nn _)

/-- C167 with numpy. -/
theorem C167_nonneg_numpy (w : When (nprB binary64)) (alt : V) (v : V) (h : get_radiation_direct (nprB binary64) w alt = .ok v) : NN v := by
  unfold get_radiation_direct at h
  obtain ⟨day, -, h⟩ := bind_ok_inv h
  obtain ⟨flux, hf, h⟩ := bind_ok_inv h
  obtain ⟨depth, -, h⟩ := bind_ok_inv h
  obtain ⟨mass, -, h⟩ := bind_ok_inv h
  obtain ⟨e, he, h⟩ := bind_ok_inv h
  obtain ⟨s, hs, hf⟩ := bind_ok_inv hf
  have hf' : lin 1160 75 s = flux := Except.ok.inj hf
  have hn : NN flux := hf' ▸ within_nn (by norm_num) (lin_flux (sine_numpy hs))
  exact (Except.ok.inj h) ▸ nn_mul (nn_mul hn (exp_nn_numpy he)) (ofC_nn _)

/-! ## The upper bound -/

theorem straight_angle : b64 (180 * (5030569068109113 / 2 ^ 58)) = 7074237752028440 / 2 ^ 51 := by
  have := b64_near (x := 180 * (5030569068109113 / 2 ^ 58)) 7074237752028440 51 (by norm_num) (by norm_num) (by norm_num)
    (by rw [abs_lt]; constructor <;> norm_num)
  push_cast at this
  exact this

/-- The sine of an altitude above the horizon is computed as a non-negative number. -/
theorem sin_alt {a : ℝ} (h0 : 0 < a) (h1 : a ≤ 180) :
    ∃ s : ℝ, 0 ≤ s ∧ (rndB binary64).sin ((rndB binary64).radians (V.fin a)) = .ok (V.fin s) ∧
      (nprB binary64).sin ((nprB binary64).radians (V.fin a)) = .ok (V.fin s) := by
  have hr := rad64 (x := a) (by rw [abs_of_pos h0]; linarith) rfl
  have r0 : 0 ≤ b64 (a * (5030569068109113 / 2 ^ 58)) := b64_nonneg (by positivity)
  have r1 := b64_mono (mul_le_mul_of_nonneg_right h1 (by positivity : (0 : ℝ) ≤ 5030569068109113 / 2 ^ 58))
  rw [straight_angle] at r1
  generalize b64 (a * (5030569068109113 / 2 ^ 58)) = r at *
  refine ⟨b64 (Real.sin r), b64_nonneg ?_, (congrArg (rndB binary64).sin hr).trans rfl,
    (congrArg (nprB binary64).sin (show (nprB binary64).radians (V.fin a) = V.fin r from hr)).trans rfl⟩
  refine Real.sin_nonneg_of_nonneg_of_le_pi r0 (r1.trans ?_)
  have := Real.pi_gt_d20
  norm_num at *
  linarith

theorem ratio_ok {B : Backend} {a v : B.α} (h : B.sin (B.radians a) >>= (fun t => B.div (1 : B.α) t) = .ok v) :
    get_air_mass_ratio B a = .ok v := by
  unfold get_air_mass_ratio
  rw [h]

theorem ratio_zero {B : Backend} {a : B.α} (h : B.sin (B.radians a) >>= (fun t => B.div (1 : B.α) t) = .error .zeroDivision) :
    get_air_mass_ratio B a = .ok B.inf := by
  unfold get_air_mass_ratio
  rw [h]

/-- The air mass is then positive or infinite. -/
theorem mass_alt {a : ℝ} (h0 : 0 < a) (h1 : a ≤ 180) {m : V} (h : get_air_mass_ratio (rndB binary64) (V.fin a) = .ok m) :
    m = V.pinf ∨ ∃ r : ℝ, m = V.fin r ∧ 0 ≤ r := by
  obtain ⟨s, s0, hs, -⟩ := sin_alt h0 h1
  have hone : ((1 : (rndB binary64).α) : V) = V.fin 1 := by
    have := lit64 1 (by norm_num)
    push_cast at this
    exact this
  by_cases hz : s = 0
  · have e : (rndB binary64).sin ((rndB binary64).radians (V.fin a)) >>= (fun t => (rndB binary64).div (1 : (rndB binary64).α) t)
        = .error .zeroDivision := bind_of_ok hs (if_pos hz)
    exact .inl (Except.ok.inj (h.symm.trans (ratio_zero e)))
  · have e : (rndB binary64).sin ((rndB binary64).radians (V.fin a)) >>= (fun t => (rndB binary64).div (1 : (rndB binary64).α) t)
        = .ok (V.rnd binary64 (.fin (1 / s))) := bind_of_ok hs (by rw [hone]; exact if_neg hz)
    have hm := Except.ok.inj ((ratio_ok e).symm.trans h)
    rcases nn_rnd (x := 1 / s) (by positivity) with h | h | h
    · exfalso
      have : V.rnd binary64 (.fin (1 / s)) = if (2 : ℝ) ^ 1024 ≤ b64 (1 / s) then V.pinf else if b64 (1 / s) ≤ -2 ^ 1024 then V.ninf
        else V.fin (b64 (1 / s)) := rfl
      rw [this] at h
      split_ifs at h
    · exact .inl (hm.symm.trans h)
    · rw [hm] at h
      exact .inr h

theorem mass_alt_numpy {a : ℝ} (h0 : 0 < a) (h1 : a ≤ 180) {m : V} (h : get_air_mass_ratio (nprB binary64) (V.fin a) = .ok m) :
    m = V.pinf ∨ ∃ r : ℝ, m = V.fin r ∧ 0 ≤ r := by
  obtain ⟨s, s0, -, hs⟩ := sin_alt h0 h1
  have hone : ((1 : (nprB binary64).α) : V) = V.fin 1 := by
    have := lit64 1 (by norm_num)
    push_cast at this
    exact this
  by_cases hz : s = 0
  · have e : (nprB binary64).sin ((nprB binary64).radians (V.fin a)) >>= (fun t => (nprB binary64).div (1 : (nprB binary64).α) t)
        = .ok V.pinf := bind_of_ok hs (by
          rw [hone]
          refine (if_pos hz).trans (congrArg Except.ok ?_)
          exact if_pos one_pos)
    exact .inl (Except.ok.inj (h.symm.trans (ratio_ok e)))
  · have e : (nprB binary64).sin ((nprB binary64).radians (V.fin a)) >>= (fun t => (nprB binary64).div (1 : (nprB binary64).α) t)
        = .ok (V.rnd binary64 (.fin (1 / s))) := bind_of_ok hs (by rw [hone]; exact if_neg hz)
    have hm := Except.ok.inj ((ratio_ok e).symm.trans h)
    rcases nn_rnd (x := 1 / s) (by positivity) with h | h | h
    · exfalso
      have : V.rnd binary64 (.fin (1 / s)) = if (2 : ℝ) ^ 1024 ≤ b64 (1 / s) then V.pinf else if b64 (1 / s) ≤ -2 ^ 1024 then V.ninf
        else V.fin (b64 (1 / s)) := rfl
      rw [this] at h
      split_ifs at h
    · exact .inl (hm.symm.trans h)
    · rw [hm] at h
      exact .inr h

/-- The exponent: minus the product of two non-negative numbers. -/
theorem exponent {d m : V} (hd : Within 0.1 1 d) (hm : m = V.pinf ∨ ∃ r : ℝ, m = V.fin r ∧ 0 ≤ r) :
    V.rnd binary64 (V.mul (V.rnd binary64 (V.mul (V.neg (.fin (b64 ((1 : ℚ) : ℝ)))) d)) m) = V.nan ∨
    V.rnd binary64 (V.mul (V.rnd binary64 (V.mul (V.neg (.fin (b64 ((1 : ℚ) : ℝ)))) d)) m) = V.ninf ∨
    ∃ x : ℝ, V.rnd binary64 (V.mul (V.rnd binary64 (V.mul (V.neg (.fin (b64 ((1 : ℚ) : ℝ)))) d)) m) = V.fin x ∧ x ≤ 0 := by
  have e1 : V.neg (.fin (b64 ((1 : ℚ) : ℝ))) = V.fin (-1) := by
    have := b64_int 1 (by norm_num)
    push_cast at this ⊢
    rw [this]
    rfl
  rw [e1]
  rcases hd with rfl | ⟨d, rfl, d0, d1⟩
  · exact .inl rfl
  · have hx : V.rnd binary64 (V.mul (.fin (-1)) (.fin d)) = V.fin (-b64 d) :=
      vrnd64 (z := -1 * d) (by rw [neg_one_mul, abs_neg, abs_of_nonneg] <;> norm_num at * <;> linarith) (by rw [neg_one_mul, b64_neg])
    have hd0 : 0 < b64 d := by
      have := (b64_err_nonneg (x := d) (by norm_num at *; linarith)).1
      norm_num at *
      linarith
    rw [hx]
    generalize b64 d = d at *
    rcases hm with rfl | ⟨r, rfl, hr⟩
    · right; left
      have : V.mul (.fin (-d)) .pinf = V.ninf := by
        show V.infMul (-d) .pinf = _
        unfold V.infMul
        rw [if_neg (by linarith), if_pos (by linarith)]
        rfl
      rw [this]
      rfl
    · right
      have e : V.rnd binary64 (V.mul (.fin (-d)) (.fin r)) = if (2 : ℝ) ^ 1024 ≤ b64 (-d * r) then V.pinf
        else if b64 (-d * r) ≤ -2 ^ 1024 then V.ninf else V.fin (b64 (-d * r)) := rfl
      have hle : b64 (-d * r) ≤ 0 := by
        have := b64_mono (show -d * r ≤ 0 by nlinarith)
        rwa [b64_zero] at this
      have hbig : ¬(2 : ℝ) ^ 1024 ≤ b64 (-d * r) := by
        have : (0 : ℝ) < 2 ^ 1024 := by positivity
        exact not_le.2 (lt_of_le_of_lt hle this)
      rw [e, if_neg hbig]
      by_cases hlow : b64 (-d * r) ≤ -2 ^ 1024
      · rw [if_pos hlow]
        exact .inl rfl
      · rw [if_neg hlow]
        exact .inr ⟨_, rfl, hle⟩

/-- The exponential of such an exponent. -/
theorem exp_le_one {x v : V} (hx : x = V.nan ∨ x = V.ninf ∨ ∃ a : ℝ, x = V.fin a ∧ a ≤ 0)
    (h : (rndB binary64).exp x = .ok v ∨ (nprB binary64).exp x = .ok v) : Within 0 1 v := by
  rcases hx with rfl | rfl | ⟨a, rfl, ha⟩
  · rcases h with h | h <;> exact .inl (Except.ok.inj h).symm
  · rcases h with h | h <;> exact .inr ⟨0, (Except.ok.inj h).symm, le_rfl, zero_le_one⟩
  · have h1 : b64 (Real.exp a) ≤ 1 := by
      rw [← b64_one]
      exact b64_mono (Real.exp_le_one_iff.2 ha)
    have h0 := b64_nonneg (Real.exp_pos a).le
    have hb : ¬(2 : ℝ) ^ 1024 ≤ b64 (Real.exp a) := not_le.2 (h1.trans_lt (one_lt_pow₀ one_lt_two (by norm_num)))
    refine .inr ⟨b64 (Real.exp a), ?_, h0, h1⟩
    rcases h with h | h
    · have e : (rndB binary64).exp (V.fin a) = .ok (V.fin (b64 (Real.exp a))) := if_neg hb
      exact Except.ok.inj (h.symm.trans e)
    · have e : (nprB binary64).exp (V.fin a) = .ok (V.fin (b64 (Real.exp a))) := if_neg hb
      exact Except.ok.inj (h.symm.trans e)

theorem product {f e : V} (hf : Within 1085 1235 f) (he : Within 0 1 e) (c : Bool) :
    Within 0 1235 (V.rnd binary64 (V.mul (V.rnd binary64 (V.mul f e)) (if c then V.fin 1 else V.fin 0))) := by
  rcases hf with rfl | ⟨f, rfl, f0, f1⟩
  · cases c <;> exact .inl rfl
  rcases he with rfl | ⟨e, rfl, e0, e1⟩
  · cases c <;> exact .inl rfl
  have i1235 := b64_int 1235 (by norm_num)
  push_cast at i1235
  have p0 : 0 ≤ f * e := mul_nonneg (by linarith) e0
  have p1 : f * e ≤ 1235 := by nlinarith
  have hp : V.rnd binary64 (V.mul (.fin f) (.fin e)) = V.fin (b64 (f * e)) :=
    vrnd64 (by rw [abs_of_nonneg p0]; norm_num; linarith) rfl
  have r0 := b64_nonneg p0
  have r1 := b64_mono p1
  rw [i1235] at r1
  rw [hp]
  generalize b64 (f * e) = r at *
  right
  cases c
  · refine ⟨0, ?_, le_rfl, by norm_num⟩
    exact vrnd64 (z := r * 0) (by rw [mul_zero]; norm_num) (by rw [mul_zero]; exact b64_zero)
  · refine ⟨b64 (r * 1), vrnd64 (z := r * 1) (by rw [mul_one, abs_of_nonneg r0]; norm_num; linarith) rfl, ?_, ?_⟩
    · rw [mul_one]; exact b64_nonneg r0
    · rw [mul_one, ← i1235]; exact b64_mono r1

/-- At night whatever number was computed is multiplied by 0. -/
theorem night {x : V} : Within 0 1235 (V.rnd binary64 (V.mul x (.fin 0))) := by
  cases x with
  | fin r => exact .inr ⟨0, vrnd64 (z := r * 0) (by rw [mul_zero]; norm_num) (by rw [mul_zero]; exact b64_zero), le_rfl, by norm_num⟩
  | nan => exact .inl rfl
  | pinf =>
    left
    have : V.mul .pinf (.fin 0) = V.nan := by
      show V.infMul 0 .pinf = _
      unfold V.infMul
      rw [if_neg (lt_irrefl _), if_neg (lt_irrefl _)]
    rw [this]
    rfl
  | ninf =>
    left
    have : V.mul .ninf (.fin 0) = V.nan := by
      show V.infMul 0 .ninf = _
      unfold V.infMul
      rw [if_neg (lt_irrefl _), if_neg (lt_irrefl _)]
    rw [this]
    rfl

/-- C167, the upper bound: with an altitude of at most 180 degrees, a number from 0 to 1235 or nan. -/
theorem C167_bounded (w : When (rndB binary64)) (a : ℝ) (ha : a ≤ 180) (v : V)
    (h : get_radiation_direct (rndB binary64) w (V.fin a) = .ok v) : Within 0 1235 v := by
  have l0 : ((0 : (rndB binary64).α) : V) = V.fin 0 := by
    have := lit64 0 (by norm_num)
    push_cast at this
    exact this
  unfold get_radiation_direct at h
  obtain ⟨day, -, h⟩ := bind_ok_inv h
  obtain ⟨flux, hf, h⟩ := bind_ok_inv h
  obtain ⟨depth, hd, h⟩ := bind_ok_inv h
  obtain ⟨mass, hm, h⟩ := bind_ok_inv h
  obtain ⟨e, he, h⟩ := bind_ok_inv h
  obtain ⟨s, hs, hf⟩ := bind_ok_inv hf
  obtain ⟨s', hs', hd⟩ := bind_ok_inv hd
  have hf' : lin 1160 75 s = flux := Except.ok.inj hf
  have hd' : lin 0.174 0.035 s' = depth := Except.ok.inj hd
  have hf2 : Within 1085 1235 flux := hf' ▸ lin_flux (sine hs)
  have hd2 : Within 0.1 1 depth := hd' ▸ lin_depth (sine hs')
  have hv := Except.ok.inj h
  by_cases h0 : 0 < a
  · exact hv ▸ product hf2 (exp_le_one (exponent hd2 (mass_alt h0 ha hm)) (.inl he)) _
  · have hc : (rndB binary64).ofC ((rndB binary64).lt (0 : (rndB binary64).α) (V.fin a)) = V.fin 0 := by
      rw [l0]
      exact if_neg (by rw [show (rndB binary64).lt (V.fin 0) (V.fin a) = decide (0 < a) from rfl]; simpa using h0)
    have hv' : V.rnd binary64 (V.mul (V.rnd binary64 (V.mul flux e)) ((rndB binary64).ofC ((rndB binary64).lt (0 : (rndB binary64).α)
      (V.fin a)))) = v := hv
    rw [hc] at hv'
    exact hv' ▸ night

/-- C167, the upper bound with numpy. -/
theorem C167_bounded_numpy (w : When (nprB binary64)) (a : ℝ) (ha : a ≤ 180) (v : V)
    (h : get_radiation_direct (nprB binary64) w (V.fin a) = .ok v) : Within 0 1235 v := by
  have l0 : ((0 : (nprB binary64).α) : V) = V.fin 0 := by
    have := lit64 0 (by norm_num)
    push_cast at this
    exact this
  unfold get_radiation_direct at h
  obtain ⟨day, -, h⟩ := bind_ok_inv h
  obtain ⟨flux, hf, h⟩ := bind_ok_inv h
  obtain ⟨depth, hd, h⟩ := bind_ok_inv h
  obtain ⟨mass, hm, h⟩ := bind_ok_inv h
  obtain ⟨e, he, h⟩ := bind_ok_inv h
  obtain ⟨s, hs, hf⟩ := bind_ok_inv hf
  obtain ⟨s', hs', hd⟩ := bind_ok_inv hd
  have hf' : lin 1160 75 s = flux := Except.ok.inj hf
  have hd' : lin 0.174 0.035 s' = depth := Except.ok.inj hd
  have hf2 : Within 1085 1235 flux := hf' ▸ lin_flux (sine_numpy hs)
  have hd2 : Within 0.1 1 depth := hd' ▸ lin_depth (sine_numpy hs')
  have hv := Except.ok.inj h
  by_cases h0 : 0 < a
  · exact hv ▸ product hf2 (exp_le_one (exponent hd2 (mass_alt_numpy h0 ha hm)) (.inr he)) _
  · have hc : (nprB binary64).ofC ((nprB binary64).lt (0 : (nprB binary64).α) (V.fin a)) = V.fin 0 := by
      rw [l0]
      exact if_neg (by rw [show (nprB binary64).lt (V.fin 0) (V.fin a) = decide (0 < a) from rfl]; simpa using h0)
    have hv' : V.rnd binary64 (V.mul (V.rnd binary64 (V.mul flux e)) ((nprB binary64).ofC ((nprB binary64).lt (0 : (nprB binary64).α)
      (V.fin a)))) = v := hv
    rw [hc] at hv'
    exact hv' ▸ night

/-- C167 for an altitude which may be nan. -/
theorem C167_within (w : When (rndB binary64)) (alt : V) (ha : Within (-90) 90 alt) (v : V)
    (h : get_radiation_direct (rndB binary64) w alt = .ok v) : Within 0 1235 v := by
  rcases ha with rfl | ⟨a, rfl, -, ha⟩
  · unfold get_radiation_direct at h
    obtain ⟨day, -, h⟩ := bind_ok_inv h
    obtain ⟨flux, -, h⟩ := bind_ok_inv h
    obtain ⟨depth, -, h⟩ := bind_ok_inv h
    obtain ⟨mass, -, h⟩ := bind_ok_inv h
    obtain ⟨e, -, h⟩ := bind_ok_inv h
    have hc : (rndB binary64).ofC ((rndB binary64).lt (0 : (rndB binary64).α) V.nan) = V.fin 0 := rfl
    have hv' : V.rnd binary64 (V.mul (V.rnd binary64 (V.mul flux e)) ((rndB binary64).ofC ((rndB binary64).lt (0 : (rndB binary64).α)
      V.nan))) = v := Except.ok.inj h
    rw [hc] at hv'
    exact hv' ▸ night
  · exact C167_bounded w a (by linarith) v h

/-- C167: the radiation at the altitude of the fast algorithm. -/
theorem C167_fast (x y : V) (w : When (rndB binary64)) (v : V)
    (h : (get_altitude_fast (rndB binary64) x y w >>= fun alt => get_radiation_direct (rndB binary64) w alt) = .ok v) : Within 0 1235 v := by
  obtain ⟨alt, ha, h⟩ := bind_ok_inv h
  exact C167_within w alt (C166_arcs.2.1 x y w alt ha) v h

/-- C167 for an altitude which may be nan with numpy. -/
theorem C167_within_numpy (w : When (nprB binary64)) (alt : V) (ha : Within (-90) 90 alt) (v : V)
    (h : get_radiation_direct (nprB binary64) w alt = .ok v) : Within 0 1235 v := by
  rcases ha with rfl | ⟨a, rfl, -, ha⟩
  · unfold get_radiation_direct at h
    obtain ⟨day, -, h⟩ := bind_ok_inv h
    obtain ⟨flux, -, h⟩ := bind_ok_inv h
    obtain ⟨depth, -, h⟩ := bind_ok_inv h
    obtain ⟨mass, -, h⟩ := bind_ok_inv h
    obtain ⟨e, -, h⟩ := bind_ok_inv h
    have hc : (nprB binary64).ofC ((nprB binary64).lt (0 : (nprB binary64).α) V.nan) = V.fin 0 := rfl
    have hv' : V.rnd binary64 (V.mul (V.rnd binary64 (V.mul flux e)) ((nprB binary64).ofC ((nprB binary64).lt (0 : (nprB binary64).α)
      V.nan))) = v := Except.ok.inj h
    rw [hc] at hv'
    exact hv' ▸ night
  · exact C167_bounded_numpy w a (by linarith) v h

/-- C167: the radiation at the altitude of the fast algorithm with numpy. -/
theorem C167_fast_numpy (x y : V) (w : When (nprB binary64)) (v : V)
    (h : (get_altitude_fast (nprB binary64) x y w >>= fun alt => get_radiation_direct (nprB binary64) w alt) = .ok v) : Within 0 1235 v := by
  obtain ⟨alt, ha, h⟩ := bind_ok_inv h
  exact C167_within_numpy w alt (C166_arcs_numpy.2.1 x y w alt ha) v h

/-- The hypotheses hold in Massachusetts with the sun 30° up. -/
example : ∃ r : ℝ, get_radiation_direct (rndB binary64) (.dt sampleDT) (flt binary64 30) = .ok (flt binary64 r) ∧ 0 ≤ r ∧ r ≤ 1235 := by
  obtain ⟨_, r', _, h, _⟩ := C105_direct_radiation binary64 0 sampleDT sampleUTC sample_utc 30 (by norm_num) (by norm_num)
  rcases C167_bounded (.dt sampleDT) 30 (by norm_num) _ h with h' | ⟨r, h', h1, h2⟩
  · cases h'
  · have e : r' = r := by
      injection h'
    exact ⟨r', h, e ▸ h1, e ▸ h2⟩

end Verif.Props
