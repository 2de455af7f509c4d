import Verif.Props.ExtraterrestrialDouble

/-!
# C176: the yearly and the elevation formulas of util.py stay in range in double precision

Whatever the arguments, what `mean_earth_sun_distance`, `declination_degree`, `solarelevation_function_clear` and
`solarelevation_function_overcast` return in IEEE double precision is nan or a number in the range of the formula.
-/

namespace Verif.Props

open Verif Verif.Spec Pysolar Pysolar.Util Chain

theorem diff_within {a b c d : ℝ} (h0 : -100 ≤ a - d) (h1 : b - c ≤ 100) {x y : V} (hx : Within a b x) (hy : Within c d y) :
    Within (a - d - 1 / 10 ^ 9) (b - c + 1 / 10 ^ 9) (V.rnd binary64 (V.sub x y)) := by
  rcases hx with rfl | ⟨x, rfl, x0, x1⟩
  · exact .inl rfl
  rcases hy with rfl | ⟨y, rfl, y0, y1⟩
  · exact .inl rfl
  obtain ⟨r, e⟩ := round_ge (x := x - y) (m := 100) (abs_le.2 ⟨by linarith, by linarith⟩) (by norm_num)
  have := abs_le.1 e
  exact .inr ⟨_, r, by linarith, by linarith⟩

/-- A literal times a range. -/
theorem scale_within {q : ℚ} (q0 : 0 ≤ q) (q1 : q ≤ 2) {a b : ℝ} (h0 : -10 ≤ a) (h1 : b ≤ 10) {x : V} (hx : Within a b x) :
    Within (q * a - 1 / 10 ^ 7) (q * b + 1 / 10 ^ 7) (V.rnd binary64 (V.mul (.fin (b64 q)) x)) := by
  have c0 : (0 : ℝ) ≤ q := by exact_mod_cast q0
  have c1 : (q : ℝ) ≤ 2 := by exact_mod_cast q1
  have k := abs_le.1 (round_ge (abs_le.2 ⟨by linarith, c1⟩) (by norm_num)).2
  have p0 := b64_nonneg c0
  generalize b64 (q : ℝ) = p at *
  generalize (q : ℝ) = r at *
  rcases hx with rfl | ⟨x, rfl, x0, x1⟩
  · exact .inl rfl
  have m : |p * x| ≤ 100 := by
    rw [abs_mul, abs_of_nonneg p0]
    have : |x| ≤ 10 := abs_le.2 ⟨by linarith, by linarith⟩
    norm_num at k
    nlinarith [abs_nonneg x]
  obtain ⟨w, e⟩ := round_ge m (by norm_num)
  have e := abs_le.1 e
  have y : |(p - r) * x| ≤ 1 / 10 ^ 8 := by
    rw [abs_mul]
    have : |x| ≤ 10 := abs_le.2 ⟨by linarith, by linarith⟩
    have k' : |p - r| ≤ 1 / 10 ^ 9 := abs_le.2 k
    calc |p - r| * |x| ≤ 1 / 10 ^ 9 * 10 := mul_le_mul k' this (abs_nonneg _) (by norm_num)
      _ = 1 / 10 ^ 8 := by norm_num
  have y := abs_le.1 y
  have z0 : r * a ≤ r * x := mul_le_mul_of_nonneg_left x0 c0
  have z1 : r * x ≤ r * b := mul_le_mul_of_nonneg_left x1 c0
  refine .inr ⟨_, w, ?_, ?_⟩ <;> norm_num at * <;> linarith

theorem neg_within {a b : ℝ} {x : V} (hx : Within a b x) : Within (-b) (-a) (V.neg x) := by
  rcases hx with rfl | ⟨x, rfl, x0, x1⟩
  · exact .inl rfl
  · exact .inr ⟨-x, rfl, by linarith, by linarith⟩

/-- A negated literal times a range. -/
theorem neg_scale_within {q : ℚ} (q0 : 0 ≤ q) (q1 : q ≤ 2) {a b : ℝ} (h0 : -10 ≤ a) (h1 : b ≤ 10) {x : V} (hx : Within a b x) :
    Within (-(q * b) - 1 / 10 ^ 7) (-(q * a) + 1 / 10 ^ 7) (V.rnd binary64 (V.mul (V.neg (.fin (b64 q))) x)) := by
  have h := scale_within q0 q1 (a := -b) (b := -a) (by linarith) (by linarith) (neg_within hx)
  have e : V.mul (V.neg (.fin (b64 q))) x = V.mul (.fin (b64 q)) (V.neg x) := by
    rcases hx with rfl | ⟨x, rfl, x0, x1⟩
    · rfl
    · exact congrArg V.fin (by ring)
  rw [e]
  exact within_weaken (by linarith) (by linarith) h

theorem one_lit : Within 1 1 (.fin (b64 ((1 : ℚ) : ℝ))) := by
  refine .inr ⟨_, rfl, ?_⟩
  rw [Rat.cast_one, b64_one]
  exact ⟨le_rfl, le_rfl⟩

theorem lit_within (q : ℚ) (h : |(q : ℝ)| ≤ 100) : Within (q - 1 / 10 ^ 9) (q + 1 / 10 ^ 9) (.fin (b64 q)) := by
  have := abs_le.1 (round_ge h (by norm_num)).2
  exact .inr ⟨_, rfl, by linarith, by linarith⟩

theorem sine_within {s : V} (h : Sine s) : Within (-1) 1 s := by
  rcases h with rfl | ⟨t, rfl, ht⟩
  · exact .inl rfl
  · exact .inr ⟨t, rfl, (abs_le.1 ht).1, (abs_le.1 ht).2⟩

/-- The distance as computed. -/
noncomputable def distance64 (s : V) : V :=
  V.rnd binary64 (V.sub (.fin (b64 ((1 : ℚ) : ℝ)))
    (V.rnd binary64 (V.divNZ (V.rnd binary64 (V.mul (.fin (b64 ((0.0335 : ℚ) : ℝ))) s)) (.fin (b64 ((365 : ℚ) : ℝ))))))

theorem distance_range {s : V} (h : Sine s) : Within 0.9999 1.0001 (distance64 s) := by
  have e : b64 ((365 : ℚ) : ℝ) = 365 := by
    have := b64_int 365 (by norm_num)
    push_cast at this ⊢
    exact this
  have t := term (q := 0.0335) (by norm_num) (by norm_num) h
  unfold distance64
  rw [e]
  have d : Within (-0.000092) 0.000092 (V.rnd binary64 (V.divNZ (V.rnd binary64 (V.mul (.fin (b64 ((0.0335 : ℚ) : ℝ))) s)) (.fin 365))) := by
    rcases t with h | ⟨z, h, z0, z1⟩ <;> rw [h]
    · exact .inl rfl
    · obtain ⟨r, e⟩ := round_ge (x := z / 365) (m := 1) (abs_le.2 ⟨by norm_num at *; linarith, by norm_num at *; linarith⟩) (by norm_num)
      have e := abs_le.1 e
      exact .inr ⟨_, r, by norm_num at *; linarith, by norm_num at *; linarith⟩
  exact within_weaken (by norm_num) (by norm_num) (diff_within (by norm_num) (by norm_num) one_lit d)

/-- C176: the relative distance of the sun is from 0.9999 to 1.0001. -/
theorem C176_distance :
    (∀ w v, mean_earth_sun_distance (rndB binary64) w = .ok v → Within 0.9999 1.0001 v) ∧
    (∀ w v, mean_earth_sun_distance (nprB binary64) w = .ok v → Within 0.9999 1.0001 v) := by
  refine ⟨fun w v h => ?_, fun w v h => ?_⟩
  · obtain ⟨_, _, h⟩ := bind_ok_inv h
    obtain ⟨day, _, h⟩ := bind_ok_inv h
    obtain ⟨s, hs, h⟩ := bind_ok_inv h
    exact (Except.ok.inj h) ▸ distance_range (sine hs)
  · obtain ⟨_, _, h⟩ := bind_ok_inv h
    obtain ⟨day, _, h⟩ := bind_ok_inv h
    obtain ⟨s, hs, h⟩ := bind_ok_inv h
    exact (Except.ok.inj h) ▸ distance_range (sine_numpy hs)

/-- C176: the declination is at most the double 23.45 in absolute value, whatever the length of the year. -/
theorem C176_declination :
    (∀ w TY v, declination_degree (rndB binary64) w TY = .ok v → Within (-b64 23.45) (b64 23.45) v) ∧
    (∀ w TY v, declination_degree (nprB binary64) w TY = .ok v → Within (-b64 23.45) (b64 23.45) v) := by
  have e : ((Constants.earth_axis_inclination : ℚ) : ℝ) = 23.45 := by norm_num [Constants.earth_axis_inclination]
  have t : ∀ s, Sine s → Within (-b64 23.45) (b64 23.45)
      (V.rnd binary64 (V.mul (.fin (b64 ((Constants.earth_axis_inclination : ℚ) : ℝ))) s)) := fun s h => by
    have := times_sine (q := Constants.earth_axis_inclination) (by norm_num [Constants.earth_axis_inclination])
      (by norm_num [Constants.earth_axis_inclination]) h
    rw [e] at this ⊢
    exact this
  refine ⟨fun w TY v h => ?_, fun w TY v h => ?_⟩
  · obtain ⟨_, _, h⟩ := bind_ok_inv h
    obtain ⟨k, _, h⟩ := bind_ok_inv h
    obtain ⟨day, _, h⟩ := bind_ok_inv h
    obtain ⟨s, hs, h⟩ := bind_ok_inv h
    exact (Except.ok.inj h) ▸ t s (sine hs)
  · obtain ⟨_, _, h⟩ := bind_ok_inv h
    obtain ⟨k, _, h⟩ := bind_ok_inv h
    obtain ⟨day, _, h⟩ := bind_ok_inv h
    obtain ⟨s, hs, h⟩ := bind_ok_inv h
    exact (Except.ok.inj h) ▸ t s (sine_numpy hs)

/-- Doubles are rounded to themselves, and twice a double is a double. -/
theorem twice_exact {v : ℝ} (h : IsDouble v) : b64 (2 * v) = 2 * v := by
  obtain ⟨m, e, h1, h2, rfl⟩ := h
  have h : IsDouble (2 * (m * 2 ^ e)) := ⟨m, e + 1, h1, by omega, by rw [zpow_add_one₀ (by norm_num)]; ring⟩
  have := (b64_nearest (2 * (m * 2 ^ e))).2 _ h
  rw [sub_self, abs_zero] at this
  linarith [abs_nonpos_iff.1 this]

/-- A rounded number. -/
def Rounded (a : V) : Prop := ∃ u, a = V.rnd binary64 u

/-- The sine of an altitude and the cosine of twice the altitude, each rounded. -/
def SinCos2 (s c : V) : Prop := s = .nan ∨ c = .nan ∨ ∃ t : ℝ, s = .fin (b64 (Real.sin t)) ∧ c = .fin (b64 (Real.cos (2 * t)))

theorem rounded_cases {a : V} (h : Rounded a) : a = .nan ∨ a = .pinf ∨ a = .ninf ∨ ∃ v, a = .fin v ∧ IsDouble v := by
  obtain ⟨u, rfl⟩ := h
  cases u with
  | fin z =>
    by_cases h1 : 2 ^ 1024 ≤ b64 z
    · exact .inr (.inl (if_pos h1))
    by_cases h2 : b64 z ≤ -2 ^ 1024
    · exact .inr (.inr (.inl ((if_neg h1).trans (if_pos h2))))
    · exact .inr (.inr (.inr ⟨b64 z, (if_neg h1).trans (if_neg h2), (b64_nearest z).1⟩))
  | pinf => exact .inr (.inl rfl)
  | ninf => exact .inr (.inr (.inl rfl))
  | nan => exact .inl rfl

theorem two_lit : b64 ((2 : ℚ) : ℝ) = 2 := by
  have := b64_int 2 (by norm_num)
  push_cast at this ⊢
  exact this

theorem twice_cases {v : ℝ} (h : IsDouble v) : V.rnd binary64 (V.mul (.fin (b64 ((2 : ℚ) : ℝ))) (.fin v)) = .fin (2 * v) ∨
    V.rnd binary64 (V.mul (.fin (b64 ((2 : ℚ) : ℝ))) (.fin v)) = .pinf ∨
    V.rnd binary64 (V.mul (.fin (b64 ((2 : ℚ) : ℝ))) (.fin v)) = .ninf := by
  have e : binary64.rnd (2 * v) = 2 * v := twice_exact h
  rw [two_lit]
  simp only [V.mul, V.rnd, e]
  split_ifs with h1 h2
  · exact .inr (.inl rfl)
  · exact .inr (.inr rfl)
  · exact .inl rfl

theorem sin_cos2 {a s c : V} (ha : Rounded a) (h : (rndB binary64).sin a = .ok s)
    (h' : (rndB binary64).cos (V.rnd binary64 (V.mul (.fin (b64 ((2 : ℚ) : ℝ))) a)) = .ok c) : SinCos2 s c := by
  rcases rounded_cases ha with rfl | rfl | rfl | ⟨v, rfl, hv⟩
  · exact .inl (Except.ok.inj h).symm
  · cases h
  · cases h
  · rcases twice_cases hv with e | e | e <;> rw [e] at h'
    · exact .inr (.inr ⟨v, (Except.ok.inj h).symm, (Except.ok.inj h').symm⟩)
    · cases h'
    · cases h'

theorem sin_cos2_numpy {a s c : V} (ha : Rounded a) (h : (nprB binary64).sin a = .ok s)
    (h' : (nprB binary64).cos (V.rnd binary64 (V.mul (.fin (b64 ((2 : ℚ) : ℝ))) a)) = .ok c) : SinCos2 s c := by
  rcases rounded_cases ha with rfl | rfl | rfl | ⟨v, rfl, hv⟩
  · exact .inl (Except.ok.inj h).symm
  · exact .inl (Except.ok.inj h).symm
  · exact .inl (Except.ok.inj h).symm
  · rcases twice_cases hv with e | e | e <;> rw [e] at h'
    · exact .inr (.inr ⟨v, (Except.ok.inj h).symm, (Except.ok.inj h').symm⟩)
    · exact .inr (.inl (Except.ok.inj h').symm)
    · exact .inr (.inl (Except.ok.inj h').symm)

theorem altitude_rounded {lat lon w e T p a} (h : Solar.get_altitude (rndB binary64) lat lon w e T p = .ok a) : Rounded a := by
  obtain ⟨_, _, h⟩ := bind_ok_inv h
  obtain ⟨⟨_, _⟩, _, h⟩ := bind_ok_inv h
  obtain ⟨_, _, h⟩ := bind_ok_inv h
  obtain ⟨_, _, h⟩ := bind_ok_inv h
  exact ⟨_, (Except.ok.inj h).symm⟩

theorem altitude_rounded_numpy {lat lon w e T p a} (h : Solar.get_altitude (nprB binary64) lat lon w e T p = .ok a) : Rounded a := by
  obtain ⟨_, _, h⟩ := bind_ok_inv h
  obtain ⟨⟨_, _⟩, _, h⟩ := bind_ok_inv h
  obtain ⟨_, _, h⟩ := bind_ok_inv h
  obtain ⟨_, _, h⟩ := bind_ok_inv h
  exact ⟨_, (Except.ok.inj h).symm⟩

/-- Half of one minus a cosine. -/
theorem half_within {q : ℝ} (q0 : 0 ≤ q) (q1 : q ≤ 1) {c : V} (h : Within (1 - 2 * q - 1 / 10 ^ 9) (1 - 2 * q + 1 / 10 ^ 9) c) :
    Within (q - 1 / 10 ^ 6) (q + 1 / 10 ^ 6)
      (V.rnd binary64 (V.mul (.fin (b64 ((0.5 : ℚ) : ℝ))) (V.rnd binary64 (V.sub (.fin (b64 ((1 : ℚ) : ℝ))) c)))) := by
  have d := diff_within (by norm_num; linarith) (by norm_num; linarith) one_lit h
  exact within_weaken (by norm_num; linarith) (by norm_num; linarith)
    (scale_within (q := 0.5) (by norm_num) (by norm_num) (by norm_num; linarith) (by norm_num; linarith) d)

theorem near_within {x m : ℝ} (h : |x| ≤ m) (hm : m ≤ 10000) : Within (x - 1 / 10 ^ 9) (x + 1 / 10 ^ 9) (.fin (b64 x)) := by
  have := abs_le.1 (round_ge h hm).2
  exact .inr ⟨_, rfl, by linarith, by linarith⟩

/-- The clear-sky function as computed. -/
noncomputable def clear64 (s c : V) : V :=
  V.rnd binary64 (V.add (V.rnd binary64 (V.add (.fin (b64 ((0.038175 : ℚ) : ℝ))) (V.rnd binary64 (V.mul (.fin (b64 ((1.5458 : ℚ) : ℝ))) s))))
    (V.rnd binary64 (V.mul (V.neg (.fin (b64 ((0.59980 : ℚ) : ℝ))))
      (V.rnd binary64 (V.mul (.fin (b64 ((0.5 : ℚ) : ℝ))) (V.rnd binary64 (V.sub (.fin (b64 ((1 : ℚ) : ℝ))) c)))))))

/-- The overcast function as computed. -/
noncomputable def overcast64 (s c : V) : V :=
  V.rnd binary64 (V.add (V.rnd binary64 (V.add (V.neg (.fin (b64 ((0.0067133 : ℚ) : ℝ)))) (V.rnd binary64 (V.mul (.fin (b64 ((0.78600 : ℚ) : ℝ))) s))))
    (V.rnd binary64 (V.mul (.fin (b64 ((0.22401 : ℚ) : ℝ)))
      (V.rnd binary64 (V.mul (.fin (b64 ((0.5 : ℚ) : ℝ))) (V.rnd binary64 (V.sub (.fin (b64 ((1 : ℚ) : ℝ))) c)))))))

theorem nan_cosine (s : V) : clear64 s .nan = .nan ∧ overcast64 s .nan = .nan := by
  have e : ∀ x : V, V.add x .nan = .nan := fun x => by cases x <;> rfl
  have m : ∀ x : V, V.mul x .nan = .nan := fun x => by cases x <;> rfl
  have n : V.rnd binary64 .nan = .nan := rfl
  have k : ∀ x : V, V.sub x .nan = .nan := fun x => by cases x <;> rfl
  constructor
  · simp only [clear64, k, n, m, e]
  · simp only [overcast64, k, n, m, e]

theorem clear_range {s c : V} (h : SinCos2 s c) : Within (-2.1075) 0.9842 (clear64 s c) := by
  rcases h with rfl | rfl | ⟨t, rfl, rfl⟩
  · exact .inl rfl
  · exact .inl (nan_cosine s).1
  have hs := near_within (Real.abs_sin_le_one t) (by norm_num)
  have hc := near_within (Real.abs_cos_le_one (2 * t)) (by norm_num)
  rw [show Real.cos (2 * t) = 1 - 2 * Real.sin t ^ 2 by rw [Real.cos_two_mul]; linarith [Real.sin_sq_add_cos_sq t]] at hc ⊢
  have b := abs_le.1 (Real.abs_sin_le_one t)
  have q0 := sq_nonneg (Real.sin t)
  have q1 := Real.sin_sq_le_one t
  have f0 : -2.107425 ≤ 0.038175 + 1.5458 * Real.sin t - 0.59980 * Real.sin t ^ 2 := by norm_num; nlinarith
  have f1 : 0.038175 + 1.5458 * Real.sin t - 0.59980 * Real.sin t ^ 2 ≤ 0.984175 := by norm_num; nlinarith
  generalize Real.sin t ^ 2 = q at *
  generalize Real.sin t = σ at *
  have h1 := sum_within (by norm_num; linarith) (by norm_num; linarith) (lit_within 0.038175 (by norm_num [abs_le]))
    (scale_within (q := 1.5458) (by norm_num) (by norm_num) (by norm_num; linarith) (by norm_num; linarith) hs)
  have h2 := sum_within (by norm_num; linarith) (by norm_num; linarith) h1
    (neg_scale_within (q := 0.59980) (by norm_num) (by norm_num) (by norm_num; linarith) (by norm_num; linarith) (half_within q0 q1 hc))
  exact within_weaken (by norm_num at *; linarith) (by norm_num at *; linarith) h2

theorem overcast_range {s c : V} (h : SinCos2 s c) : Within (-0.5688) 1.0034 (overcast64 s c) := by
  rcases h with rfl | rfl | ⟨t, rfl, rfl⟩
  · exact .inl rfl
  · exact .inl (nan_cosine s).2
  have hs := near_within (Real.abs_sin_le_one t) (by norm_num)
  have hc := near_within (Real.abs_cos_le_one (2 * t)) (by norm_num)
  rw [show Real.cos (2 * t) = 1 - 2 * Real.sin t ^ 2 by rw [Real.cos_two_mul]; linarith [Real.sin_sq_add_cos_sq t]] at hc ⊢
  have b := abs_le.1 (Real.abs_sin_le_one t)
  have q0 := sq_nonneg (Real.sin t)
  have q1 := Real.sin_sq_le_one t
  have f0 : -0.5687033 ≤ -0.0067133 + 0.78600 * Real.sin t + 0.22401 * Real.sin t ^ 2 := by norm_num; nlinarith
  have f1 : -0.0067133 + 0.78600 * Real.sin t + 0.22401 * Real.sin t ^ 2 ≤ 1.0032967 := by norm_num; nlinarith
  generalize Real.sin t ^ 2 = q at *
  generalize Real.sin t = σ at *
  have h1 := sum_within (by norm_num; linarith) (by norm_num; linarith) (neg_within (lit_within 0.0067133 (by norm_num [abs_le])))
    (scale_within (q := 0.78600) (by norm_num) (by norm_num) (by norm_num; linarith) (by norm_num; linarith) hs)
  have h2 := sum_within (by norm_num; linarith) (by norm_num; linarith) h1
    (scale_within (q := 0.22401) (by norm_num) (by norm_num) (by norm_num; linarith) (by norm_num; linarith) (half_within q0 q1 hc))
  exact within_weaken (by norm_num at *; linarith) (by norm_num at *; linarith) h2

/-- C176: the clear-sky elevation function is from -2.1075 to 0.9842. -/
theorem C176_clear :
    (∀ lat lon w T p e v, solarelevation_function_clear (rndB binary64) lat lon w T p e = .ok v → Within (-2.1075) 0.9842 v) ∧
    (∀ lat lon w T p e v, solarelevation_function_clear (nprB binary64) lat lon w T p e = .ok v → Within (-2.1075) 0.9842 v) := by
  refine ⟨fun lat lon w T p e v h => ?_, fun lat lon w T p e v h => ?_⟩
  · obtain ⟨_, _, h⟩ := bind_ok_inv h
    obtain ⟨a, ha, h⟩ := bind_ok_inv h
    obtain ⟨s, hs, h⟩ := bind_ok_inv h
    obtain ⟨c, hc, h⟩ := bind_ok_inv h
    exact (Except.ok.inj h) ▸ clear_range (sin_cos2 (altitude_rounded ha) hs hc)
  · obtain ⟨_, _, h⟩ := bind_ok_inv h
    obtain ⟨a, ha, h⟩ := bind_ok_inv h
    obtain ⟨s, hs, h⟩ := bind_ok_inv h
    obtain ⟨c, hc, h⟩ := bind_ok_inv h
    exact (Except.ok.inj h) ▸ clear_range (sin_cos2_numpy (altitude_rounded_numpy ha) hs hc)

/-- C176: the overcast elevation function is from -0.5688 to 1.0034. -/
theorem C176_overcast :
    (∀ lat lon w e T p v, solarelevation_function_overcast (rndB binary64) lat lon w e T p = .ok v → Within (-0.5688) 1.0034 v) ∧
    (∀ lat lon w e T p v, solarelevation_function_overcast (nprB binary64) lat lon w e T p = .ok v → Within (-0.5688) 1.0034 v) := by
  refine ⟨fun lat lon w e T p v h => ?_, fun lat lon w e T p v h => ?_⟩
  · obtain ⟨_, _, h⟩ := bind_ok_inv h
    obtain ⟨a, ha, h⟩ := bind_ok_inv h
    obtain ⟨s, hs, h⟩ := bind_ok_inv h
    obtain ⟨c, hc, h⟩ := bind_ok_inv h
    exact (Except.ok.inj h) ▸ overcast_range (sin_cos2 (altitude_rounded ha) hs hc)
  · obtain ⟨_, _, h⟩ := bind_ok_inv h
    obtain ⟨a, ha, h⟩ := bind_ok_inv h
    obtain ⟨s, hs, h⟩ := bind_ok_inv h
    obtain ⟨c, hc, h⟩ := bind_ok_inv h
    exact (Except.ok.inj h) ▸ overcast_range (sin_cos2_numpy (altitude_rounded_numpy ha) hs hc)

/-- A concrete case of both elevation functions: latitude -45, 18 February 2007. -/
example : ∃ lon T P x y, solarelevation_function_clear (rndB binary64) (flt binary64 (-45)) (flt binary64 lon) (.dt sampleDT) T P
      (flt binary64 0) = .ok (.fin x) ∧
    solarelevation_function_overcast (rndB binary64) (flt binary64 (-45)) (flt binary64 lon) (.dt sampleDT) (flt binary64 0) T P
      = .ok (.fin y) ∧ -2.1075 ≤ x ∧ x ≤ 0.9842 ∧ -0.5688 ≤ y ∧ y ≤ 1.0034 := by
  obtain ⟨lon, a', a, h1, -, h2, h3⟩ := C117_applies binary64 sampleDT sampleUTC sample_utc
  obtain ⟨x, y, -, h4, h5, -⟩ := C117_elevation binary64 _ _ sample_utc (-45) lon 0 _ _ a' a h1 h2 h3
  rcases C176_clear.1 _ _ _ _ _ _ _ h4 with h | ⟨x', hx, x0, x1⟩
  · cases h
  rcases C176_overcast.1 _ _ _ _ _ _ _ h5 with h | ⟨y', hy, y0, y1⟩
  · cases h
  exact ⟨lon, _, _, x', y', h4.trans (congrArg Except.ok hx), h5.trans (congrArg Except.ok hy), x0, x1, y0, y1⟩

end Verif.Props
