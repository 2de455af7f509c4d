import Verif.Props.YearlyRange
import Verif.Props.Rest
import Verif.Model.Rest

/-!
# C170: REST transmittances are fractions in double precision

Rayleigh, gas and aerosol transmittances lie in [0, 1] in IEEE double precision: the rounding errors of numerator and denominator do
not push the quotient above 1.
-/

namespace Verif.Props

open Verif Verif.Spec Pysolar Pysolar.Numeric Pysolar.Rest Chain

/-- A linear term. -/
noncomputable def term1 (c : ℚ) (m : ℝ) : ℝ := b64 (b64 c * m)

/-- A quadratic term. -/
noncomputable def term2 (c : ℚ) (m : ℝ) : ℝ := b64 (b64 c * b64 (m ^ 2))

theorem lit_range {c : ℚ} (h0 : 0 ≤ c) (h1 : c ≤ 4) : 0 ≤ b64 c ∧ b64 c ≤ 4 := by
  refine ⟨b64_nonneg (by exact_mod_cast h0), ?_⟩
  have := b64_mono (show (c : ℝ) ≤ ((4 : ℤ) : ℝ) by exact_mod_cast h1)
  rw [b64_int _ (by norm_num)] at this
  exact_mod_cast this

theorem sq_range {m : ℝ} (h0 : 0 ≤ m) (h1 : m ≤ 94) : 0 ≤ b64 (m ^ 2) ∧ b64 (m ^ 2) ≤ 8836 := by
  refine ⟨b64_nonneg (by positivity), ?_⟩
  have := b64_mono (show m ^ 2 ≤ ((8836 : ℤ) : ℝ) by push_cast; nlinarith)
  rw [b64_int _ (by norm_num)] at this
  exact_mod_cast this

theorem term1_range {c : ℚ} (h0 : 0 ≤ c) (h1 : c ≤ 4) {m : ℝ} (m0 : 0 ≤ m) (m1 : m ≤ 94) : 0 ≤ term1 c m ∧ term1 c m ≤ 376 := by
  obtain ⟨c0, c1⟩ := lit_range h0 h1
  refine ⟨b64_nonneg (mul_nonneg c0 m0), ?_⟩
  have := b64_mono (show b64 c * m ≤ ((376 : ℤ) : ℝ) by push_cast; nlinarith)
  rw [b64_int _ (by norm_num)] at this
  exact_mod_cast this

theorem term2_range {c : ℚ} (h0 : 0 ≤ c) (h1 : c ≤ 4) {m : ℝ} (m0 : 0 ≤ m) (m1 : m ≤ 94) : 0 ≤ term2 c m ∧ term2 c m ≤ 35344 := by
  obtain ⟨c0, c1⟩ := lit_range h0 h1
  obtain ⟨s0, s1⟩ := sq_range m0 m1
  refine ⟨b64_nonneg (mul_nonneg c0 s0), ?_⟩
  have := b64_mono (show b64 c * b64 (m ^ 2) ≤ ((35344 : ℤ) : ℝ) by push_cast; nlinarith)
  rw [b64_int _ (by norm_num)] at this
  exact_mod_cast this

theorem term1_eval {c : ℚ} (h0 : 0 ≤ c) (h1 : c ≤ 4) {m : ℝ} (m0 : 0 ≤ m) (m1 : m ≤ 94) :
    V.rnd binary64 (V.mul (.fin (b64 c)) (.fin m)) = V.fin (term1 c m) := by
  obtain ⟨c0, c1⟩ := lit_range h0 h1
  refine vrnd64 (z := b64 c * m) ?_ rfl
  rw [abs_of_nonneg (mul_nonneg c0 m0)]
  refine (show b64 c * m ≤ 376 by nlinarith).trans (by norm_num)

theorem sq_eval {m : ℝ} (m0 : 0 ≤ m) (m1 : m ≤ 94) : V.ovf (b64 (m ^ ((2 : ℕ) : ℝ))) = V.fin (b64 (m ^ 2)) := by
  obtain ⟨s0, s1⟩ := sq_range m0 m1
  have e : m ^ ((2 : ℕ) : ℝ) = m ^ 2 := Real.rpow_natCast m 2
  rw [e]
  unfold V.ovf
  have hp : (8836 : ℝ) < 2 ^ 1024 := lt_of_lt_of_le (by norm_num : (8836 : ℝ) < 2 ^ 14) (pow_le_pow_right₀ one_le_two (by norm_num))
  rw [if_neg (not_le.2 (s1.trans_lt hp)), if_neg]
  have : (0 : ℝ) < 2 ^ 1024 := by positivity
  exact not_le.2 (lt_of_lt_of_le (neg_neg_of_pos this) s0)

theorem term2_eval {c : ℚ} (h0 : 0 ≤ c) (h1 : c ≤ 4) {m : ℝ} (m0 : 0 ≤ m) (m1 : m ≤ 94) :
    V.rnd binary64 (V.mul (.fin (b64 c)) (V.ovf (b64 (m ^ ((2 : ℕ) : ℝ))))) = V.fin (term2 c m) := by
  obtain ⟨c0, c1⟩ := lit_range h0 h1
  obtain ⟨s0, s1⟩ := sq_range m0 m1
  rw [sq_eval m0 m1]
  refine vrnd64 (z := b64 c * b64 (m ^ 2)) ?_ rfl
  rw [abs_of_nonneg (mul_nonneg c0 s0)]
  refine (show b64 c * b64 (m ^ 2) ≤ 35344 by nlinarith).trans (by norm_num)

/-- `1 + c1 * m + c2 * m ** 2` in double precision. -/
noncomputable def quad (c1 c2 : ℚ) (m : ℝ) : ℝ := b64 (b64 (1 + term1 c1 m) + term2 c2 m)

theorem quad_ge_one {c1 c2 : ℚ} (h0 : 0 ≤ c1) (h1 : c1 ≤ 4) (k0 : 0 ≤ c2) (k1 : c2 ≤ 4) {m : ℝ} (m0 : 0 ≤ m) (m1 : m ≤ 94) :
    1 ≤ quad c1 c2 m := by
  have t := (term1_range h0 h1 m0 m1).1
  have u := (term2_range k0 k1 m0 m1).1
  have s := b64_mono (show (1 : ℝ) ≤ 1 + term1 c1 m by linarith)
  rw [b64_one] at s
  have := b64_mono (show (1 : ℝ) ≤ b64 (1 + term1 c1 m) + term2 c2 m by linarith)
  rwa [b64_one] at this

theorem quad_le {c1 c2 d1 d2 : ℚ} (h : c1 ≤ d1) (k : c2 ≤ d2) {m : ℝ} (m0 : 0 ≤ m) : quad c1 c2 m ≤ quad d1 d2 m := by
  have a : term1 c1 m ≤ term1 d1 m := b64_mono (mul_le_mul_of_nonneg_right (b64_mono (by exact_mod_cast h)) m0)
  have b : term2 c2 m ≤ term2 d2 m := b64_mono (mul_le_mul_of_nonneg_right (b64_mono (by exact_mod_cast k)) (b64_nonneg (by positivity)))
  have s := b64_mono (show 1 + term1 c1 m ≤ 1 + term1 d1 m by linarith)
  exact b64_mono (add_le_add s b)

theorem lin_eval {c1 : ℚ} (h0 : 0 ≤ c1) (h1 : c1 ≤ 4) {m : ℝ} (m0 : 0 ≤ m) (m1 : m ≤ 94) :
    V.rnd binary64 (V.add (.fin (b64 ((1 : ℚ) : ℝ))) (V.rnd binary64 (V.mul (.fin (b64 c1)) (.fin m)))) =
      V.fin (b64 (1 + term1 c1 m)) ∧ 1 ≤ b64 (1 + term1 c1 m) ∧ b64 (1 + term1 c1 m) ≤ 377 := by
  obtain ⟨t0, t1⟩ := term1_range h0 h1 m0 m1
  have e1 : b64 ((1 : ℚ) : ℝ) = 1 := by rw [Rat.cast_one, b64_one]
  have s := b64_mono (show (1 : ℝ) ≤ 1 + term1 c1 m by linarith)
  have s' := b64_mono (show 1 + term1 c1 m ≤ ((377 : ℤ) : ℝ) by push_cast; linarith)
  rw [b64_one] at s
  rw [b64_int _ (by norm_num)] at s'
  push_cast at s'
  rw [term1_eval h0 h1 m0 m1, e1]
  refine ⟨vrnd64 (z := 1 + term1 c1 m) ?_ rfl, s, s'⟩
  rw [abs_of_nonneg (by linarith)]
  exact (show 1 + term1 c1 m ≤ 377 by linarith).trans (by norm_num)

theorem quad_eval {c1 c2 : ℚ} (h0 : 0 ≤ c1) (h1 : c1 ≤ 4) (k0 : 0 ≤ c2) (k1 : c2 ≤ 4) {m : ℝ} (m0 : 0 ≤ m) (m1 : m ≤ 94) :
    V.rnd binary64 (V.add (V.rnd binary64 (V.add (.fin (b64 ((1 : ℚ) : ℝ))) (V.rnd binary64 (V.mul (.fin (b64 c1)) (.fin m)))))
      (V.rnd binary64 (V.mul (.fin (b64 c2)) (V.ovf (b64 (m ^ ((2 : ℕ) : ℝ))))))) = V.fin (quad c1 c2 m) := by
  obtain ⟨e, s0, s1⟩ := lin_eval h0 h1 m0 m1
  obtain ⟨u0, u1⟩ := term2_range k0 k1 m0 m1
  rw [e, term2_eval k0 k1 m0 m1]
  refine vrnd64 (z := b64 (1 + term1 c1 m) + term2 c2 m) ?_ rfl
  rw [abs_of_nonneg (by linarith)]
  exact (show b64 (1 + term1 c1 m) + term2 c2 m ≤ 40000 by linarith).trans (by norm_num)

/-- A number in [0, 1]. -/
def Frac (r : Py V) : Prop := ∃ x : ℝ, r = .ok (V.fin x) ∧ 0 ≤ x ∧ x ≤ 1

theorem frac_div {p q : ℝ} (hp : 0 ≤ p) (hq : 0 < q) (h : p ≤ q) :
    Frac ((rndB binary64).div (V.fin p) (V.fin q)) ∧ Frac ((nprB binary64).div (V.fin p) (V.fin q)) := by
  have x0 : 0 ≤ p / q := by positivity
  have x1 : p / q ≤ 1 := (div_le_one hq).2 h
  have b1 := b64_mono x1
  rw [b64_one] at b1
  have e : V.rnd binary64 (V.fin (p / q)) = V.fin (b64 (p / q)) := vrnd64 (by rw [abs_of_nonneg x0]; exact x1.trans (by norm_num)) rfl
  have hd : V.divNZ (V.fin p) (V.fin q) = V.fin (p / q) := rfl
  refine ⟨⟨b64 (p / q), (if_neg hq.ne').trans ?_, b64_nonneg x0, b1⟩, ⟨b64 (p / q), (if_neg hq.ne').trans ?_, b64_nonneg x0, b1⟩⟩ <;>
  · rw [hd, e]

/-- C170, Rayleigh. The low-frequency band: the numerator `1 - 0.010394 m`, the denominator `1 - 0.00011042 m ** 2`. -/
theorem C170_rayleigh (band : String) (m : ℝ) (hm : b64 m = m) (m0 : 0 ≤ m) (m1 : m ≤ 94) :
    Frac (get_rayleigh_transmittance (rndB binary64) band (V.fin m)) ∧
    Frac (get_rayleigh_transmittance (nprB binary64) band (V.fin m)) := by
  by_cases hb : band = "high-frequency"
  · have n := quad_eval (c1 := 1.8169) (c2 := 0.033454) (by norm_num) (by norm_num) (by norm_num) (by norm_num) m0 m1
    have d := quad_eval (c1 := 2.063) (c2 := 0.31978) (by norm_num) (by norm_num) (by norm_num) (by norm_num) m0 m1
    have n1 := quad_ge_one (c1 := 1.8169) (c2 := 0.033454) (by norm_num) (by norm_num) (by norm_num) (by norm_num) m0 m1
    have le := quad_le (c1 := 1.8169) (c2 := 0.033454) (d1 := 2.063) (d2 := 0.31978) (by norm_num) (by norm_num) m0
    have f := frac_div (by linarith) (by linarith) le
    rw [← n, ← d] at f
    unfold get_rayleigh_transmittance
    rw [if_pos hb, if_pos hb]
    exact f
  · obtain ⟨t0, -⟩ := term1_range (c := 0.010394) (by norm_num) (by norm_num) m0 m1
    obtain ⟨u0, -⟩ := term2_range (c := 0.00011042) (by norm_num) (by norm_num) m0 m1
    have h1 := b64_err_nonneg (x := ((0.010394 : ℚ) : ℝ)) (by norm_num)
    have h2 := b64_err_nonneg (x := ((0.00011042 : ℚ) : ℝ)) (by norm_num)
    have e1 := term1_eval (c := 0.010394) (by norm_num) (by norm_num) m0 m1
    have e2 := term2_eval (c := 0.00011042) (by norm_num) (by norm_num) m0 m1
    have o : b64 ((1 : ℚ) : ℝ) = 1 := by rw [Rat.cast_one, b64_one]
    -- the quadratic term is below 1, the linear one between it and 1
    have hm2 : b64 (m ^ 2) ≤ m * 94.005 := by
      rcases le_total m 1 with h | h
      · have := b64_mono (show m ^ 2 ≤ m by nlinarith)
        rw [hm] at this
        norm_num
        linarith
      · have := (b64_err_nonneg (x := m ^ 2) (by positivity)).2
        have : m ^ 2 ≤ m * 94 := by nlinarith
        norm_num at *
        linarith
    have c0 : 0 ≤ b64 ((0.00011042 : ℚ) : ℝ) := b64_nonneg (by norm_num)
    have cc : b64 ((0.00011042 : ℚ) : ℝ) * 94.01 ≤ b64 ((0.010394 : ℚ) : ℝ) := by
      norm_num at *
      linarith
    have hle : term2 0.00011042 m ≤ term1 0.010394 m := by
      refine b64_mono ?_
      calc b64 ((0.00011042 : ℚ) : ℝ) * b64 (m ^ 2) ≤ b64 ((0.00011042 : ℚ) : ℝ) * (m * 94.005) := mul_le_mul_of_nonneg_left hm2 c0
        _ ≤ b64 ((0.010394 : ℚ) : ℝ) * m := by nlinarith
    have p0 : 0 ≤ b64 ((0.010394 : ℚ) : ℝ) := b64_nonneg (by norm_num)
    have p1 : b64 ((0.010394 : ℚ) : ℝ) ≤ 0.0104 := by norm_num at *; linarith
    have t1 : term1 0.010394 m ≤ 1 := by
      have := b64_mono (show b64 ((0.010394 : ℚ) : ℝ) * m ≤ 1 by norm_num at *; nlinarith)
      rwa [b64_one] at this
    have n0 : 0 ≤ b64 (1 - term1 0.010394 m) := b64_nonneg (by linarith)
    have le : b64 (1 - term1 0.010394 m) ≤ b64 (1 - term2 0.00011042 m) := b64_mono (by linarith)
    have t2 : term2 0.00011042 m ≤ 0.98 := by
      have hs := (b64_err_nonneg (x := b64 ((0.00011042 : ℚ) : ℝ) * b64 (m ^ 2)) (mul_nonneg c0 (b64_nonneg (by positivity)))).2
      have h3 : b64 (m ^ 2) ≤ 8836 := (sq_range m0 m1).2
      have h4 : b64 ((0.00011042 : ℚ) : ℝ) ≤ 0.0001105 := by norm_num at *; linarith
      have h5 : b64 ((0.00011042 : ℚ) : ℝ) * b64 (m ^ 2) ≤ 0.0001105 * 8836 :=
        mul_le_mul h4 h3 (b64_nonneg (by positivity)) (by norm_num)
      unfold term2
      norm_num at *
      linarith
    have d0 : 0 < b64 (1 - term2 0.00011042 m) := by
      have := (b64_err_nonneg (x := 1 - term2 0.00011042 m) (by linarith)).1
      norm_num at *
      linarith
    have f := frac_div n0 d0 le
    have en : V.rnd binary64 (V.sub (.fin (b64 ((1 : ℚ) : ℝ))) (V.rnd binary64 (V.mul (.fin (b64 ((0.010394 : ℚ) : ℝ))) (.fin m)))) =
        V.fin (b64 (1 - term1 0.010394 m)) := by
      rw [e1, o]
      exact vrnd64 (z := 1 - term1 0.010394 m) (by rw [abs_of_nonneg (by linarith)]; norm_num at *; linarith) rfl
    have ed : V.rnd binary64 (V.sub (.fin (b64 ((1 : ℚ) : ℝ))) (V.rnd binary64 (V.mul (.fin (b64 ((0.00011042 : ℚ) : ℝ)))
        (V.ovf (b64 (m ^ ((2 : ℕ) : ℝ))))))) = V.fin (b64 (1 - term2 0.00011042 m)) := by
      rw [e2, o]
      exact vrnd64 (z := 1 - term2 0.00011042 m) (by rw [abs_of_nonneg (by linarith)]; norm_num at *; linarith) rfl
    rw [← en, ← ed] at f
    unfold get_rayleigh_transmittance
    rw [if_neg hb, if_neg hb]
    exact f

/-- C170, mixed gases. -/
theorem C170_gas (band : String) (m : ℝ) (m0 : 0 ≤ m) (m1 : m ≤ 94) :
    Frac (get_gas_transmittance (rndB binary64) band (V.fin m)) ∧ Frac (get_gas_transmittance (nprB binary64) band (V.fin m)) := by
  by_cases hb : band = "high-frequency"
  · have n := quad_eval (c1 := 0.95885) (c2 := 0.012871) (by norm_num) (by norm_num) (by norm_num) (by norm_num) m0 m1
    have d := quad_eval (c1 := 0.96321) (c2 := 0.015455) (by norm_num) (by norm_num) (by norm_num) (by norm_num) m0 m1
    have n1 := quad_ge_one (c1 := 0.95885) (c2 := 0.012871) (by norm_num) (by norm_num) (by norm_num) (by norm_num) m0 m1
    have le := quad_le (c1 := 0.95885) (c2 := 0.012871) (d1 := 0.96321) (d2 := 0.015455) (by norm_num) (by norm_num) m0
    have f := frac_div (by linarith) (by linarith) le
    rw [← n, ← d] at f
    unfold get_gas_transmittance
    rw [if_pos hb, if_pos hb]
    exact f
  · obtain ⟨e, s0, s1⟩ := lin_eval (c1 := 0.27284) (by norm_num) (by norm_num) m0 m1
    obtain ⟨e', s0', s1'⟩ := lin_eval (c1 := 0.30306) (by norm_num) (by norm_num) m0 m1
    have e2 := term2_eval (c := 0.00063699) (by norm_num) (by norm_num) m0 m1
    obtain ⟨u0, -⟩ := term2_range (c := 0.00063699) (by norm_num) (by norm_num) m0 m1
    -- the quadratic term is below the sum of the others
    have c0 : 0 ≤ b64 ((0.00063699 : ℚ) : ℝ) := b64_nonneg (by norm_num)
    have h2 := b64_err_nonneg (x := ((0.00063699 : ℚ) : ℝ)) (by norm_num)
    have h1 := b64_err_nonneg (x := ((0.27284 : ℚ) : ℝ)) (by norm_num)
    have c1 : b64 ((0.00063699 : ℚ) : ℝ) ≤ 0.000637 := by norm_num at *; linarith
    have c2 : 0.2728 ≤ b64 ((0.27284 : ℚ) : ℝ) := by norm_num at *; linarith
    have hu : term2 0.00063699 m ≤ b64 (1 + term1 0.27284 m) := by
      have k1 := (b64_err_nonneg (x := m ^ 2) (by positivity)).2
      have k2 := (b64_err_nonneg (x := b64 ((0.00063699 : ℚ) : ℝ) * b64 (m ^ 2)) (mul_nonneg c0 (b64_nonneg (by positivity)))).2
      have k3 : b64 ((0.00063699 : ℚ) : ℝ) * b64 (m ^ 2) ≤ 0.000637 * b64 (m ^ 2) :=
        mul_le_mul_of_nonneg_right c1 (b64_nonneg (by positivity))
      have k4 := (b64_err_nonneg (x := b64 ((0.27284 : ℚ) : ℝ) * m) (by norm_num at *; positivity)).1
      have k5 : 0.2728 * m ≤ b64 ((0.27284 : ℚ) : ℝ) * m := mul_le_mul_of_nonneg_right c2 m0
      have k6 := (b64_err_nonneg (x := 1 + term1 0.27284 m) (by linarith [(term1_range (c := 0.27284) (by norm_num) (by norm_num) m0 m1).1])).1
      have k7 : m ^ 2 ≤ 94 * m := by nlinarith
      refine le_trans ?_ k6
      have k8 : term1 0.27284 m = b64 (b64 ((0.27284 : ℚ) : ℝ) * m) := rfl
      rw [k8]
      unfold term2
      norm_num at *
      linarith
    have n0 : 0 ≤ b64 (b64 (1 + term1 0.27284 m) - term2 0.00063699 m) := b64_nonneg (by linarith)
    have le : b64 (b64 (1 + term1 0.27284 m) - term2 0.00063699 m) ≤ b64 (1 + term1 0.30306 m) := by
      have a : term1 0.27284 m ≤ term1 0.30306 m := b64_mono (mul_le_mul_of_nonneg_right (b64_mono (by norm_num)) m0)
      have b := b64_mono (show 1 + term1 0.27284 m ≤ 1 + term1 0.30306 m by linarith)
      have := b64_mono (show b64 (1 + term1 0.27284 m) - term2 0.00063699 m ≤ b64 (1 + term1 0.30306 m) by linarith)
      rwa [b64_idem] at this
    have f := frac_div n0 (by linarith) le
    have en : V.rnd binary64 (V.sub (V.rnd binary64 (V.add (.fin (b64 ((1 : ℚ) : ℝ))) (V.rnd binary64 (V.mul
        (.fin (b64 ((0.27284 : ℚ) : ℝ))) (.fin m))))) (V.rnd binary64 (V.mul (.fin (b64 ((0.00063699 : ℚ) : ℝ)))
        (V.ovf (b64 (m ^ ((2 : ℕ) : ℝ))))))) = V.fin (b64 (b64 (1 + term1 0.27284 m) - term2 0.00063699 m)) := by
      rw [e, e2]
      exact vrnd64 (z := b64 (1 + term1 0.27284 m) - term2 0.00063699 m) (by rw [abs_of_nonneg (by linarith)]; norm_num at *; linarith) rfl
    rw [← en, ← e'] at f
    unfold get_gas_transmittance
    rw [if_neg hb, if_neg hb]
    exact f

/-- The exponential of something not positive. -/
theorem frac_exp {x : V} (hx : x = V.ninf ∨ ∃ a : ℝ, x = V.fin a ∧ a ≤ 0) :
    Frac ((rndB binary64).exp x) ∧ Frac ((nprB binary64).exp x) := by
  rcases hx with rfl | ⟨a, rfl, ha⟩
  · exact ⟨⟨0, rfl, le_rfl, zero_le_one⟩, ⟨0, rfl, le_rfl, zero_le_one⟩⟩
  · have h1 : b64 (Real.exp a) ≤ 1 := by
      rw [← b64_one]
      exact b64_mono (Real.exp_le_one_iff.2 ha)
    have h0 := b64_nonneg (Real.exp_pos a).le
    have hb : ¬(2 : ℝ) ^ 1024 ≤ b64 (Real.exp a) := not_le.2 (h1.trans_lt (one_lt_pow₀ one_lt_two (by norm_num)))
    exact ⟨⟨_, if_neg hb, h0, h1⟩, ⟨_, if_neg hb, h0, h1⟩⟩

/-- Minus a product of numbers that are not negative. -/
theorem neg_mul_round {x y : ℝ} (hx : x ≤ 0) (hy : 0 ≤ y) :
    V.rnd binary64 (V.mul (.fin x) (.fin y)) = V.ninf ∨ ∃ a : ℝ, V.rnd binary64 (V.mul (.fin x) (.fin y)) = V.fin a ∧ a ≤ 0 := by
  have e : V.rnd binary64 (V.mul (.fin x) (.fin y)) = if (2 : ℝ) ^ 1024 ≤ b64 (x * y) then V.pinf
    else if b64 (x * y) ≤ -2 ^ 1024 then V.ninf else V.fin (b64 (x * y)) := rfl
  have hle : b64 (x * y) ≤ 0 := by
    have := b64_mono (mul_nonpos_of_nonpos_of_nonneg hx hy)
    rwa [b64_zero] at this
  have hbig : ¬(2 : ℝ) ^ 1024 ≤ b64 (x * y) := by
    have : (0 : ℝ) < 2 ^ 1024 := by positivity
    exact not_le.2 (lt_of_le_of_lt hle this)
  rw [e, if_neg hbig]
  by_cases hlow : b64 (x * y) ≤ -2 ^ 1024
  · rw [if_pos hlow]
    exact .inl rfl
  · rw [if_neg hlow]
    exact .inr ⟨_, rfl, hle⟩

/-- C170, aerosol: for all optical masses and depths that are not negative. -/
theorem C170_aerosol (band : String) (m t : ℝ) (m0 : 0 ≤ m) (t0 : 0 ≤ t) :
    Frac (get_aerosol_transmittance (rndB binary64) band (V.fin m) (V.fin t)) ∧
    Frac (get_aerosol_transmittance (nprB binary64) band (V.fin m) (V.fin t)) :=
  frac_exp (neg_mul_round (neg_nonpos.2 m0) t0)

/-- C170, aerosol scattering, in the two bands. -/
theorem C170_aerosol_scattering (band : String) (hb : band = "high-frequency" ∨ band = "low-frequency") (m t : ℝ) (m0 : 0 ≤ m)
    (m1 : m ≤ 10 ^ 6) (t0 : 0 ≤ t) :
    Frac (get_aerosol_scattering_transmittance (rndB binary64) band (V.fin m) (V.fin t)) ∧
    Frac (get_aerosol_scattering_transmittance (nprB binary64) band (V.fin m) (V.fin t)) := by
  have key : ∀ q : ℚ, 0 ≤ q → q ≤ 4 → Frac ((rndB binary64).exp (V.rnd binary64 (V.mul (V.rnd binary64 (V.mul (.fin (-m)) (.fin (b64 q))))
      (.fin t)))) ∧ Frac ((nprB binary64).exp (V.rnd binary64 (V.mul (V.rnd binary64 (V.mul (.fin (-m)) (.fin (b64 q)))) (.fin t)))) := by
    intro q q0 q1
    obtain ⟨c0, c1⟩ := lit_range q0 q1
    have hle : b64 (-m * b64 q) ≤ 0 := by
      have := b64_mono (mul_nonpos_of_nonpos_of_nonneg (neg_nonpos.2 m0) c0)
      rwa [b64_zero] at this
    have e : V.rnd binary64 (V.mul (.fin (-m)) (.fin (b64 q))) = V.fin (b64 (-m * b64 q)) := by
      refine vrnd64 (z := -m * b64 q) ?_ rfl
      rw [abs_mul, abs_neg, abs_of_nonneg m0, abs_of_nonneg c0]
      exact (mul_le_mul m1 c1 c0 (by norm_num)).trans (by norm_num)
    rw [e]
    exact frac_exp (neg_mul_round hle t0)
  rcases hb with rfl | rfl
  · exact key 0.92 (by norm_num) (by norm_num)
  · exact key 0.84 (by norm_num) (by norm_num)

/-- The hypotheses hold for an air mass of 1.5. -/
example : ∃ x : ℝ, get_rayleigh_transmittance (rndB binary64) "low-frequency" (V.fin 1.5) = .ok (V.fin x) ∧ 0 ≤ x ∧ x ≤ 1 := by
  refine (C170_rayleigh "low-frequency" 1.5 ?_ (by norm_num) (by norm_num)).1
  have := b64_near (x := 1.5) 6755399441055744 52 (by norm_num) (by norm_num) (by norm_num) (by rw [abs_lt]; constructor <;> norm_num)
  rw [this]
  norm_num

end Verif.Props
