import Verif.Props.UtilRange

/-!
# C183: the diffuse transmittance in double precision

`diffuse_transmittance` is increasing in the turbidity in real arithmetic. In IEEE double precision, with rounding in every step,
it never falls, and it is the real value to 1e-6, for turbidities up to 100.
-/

namespace Verif.Props

open Verif Verif.Spec Pysolar Pysolar.Util Chain

/-- The value as computed. -/
noncomputable def trans64 (t : ℝ) : ℝ :=
  b64 (b64 (-b64 ((21.657 : ℚ) : ℝ) + b64 (b64 ((41.752 : ℚ) : ℝ) * t)) + b64 (b64 (b64 ((0.51905 : ℚ) : ℝ) * t) * t))

theorem lit_near {q : ℚ} (h : |(q : ℝ)| ≤ 64) : |b64 q - q| ≤ 2 / 10 ^ 14 := by
  have := b64_close (n := 46) h (by norm_num) (by norm_num)
  exact this.trans (by norm_num)

theorem step_near {x : ℝ} (h : |x| ≤ 10000) : V.rnd binary64 (.fin x) = .fin (b64 x) ∧ |b64 x - x| ≤ 1 / 10 ^ 9 :=
  round_ge h le_rfl

theorem trans_eval {t : ℝ} (h0 : 0 ≤ t) (h1 : t ≤ 100) :
    diffuse_transmittance (rndB binary64) (.fin t) = .fin (trans64 t) ∧
    diffuse_transmittance (nprB binary64) (.fin t) = .fin (trans64 t) ∧
    |trans64 t - (-21.657 + 41.752 * t + 0.51905 * t ^ 2)| ≤ 1 / 10 ^ 6 := by
  have l1 := abs_le.1 (lit_near (q := 21.657) (by norm_num [abs_le]))
  have l2 := abs_le.1 (lit_near (q := 41.752) (by norm_num [abs_le]))
  have l3 := abs_le.1 (lit_near (q := 0.51905) (by norm_num [abs_le]))
  have n1 : diffuse_transmittance (rndB binary64) (.fin t) = V.rnd binary64 (V.add (V.rnd binary64 (V.add (.fin (-b64 ((21.657 : ℚ) : ℝ)))
      (V.rnd binary64 (.fin (b64 ((41.752 : ℚ) : ℝ) * t))))) (V.rnd binary64 (V.mul (V.rnd binary64 (.fin (b64 ((0.51905 : ℚ) : ℝ) * t))) (.fin t)))) := rfl
  have n2 : diffuse_transmittance (nprB binary64) (.fin t) = V.rnd binary64 (V.add (V.rnd binary64 (V.add (.fin (-b64 ((21.657 : ℚ) : ℝ)))
      (V.rnd binary64 (.fin (b64 ((41.752 : ℚ) : ℝ) * t))))) (V.rnd binary64 (V.mul (V.rnd binary64 (.fin (b64 ((0.51905 : ℚ) : ℝ) * t))) (.fin t)))) := rfl
  unfold trans64
  generalize b64 ((21.657 : ℚ) : ℝ) = A at *
  generalize b64 ((41.752 : ℚ) : ℝ) = B at *
  generalize b64 ((0.51905 : ℚ) : ℝ) = C at *
  norm_num at l1 l2 l3
  have p1 : |B * t - 41.752 * t| ≤ 1 / 10 ^ 9 := by
    rw [← sub_mul, abs_mul, abs_of_nonneg h0]
    have : |B - 41.752| ≤ 1 / 10 ^ 11 := by rw [abs_le]; norm_num; constructor <;> linarith
    exact (mul_le_mul this h1 h0 (by norm_num)).trans (by norm_num)
  have p2 : |C * t - 0.51905 * t| ≤ 1 / 10 ^ 9 := by
    rw [← sub_mul, abs_mul, abs_of_nonneg h0]
    have : |C - 0.51905| ≤ 1 / 10 ^ 11 := by rw [abs_le]; norm_num; constructor <;> linarith
    exact (mul_le_mul this h1 h0 (by norm_num)).trans (by norm_num)
  rw [abs_le] at p1 p2
  norm_num at p1 p2
  obtain ⟨r1, e1⟩ := step_near (x := B * t) (abs_le.2 ⟨by linarith, by linarith⟩)
  obtain ⟨r2, e2⟩ := step_near (x := C * t) (abs_le.2 ⟨by linarith, by linarith⟩)
  rw [abs_le] at e1 e2
  norm_num at e1 e2
  obtain ⟨r3, e3⟩ := step_near (x := -A + b64 (B * t)) (abs_le.2 ⟨by linarith, by linarith⟩)
  have p3 : |b64 (C * t) * t - 0.51905 * t ^ 2| ≤ 3 / 10 ^ 7 := by
    rw [show b64 (C * t) * t - 0.51905 * t ^ 2 = (b64 (C * t) - 0.51905 * t) * t by ring, abs_mul, abs_of_nonneg h0]
    have : |b64 (C * t) - 0.51905 * t| ≤ 3 / 10 ^ 9 := by rw [abs_le]; norm_num; constructor <;> linarith
    exact (mul_le_mul this h1 h0 (by norm_num)).trans (by norm_num)
  have q0 := sq_nonneg t
  have q1 : t ^ 2 ≤ 10000 := by nlinarith
  rw [abs_le] at p3 e3
  norm_num at p3 e3
  obtain ⟨r4, e4⟩ := step_near (x := b64 (C * t) * t) (abs_le.2 ⟨by linarith, by linarith⟩)
  rw [abs_le] at e4
  norm_num at e4
  obtain ⟨r5, e5⟩ := step_near (x := b64 (-A + b64 (B * t)) + b64 (b64 (C * t) * t)) (abs_le.2 ⟨by linarith, by linarith⟩)
  rw [r1, r2] at n1 n2
  simp only [V.add, V.mul] at n1 n2
  rw [r3, r4] at n1 n2
  simp only at n1 n2
  rw [r5] at n1 n2
  refine ⟨n1, n2, ?_⟩
  rw [abs_le] at e5 ⊢
  norm_num at e5 ⊢
  constructor <;> linarith

theorem trans_mono {t t' : ℝ} (h0 : 0 ≤ t) (h : t ≤ t') : trans64 t ≤ trans64 t' := by
  have a : 0 ≤ b64 ((41.752 : ℚ) : ℝ) := b64_nonneg (by norm_num)
  have b : 0 ≤ b64 ((0.51905 : ℚ) : ℝ) := b64_nonneg (by norm_num)
  refine b64_mono (add_le_add (b64_mono (add_le_add le_rfl (b64_mono (mul_le_mul_of_nonneg_left h a)))) (b64_mono ?_))
  exact mul_le_mul (b64_mono (mul_le_mul_of_nonneg_left h b)) h h0 (b64_nonneg (mul_nonneg b (h0.trans h)))

/-- C183: the same double with `math` and numpy, within 1e-6 of the real value; positive from turbidity 0.6 on. -/
theorem C183_value (t : ℝ) (h0 : 0 ≤ t) (h1 : t ≤ 100) :
    ∃ r, diffuse_transmittance (rndB binary64) (.fin t) = .fin r ∧ diffuse_transmittance (nprB binary64) (.fin t) = .fin r ∧
      |r - (-21.657 + 41.752 * t + 0.51905 * t ^ 2)| ≤ 1 / 10 ^ 6 ∧ (0.6 ≤ t → 3 ≤ r) := by
  obtain ⟨k1, k2, k3⟩ := trans_eval h0 h1
  refine ⟨_, k1, k2, k3, fun h => ?_⟩
  have := abs_le.1 k3
  have q := sq_nonneg t
  norm_num at *
  linarith

/-- C183: it never falls with the turbidity. -/
theorem C183_monotone (t t' r r' : ℝ) (h0 : 0 ≤ t) (h : t ≤ t') (h1 : t' ≤ 100) :
    (diffuse_transmittance (rndB binary64) (.fin t) = .fin r → diffuse_transmittance (rndB binary64) (.fin t') = .fin r' → r ≤ r') ∧
    (diffuse_transmittance (nprB binary64) (.fin t) = .fin r → diffuse_transmittance (nprB binary64) (.fin t') = .fin r' → r ≤ r') := by
  obtain ⟨k1, k2, -⟩ := trans_eval h0 (h.trans h1)
  obtain ⟨k1', k2', -⟩ := trans_eval (h0.trans h) h1
  constructor
  · intro a b
    obtain rfl := V.fin.inj (k1.symm.trans a)
    obtain rfl := V.fin.inj (k1'.symm.trans b)
    exact trans_mono h0 h
  · intro a b
    obtain rfl := V.fin.inj (k2.symm.trans a)
    obtain rfl := V.fin.inj (k2'.symm.trans b)
    exact trans_mono h0 h

/-- The default turbidity 1 against 2. -/
example : ∃ r r', diffuse_transmittance (rndB binary64) (.fin 1) = .fin r ∧ diffuse_transmittance (rndB binary64) (.fin 2) = .fin r' ∧
    20 ≤ r ∧ r + 40 ≤ r' := by
  obtain ⟨r, h1, -, h2, -⟩ := C183_value 1 (by norm_num) (by norm_num)
  obtain ⟨r', h3, -, h4, -⟩ := C183_value 2 (by norm_num) (by norm_num)
  rw [abs_le] at h2 h4
  norm_num at h2 h4
  exact ⟨r, r', h1, h3, by linarith, by linarith⟩

end Verif.Props
