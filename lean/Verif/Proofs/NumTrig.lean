import Mathlib.Analysis.Complex.Exponential
import Mathlib.Analysis.Complex.Trigonometric
import Mathlib.Analysis.Real.Pi.Bounds
import Verif.Proofs.Trig

/-!
# Sines and cosines of rational angles by kernel computation

Fixed-point evaluation of the exponential series at `i x`, with a proved error bound.
-/

namespace Verif

open Verif.Spec

/-- One in fixed point. -/
def fpOne : ℤ := 10 ^ 15

/-- Horner scheme for the real and imaginary parts of the exponential series at `i x`. -/
def hor (x : ℤ) : ℕ → ℕ → ℤ × ℤ
  | 0, _ => (fpOne, 0)
  | m + 1, k =>
    let p := hor x m (k + 1)
    (fpOne - x * p.2 / (k * fpOne), x * p.1 / (k * fpOne))

/-- The series in exact arithmetic. -/
noncomputable def ser (z : ℂ) : ℕ → ℕ → ℂ
  | 0, _ => 1
  | m + 1, k => 1 + z / k * ser z m (k + 1)

theorem ser_sum (z : ℂ) (m k : ℕ) : ser z m (k + 1) * (z ^ k / k.factorial)
    = ∑ i ∈ Finset.range (m + 1), z ^ (k + i) / (k + i).factorial := by
  induction m generalizing k with
  | zero => simp [ser]
  | succ m ih =>
    rw [Finset.sum_range_succ']
    have := ih (k + 1)
    have e : ∀ i, z ^ (k + (i + 1)) / ((k + (i + 1)).factorial : ℂ) = z ^ (k + 1 + i) / ((k + 1 + i).factorial : ℂ) :=
      fun i => by rw [show k + (i + 1) = k + 1 + i by ring]
    simp only [e, ← this]
    rw [ser, Nat.factorial_succ]
    push_cast
    have h1 : (k.factorial : ℂ) ≠ 0 := by exact_mod_cast k.factorial_ne_zero
    have h2 : ((k : ℂ) + 1) ≠ 0 := by exact_mod_cast k.succ_ne_zero
    simp only [add_zero]
    field_simp
    ring

/-- Accumulated rounding error, in units of the last place, for `|x| ≤ 4`. -/
def horErr : ℕ → ℕ → ℚ
  | 0, _ => 0
  | m + 1, k => 2 + 4 / k * horErr m (k + 1)

theorem fp_div (a : ℤ) {b : ℤ} (hb : 0 < b) : |((a / b : ℤ) : ℝ) - (a : ℝ) / b| ≤ 1 := by
  have h1 := Int.emod_add_mul_ediv a b
  have h2 := Int.emod_nonneg a hb.ne'
  have h3 := Int.emod_lt_of_pos a hb
  have hb' : (0 : ℝ) < b := by exact_mod_cast hb
  have e : (a : ℝ) = ((a % b : ℤ) : ℝ) + b * ((a / b : ℤ) : ℝ) := by exact_mod_cast h1.symm
  have e2 : ((a / b : ℤ) : ℝ) - (a : ℝ) / b = -(((a % b : ℤ) : ℝ) / b) := by
    rw [e]
    field_simp
    ring
  have h2' : (0 : ℝ) ≤ ((a % b : ℤ) : ℝ) := by exact_mod_cast h2
  have h3' : ((a % b : ℤ) : ℝ) ≤ b := by exact_mod_cast h3.le
  rw [e2, abs_neg, abs_of_nonneg (by positivity), div_le_one hb']
  exact h3'

theorem hor_err {x : ℤ} (hx : |(x : ℝ)| ≤ 4 * fpOne) (m k : ℕ) (hk : 0 < k) :
    ‖((hor x m k).1 : ℂ) + (hor x m k).2 * Complex.I - fpOne * ser ((x / fpOne : ℝ) * Complex.I) m k‖ ≤ horErr m k := by
  induction m generalizing k with
  | zero => simp [hor, ser, horErr]
  | succ m ih =>
    have h := ih (k + 1) k.succ_pos
    set p := hor x m (k + 1) with hp
    have hS : (0 : ℝ) < (fpOne : ℝ) := by norm_num [fpOne]
    have hSi : (0 : ℤ) < fpOne := by norm_num [fpOne]
    have hk' : (0 : ℝ) < (k : ℝ) := by exact_mod_cast hk
    have hb : (0 : ℤ) < k * fpOne := by positivity
    have d1 := fp_div (x * p.2) hb
    have d2 := fp_div (x * p.1) hb
    have e : ((hor x (m + 1) k).1 : ℂ) + (hor x (m + 1) k).2 * Complex.I
        - fpOne * ser ((x / fpOne : ℝ) * Complex.I) (m + 1) k
        = ((-(((x * p.2 / (k * fpOne) : ℤ) : ℝ) - ((x * p.2 : ℤ) : ℝ) / ((k * fpOne : ℤ) : ℝ)) : ℝ) : ℂ)
          + ((((x * p.1 / (k * fpOne) : ℤ) : ℝ) - ((x * p.1 : ℤ) : ℝ) / ((k * fpOne : ℤ) : ℝ) : ℝ) : ℂ) * Complex.I
          + ((x / fpOne : ℝ) * Complex.I) / k * ((p.1 : ℂ) + p.2 * Complex.I
            - fpOne * ser ((x / fpOne : ℝ) * Complex.I) m (k + 1)) := by
      have hc1 : (fpOne : ℂ) ≠ 0 := by exact_mod_cast hS.ne'
      have hc2 : (k : ℂ) ≠ 0 := by exact_mod_cast hk'.ne'
      simp only [hor, ser, ← hp]
      push_cast
      have hI := Complex.I_sq
      field_simp
      ring_nf
      rw [hI]
      ring
    rw [e]
    refine (norm_add_le _ _).trans ?_
    have n1 : ‖((-(((x * p.2 / (k * fpOne) : ℤ) : ℝ) - ((x * p.2 : ℤ) : ℝ) / ((k * fpOne : ℤ) : ℝ)) : ℝ) : ℂ)
          + ((((x * p.1 / (k * fpOne) : ℤ) : ℝ) - ((x * p.1 : ℤ) : ℝ) / ((k * fpOne : ℤ) : ℝ) : ℝ) : ℂ) * Complex.I‖
          ≤ 2 := by
      refine (norm_add_le _ _).trans ?_
      rw [norm_mul, Complex.norm_I, mul_one, Complex.norm_real, Complex.norm_real, Real.norm_eq_abs, Real.norm_eq_abs,
        abs_neg]
      linarith
    have n2 : ‖((x / fpOne : ℝ) * Complex.I : ℂ) / k * ((p.1 : ℂ) + p.2 * Complex.I
            - fpOne * ser ((x / fpOne : ℝ) * Complex.I) m (k + 1))‖ ≤ 4 / k * horErr m (k + 1) := by
      rw [norm_mul, norm_div, norm_mul, Complex.norm_I, mul_one, Complex.norm_real, Real.norm_eq_abs, Complex.norm_natCast,
        abs_div, abs_of_pos hS]
      have : |(x : ℝ)| / fpOne ≤ 4 := by rw [div_le_iff₀ hS]; exact hx
      gcongr
    rw [horErr]
    push_cast at n1 n2 ⊢
    linarith

/-- Cosine and sine of `x / 10^15` in fixed point. -/
def expZ (x : ℤ) : ℤ × ℤ := hor x 23 1

theorem expZ_err {x : ℤ} (hx : |(x : ℝ)| ≤ 4 * fpOne) :
    |Real.cos (x / fpOne) - (expZ x).1 / fpOne| ≤ 1e-9 ∧ |Real.sin (x / fpOne) - (expZ x).2 / fpOne| ≤ 1e-9 := by
  have hS : (0 : ℝ) < (fpOne : ℝ) := by norm_num [fpOne]
  set y : ℝ := x / fpOne with hy
  have hy4 : |y| ≤ 4 := by rw [hy, abs_div, abs_of_pos hS, div_le_iff₀ hS]; exact hx
  have h1 := hor_err hx 23 1 one_pos
  have h2 : ser ((y : ℝ) * Complex.I) 23 1 = ∑ i ∈ Finset.range 24, ((y : ℂ) * Complex.I) ^ i / (i.factorial : ℂ) := by
    have := ser_sum ((y : ℝ) * Complex.I) 23 0
    simpa using this
  have hn : ‖(y : ℂ) * Complex.I‖ = |y| := by
    rw [norm_mul, Complex.norm_I, mul_one, Complex.norm_real, Real.norm_eq_abs]
  have h3 := Complex.exp_bound' (x := (y : ℂ) * Complex.I) (n := 24) (by rw [hn]; norm_num; linarith)
  rw [← h2, hn] at h3
  have h4 : |y| ^ 24 / (Nat.factorial 24 : ℕ) * 2 ≤ 9.5e-10 := by
    have : |y| ^ 24 ≤ 4 ^ 24 := by gcongr
    have hf : ((Nat.factorial 24 : ℕ) : ℝ) = 620448401733239439360000 := by norm_num [Nat.factorial]
    rw [hf]
    norm_num at *
    linarith
  have hE : horErr 23 1 ≤ 200 := by norm_num [horErr]
  have hE' : (horErr 23 1 : ℝ) ≤ 200 := by exact_mod_cast hE
  have h5 : ‖((expZ x).1 : ℂ) / fpOne + (expZ x).2 / fpOne * Complex.I - ser ((y : ℝ) * Complex.I) 23 1‖ ≤ 1e-12 := by
    have hc1 : (fpOne : ℂ) ≠ 0 := by exact_mod_cast hS.ne'
    have : ((expZ x).1 : ℂ) / fpOne + (expZ x).2 / fpOne * Complex.I - ser ((y : ℝ) * Complex.I) 23 1
        = (((expZ x).1 : ℂ) + (expZ x).2 * Complex.I - fpOne * ser ((y : ℝ) * Complex.I) 23 1) / fpOne := by
      field_simp
    rw [this, norm_div]
    have : ‖(fpOne : ℂ)‖ = 10 ^ 15 := by norm_num [fpOne]
    rw [this, div_le_iff₀ (by positivity)]
    refine (h1.trans hE').trans (by norm_num)
  have h6 : ‖Complex.exp ((y : ℂ) * Complex.I) - (((expZ x).1 : ℂ) / fpOne + (expZ x).2 / fpOne * Complex.I)‖ ≤ 1e-9 := by
    have := norm_sub_le_norm_sub_add_norm_sub (Complex.exp ((y : ℂ) * Complex.I)) (ser ((y : ℝ) * Complex.I) 23 1)
      (((expZ x).1 : ℂ) / fpOne + (expZ x).2 / fpOne * Complex.I)
    rw [norm_sub_rev (ser _ _ _)] at this
    have := h3.trans h4
    norm_num at *
    linarith
  have hz : Complex.exp ((y : ℂ) * Complex.I) - (((expZ x).1 : ℂ) / fpOne + (expZ x).2 / fpOne * Complex.I)
      = ((Real.cos y - (expZ x).1 / fpOne : ℝ) : ℂ) + ((Real.sin y - (expZ x).2 / fpOne : ℝ) : ℂ) * Complex.I := by
    rw [Complex.exp_mul_I]
    push_cast
    ring
  rw [hz] at h6
  constructor
  · refine le_trans ?_ h6
    have := Complex.abs_re_le_norm (((Real.cos y - (expZ x).1 / fpOne : ℝ) : ℂ)
      + ((Real.sin y - (expZ x).2 / fpOne : ℝ) : ℂ) * Complex.I)
    rwa [Complex.add_re, Complex.re_ofReal_mul, Complex.I_re, mul_zero, add_zero, Complex.ofReal_re] at this
  · refine le_trans ?_ h6
    have := Complex.abs_im_le_norm (((Real.cos y - (expZ x).1 / fpOne : ℝ) : ℂ)
      + ((Real.sin y - (expZ x).2 / fpOne : ℝ) : ℂ) * Complex.I)
    rwa [Complex.add_im, Complex.im_ofReal_mul, Complex.I_im, mul_one, Complex.ofReal_im, zero_add] at this

/-- Angle in units of 10^-9 degrees, reduced to half a turn each way, in radians in fixed point. -/
def degFp (q : ℤ) : ℤ := ((q + 180000000000) % 360000000000 - 180000000000) * 3141592653589793 / 180000000000

/-- Cosine and sine of an angle in units of 10^-9 degrees. -/
def cosD (q : ℤ) : ℚ := (expZ (degFp q)).1 / 10 ^ 15
def sinD (q : ℤ) : ℚ := (expZ (degFp q)).2 / 10 ^ 15

theorem degFp_close (q : ℤ) : ∃ k : ℤ, |(degFp q : ℝ) / fpOne - (rad (q / 1000000000) - 2 * Real.pi * k)| ≤ 1e-14 ∧
    |(degFp q : ℝ)| ≤ 4 * fpOne := by
  have h1 := Int.emod_add_mul_ediv (q + 180000000000) 360000000000
  have h2 := Int.emod_nonneg (q + 180000000000) (b := 360000000000) (by norm_num)
  have h3 := Int.emod_lt_of_pos (q + 180000000000) (b := 360000000000) (by norm_num)
  set k := (q + 180000000000) / 360000000000 with hk
  set y := (q + 180000000000) % 360000000000 - 180000000000 with hy
  have e : q = y + 360000000000 * k := by omega
  have hy1 : |(y : ℝ)| ≤ 180000000000 := by
    rw [abs_le]
    exact ⟨by exact_mod_cast (by omega : -180000000000 ≤ y), by exact_mod_cast (by omega : y ≤ 180000000000)⟩
  have hd := fp_div (y * 3141592653589793) (b := 180000000000) (by norm_num)
  have hdef : degFp q = y * 3141592653589793 / 180000000000 := rfl
  rw [← hdef] at hd
  have hS : (fpOne : ℝ) = 10 ^ 15 := by norm_num [fpOne]
  have p1 := Real.pi_gt_d20
  have p2 := Real.pi_lt_d20
  have hq : (q : ℝ) = y + 360000000000 * k := by exact_mod_cast e
  refine ⟨k, ?_, ?_⟩
  · have e2 : (degFp q : ℝ) / fpOne - (rad (q / 1000000000) - 2 * Real.pi * k)
        = ((degFp q : ℝ) - ((y * 3141592653589793 : ℤ) : ℝ) / ((180000000000 : ℤ) : ℝ)) / 10 ^ 15
          + y / 180000000000 * (3.141592653589793 - Real.pi) := by
      rw [hq, hS]
      unfold rad
      push_cast
      ring
    rw [e2]
    refine (abs_add_le _ _).trans ?_
    rw [abs_div, abs_mul, abs_div]
    have a1 : |(degFp q : ℝ) - ((y * 3141592653589793 : ℤ) : ℝ) / ((180000000000 : ℤ) : ℝ)| / |(10 : ℝ) ^ 15| ≤ 1 / 10 ^ 15 := by
      rw [abs_of_pos (by positivity : (0 : ℝ) < 10 ^ 15)]
      gcongr
    have a2 : |(y : ℝ)| / |(180000000000 : ℝ)| ≤ 1 := by
      rw [abs_of_pos (by norm_num : (0 : ℝ) < 180000000000), div_le_one (by norm_num)]
      exact hy1
    have a3 : |3.141592653589793 - Real.pi| ≤ 3e-16 := by
      rw [abs_le]; norm_num at *; constructor <;> linarith
    have a4 : |(y : ℝ)| / |(180000000000 : ℝ)| * |3.141592653589793 - Real.pi| ≤ 1 * 3e-16 := by gcongr
    refine (add_le_add a1 a4).trans (by norm_num)
  · rw [hS]
    have := abs_le.mp hd
    have := abs_le.mp hy1
    push_cast at *
    rw [abs_le]
    constructor <;> linarith

theorem cosD_err (q : ℤ) : |Real.cos (rad (q / 1000000000)) - cosD q| ≤ 2e-9 := by
  obtain ⟨k, h1, h2⟩ := degFp_close q
  have h3 := (expZ_err h2).1
  have e : Real.cos (rad (q / 1000000000)) = Real.cos (rad (q / 1000000000) - 2 * Real.pi * k) := by
    rw [show rad (q / 1000000000) - 2 * Real.pi * k = rad (q / 1000000000) - k * (2 * Real.pi) by ring,
      Real.cos_sub_int_mul_two_pi]
  have h4 := Real.abs_cos_sub_cos_le (degFp q / fpOne : ℝ) (rad (q / 1000000000) - 2 * Real.pi * k)
  have h5 := abs_le.mp (h4.trans h1)
  have h6 := abs_le.mp h3
  have hc : ((cosD q : ℚ) : ℝ) = (expZ (degFp q)).1 / fpOne := by unfold cosD fpOne; push_cast; norm_num
  rw [e, hc, abs_le]
  norm_num at *
  constructor <;> linarith

theorem sinD_err (q : ℤ) : |Real.sin (rad (q / 1000000000)) - sinD q| ≤ 2e-9 := by
  obtain ⟨k, h1, h2⟩ := degFp_close q
  have h3 := (expZ_err h2).2
  have e : Real.sin (rad (q / 1000000000)) = Real.sin (rad (q / 1000000000) - 2 * Real.pi * k) := by
    rw [show rad (q / 1000000000) - 2 * Real.pi * k = rad (q / 1000000000) - k * (2 * Real.pi) by ring,
      Real.sin_sub_int_mul_two_pi]
  have h4 := Real.abs_sin_sub_sin_le (degFp q / fpOne : ℝ) (rad (q / 1000000000) - 2 * Real.pi * k)
  have h5 := abs_le.mp (h4.trans h1)
  have h6 := abs_le.mp h3
  have hc : ((sinD q : ℚ) : ℝ) = (expZ (degFp q)).2 / fpOne := by unfold sinD fpOne; push_cast; norm_num
  rw [e, hc, abs_le]
  norm_num at *
  constructor <;> linarith

end Verif
