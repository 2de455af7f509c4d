import Verif.Props.NonNegative
import Verif.Proofs.FloatPole

/-!
# C182: the diffuse ratio in double precision

For measured irradiances that are doubles, the diffuse one at most the global one, `diffuse_ratio` is a double from 0 to 1, equal
to 1 only if the two are equal, never falls with the diffuse irradiance, never rises with the global one, and is the exact ratio
up to one rounding.
-/

namespace Verif.Props

open Verif Verif.Spec Pysolar Pysolar.Util Chain

/-- Two doubles that differ have a quotient that keeps its distance from 1. -/
theorem double_gap {x y : ℝ} (hx : IsDouble x) (hy : IsDouble y) (h0 : 0 ≤ x) (h : x < y) : x * (1 + 1 / 2 ^ 53) ≤ y := by
  obtain ⟨n, f, hn, -, rfl⟩ := hx
  obtain ⟨m, e, hm, -, rfl⟩ := hy
  have pe : (0 : ℝ) < 2 ^ e := by positivity
  have pf : (0 : ℝ) < 2 ^ f := by positivity
  rcases le_total e f with hef | hef
  · obtain ⟨k, rfl⟩ := Int.le.dest hef
    have e1 : (2 : ℝ) ^ (e + (k : ℤ)) = 2 ^ k * 2 ^ e := by rw [zpow_add₀ (by norm_num), zpow_natCast, mul_comm]
    rw [e1] at h h0 ⊢
    have lt : n * 2 ^ k < m := by
      have : ((n * 2 ^ k : ℤ) : ℝ) < m := by
        push_cast
        have : (n : ℝ) * 2 ^ k * 2 ^ e < m * 2 ^ e := by linarith
        exact lt_of_mul_lt_mul_right this pe.le
      exact_mod_cast this
    have le : ((n : ℝ) * 2 ^ k) + 1 ≤ m := by exact_mod_cast lt
    have m53 : (m : ℝ) < 2 ^ 53 := by
      have := (abs_lt.1 hm).2
      exact_mod_cast this
    have key : (n : ℝ) * 2 ^ k * (1 + 1 / 2 ^ 53) ≤ m := by
      norm_num at *
      linarith
    calc (n : ℝ) * (2 ^ k * 2 ^ e) * (1 + 1 / 2 ^ 53) = (n : ℝ) * 2 ^ k * (1 + 1 / 2 ^ 53) * 2 ^ e := by ring
      _ ≤ (m : ℝ) * 2 ^ e := mul_le_mul_of_nonneg_right key pe.le
  · obtain ⟨k, rfl⟩ := Int.le.dest hef
    have e1 : (2 : ℝ) ^ (f + (k : ℤ)) = 2 ^ k * 2 ^ f := by rw [zpow_add₀ (by norm_num), zpow_natCast, mul_comm]
    rw [e1] at h ⊢
    have lt : n < m * 2 ^ k := by
      have : (n : ℝ) < ((m * 2 ^ k : ℤ) : ℝ) := by
        push_cast
        have : (n : ℝ) * 2 ^ f < m * 2 ^ k * 2 ^ f := by linarith
        exact lt_of_mul_lt_mul_right this pf.le
      exact_mod_cast this
    have le : (n : ℝ) + 1 ≤ (m : ℝ) * 2 ^ k := by exact_mod_cast lt
    have n53 : (n : ℝ) < 2 ^ 53 := by
      have := (abs_lt.1 hn).2
      exact_mod_cast this
    have key : (n : ℝ) * (1 + 1 / 2 ^ 53) ≤ m * 2 ^ k := by
      norm_num at *
      linarith
    calc (n : ℝ) * 2 ^ f * (1 + 1 / 2 ^ 53) = (n : ℝ) * (1 + 1 / 2 ^ 53) * 2 ^ f := by ring
      _ ≤ (m : ℝ) * 2 ^ k * 2 ^ f := mul_le_mul_of_nonneg_right key pf.le
      _ = (m : ℝ) * (2 ^ k * 2 ^ f) := by ring

/-- A number that keeps this distance from 1 is not rounded to 1. -/
theorem b64_lt_one {q : ℝ} (h : q ≤ 1 / (1 + 1 / 2 ^ 53)) : b64 q < 1 := by
  refine (b64_mono h).trans_lt ?_
  have d : IsDouble (1 - 1 / 2 ^ 53) := ⟨2 ^ 53 - 1, -53, by norm_num, by norm_num, by norm_num⟩
  have n := (b64_nearest (1 / (1 + 1 / 2 ^ 53))).2 _ d
  have a : |(1 - 1 / 2 ^ 53 : ℝ) - 1 / (1 + 1 / 2 ^ 53)| ≤ 1 / 2 ^ 100 := by
    rw [abs_le]
    constructor <;> norm_num
  have b := (abs_le.1 (n.trans a)).2
  norm_num at b ⊢
  linarith

theorem ratio_rnd {q : ℝ} (h0 : 0 ≤ q) (h1 : q ≤ 1) : V.rnd binary64 (.fin q) = .fin (b64 q) := by
  have p := abs_le.1 (b64_abs_le_one (abs_le.2 ⟨by linarith, h1⟩))
  have z : (1 : ℝ) < 2 ^ 1024 := one_lt_pow₀ (by norm_num) (by norm_num)
  have e : binary64.rnd q = b64 q := rfl
  simp only [V.rnd, e]
  generalize (2 : ℝ) ^ 1024 = K at *
  rw [if_neg (by linarith), if_neg (by linarith)]

/-- The value in both configurations. -/
theorem ratio_eval {x y : ℝ} (h0 : 0 ≤ x) (h : x ≤ y) (hy : 0 < y) :
    diffuse_ratio (rndB binary64) (.fin x) (.fin y) = .ok (.fin (b64 (x / y))) ∧
    diffuse_ratio (nprB binary64) (.fin x) (.fin y) = .ok (.fin (b64 (x / y))) := by
  have r := ratio_rnd (div_nonneg h0 hy.le) ((div_le_one hy).2 h)
  have k1 : diffuse_ratio (rndB binary64) (.fin x) (.fin y) = .ok (V.rnd binary64 (.fin (x / y))) := if_neg hy.ne'
  have k2 : diffuse_ratio (nprB binary64) (.fin x) (.fin y) = .ok (V.rnd binary64 (.fin (x / y))) := if_neg hy.ne'
  rw [r] at k1 k2
  exact ⟨k1, k2⟩

/-- C182: a fraction, 1 exactly for equal irradiances, and the exact ratio up to one rounding. -/
theorem C182_fraction (x y : ℝ) (dx : IsDouble x) (dy : IsDouble y) (h0 : 0 ≤ x) (h : x ≤ y) (hy : 0 < y) :
    ∃ r, diffuse_ratio (rndB binary64) (.fin x) (.fin y) = .ok (.fin r) ∧
      diffuse_ratio (nprB binary64) (.fin x) (.fin y) = .ok (.fin r) ∧
      IsDouble r ∧ 0 ≤ r ∧ r ≤ 1 ∧ (r = 1 ↔ x = y) ∧ |r - x / y| ≤ x / y / 2 ^ 53 + 1 / 2 ^ 1075 := by
  obtain ⟨k1, k2⟩ := ratio_eval h0 h hy
  have q0 : 0 ≤ x / y := div_nonneg h0 hy.le
  have q1 : x / y ≤ 1 := (div_le_one hy).2 h
  have one : b64 1 = 1 := by simpa using b64_int 1 (by norm_num)
  refine ⟨_, k1, k2, (b64_nearest _).1, b64_nonneg q0, (abs_le.1 (b64_abs_le_one (abs_le.2 ⟨by linarith, q1⟩))).2, ⟨fun e => ?_, fun e => ?_⟩, ?_⟩
  · by_contra hne
    have g := double_gap dx dy h0 (lt_of_le_of_ne h hne)
    refine absurd e (b64_lt_one ?_).ne
    rw [div_le_div_iff₀ hy (by positivity)]
    linarith
  · rw [e, div_self hy.ne', one]
  · have := b64_err (x / y)
    rwa [abs_of_nonneg q0] at this

/-- C182: never falls with the diffuse irradiance, never rises with the global one. -/
theorem C182_monotone (x y x' y' r r' : ℝ) (h0 : 0 ≤ x) (h : x ≤ y) (hy : 0 < y) (h' : x' ≤ y') (hy' : 0 < y') (hx : x ≤ x') (hyy : y' ≤ y) :
    (diffuse_ratio (rndB binary64) (.fin x) (.fin y) = .ok (.fin r) → diffuse_ratio (rndB binary64) (.fin x') (.fin y') = .ok (.fin r') →
      r ≤ r') ∧
    (diffuse_ratio (nprB binary64) (.fin x) (.fin y) = .ok (.fin r) → diffuse_ratio (nprB binary64) (.fin x') (.fin y') = .ok (.fin r') →
      r ≤ r') := by
  have m : b64 (x / y) ≤ b64 (x' / y') := b64_mono (div_le_div₀ (h0.trans hx) hx hy' hyy)
  obtain ⟨k1, k2⟩ := ratio_eval h0 h hy
  obtain ⟨k1', k2'⟩ := ratio_eval (h0.trans hx) h' hy'
  constructor
  · intro a b
    obtain rfl := V.fin.inj (Except.ok.inj (k1.symm.trans a))
    obtain rfl := V.fin.inj (Except.ok.inj (k1'.symm.trans b))
    exact m
  · intro a b
    obtain rfl := V.fin.inj (Except.ok.inj (k2.symm.trans a))
    obtain rfl := V.fin.inj (Except.ok.inj (k2'.symm.trans b))
    exact m

/-- Two neighbouring doubles: their ratio is reported as less than 1. -/
example : ∃ r, diffuse_ratio (rndB binary64) (.fin (2 ^ 53 - 2)) (.fin (2 ^ 53 - 1)) = .ok (.fin r) ∧ r < 1 := by
  obtain ⟨r, h1, -, -, -, h2, h3, -⟩ := C182_fraction (2 ^ 53 - 2) (2 ^ 53 - 1) ⟨2 ^ 53 - 2, 0, by norm_num, by norm_num, by norm_num⟩
    ⟨2 ^ 53 - 1, 0, by norm_num, by norm_num, by norm_num⟩ (by norm_num) (by norm_num) (by norm_num)
  exact ⟨r, h1, lt_of_le_of_ne h2 fun e => absurd (h3.1 e) (by norm_num)⟩

end Verif.Props
