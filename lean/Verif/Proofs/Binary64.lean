import Verif.Py.Rounded
import Mathlib.Data.Int.Log
import Mathlib.Analysis.Real.Pi.Bounds

/-!
# Double precision is an instance

`b64 x` rounds to the nearest number of the form `m * 2 ^ e` with `|m| ≤ 2 ^ 53` and `e ≥ -1074`, ties to even (IEEE 754
binary64; overflow is dealt with in `V.rnd`). With correctly rounded library functions it satisfies the bounds of `F64`.
-/

namespace Verif

noncomputable section

/-- The nearest integer, ties to even. -/
def roundEven (y : ℝ) : ℤ :=
  if Int.fract y < 1 / 2 then ⌊y⌋
  else if 1 / 2 < Int.fract y then ⌊y⌋ + 1
  else if Even ⌊y⌋ then ⌊y⌋ else ⌊y⌋ + 1

theorem roundEven_err (y : ℝ) : |(roundEven y : ℝ) - y| ≤ 1 / 2 := by
  have h0 := Int.fract_nonneg y
  have h1 := Int.fract_lt_one y
  have e : (⌊y⌋ : ℝ) = y - Int.fract y := by rw [Int.fract]; ring
  unfold roundEven
  split_ifs with a b c
  · rw [e, abs_le]; constructor <;> linarith
  · push_cast; rw [e, abs_le]; constructor <;> linarith
  · rw [e, abs_le]; constructor <;> linarith
  · push_cast; rw [e, abs_le]; constructor <;> linarith

theorem roundEven_int (n : ℤ) : roundEven n = n := by
  unfold roundEven
  rw [if_pos (by simp)]
  simp

theorem roundEven_mono : Monotone roundEven := by
  intro x y h
  rcases (Int.floor_mono h).lt_or_eq with hf | hf
  · have hx : roundEven x ≤ ⌊x⌋ + 1 := by
      unfold roundEven; split_ifs <;> omega
    have hy : ⌊y⌋ ≤ roundEven y := by
      unfold roundEven; split_ifs <;> omega
    omega
  · have hfr : Int.fract x ≤ Int.fract y := by
      have : (⌊x⌋ : ℝ) = ⌊y⌋ := by exact_mod_cast hf
      rw [Int.fract, Int.fract]
      linarith
    unfold roundEven
    rw [hf]
    split_ifs <;> first | omega | (exfalso; linarith)

/-- Exponent of the last place. -/
def lastPlace (x : ℝ) : ℤ := max (Int.log 2 x - 52) (-1074)

/-- Rounding of a number that is not negative. -/
def b64pos (x : ℝ) : ℝ := roundEven (x / 2 ^ lastPlace x) * 2 ^ lastPlace x

/-- Rounding to double precision. -/
def b64 (x : ℝ) : ℝ := if x < 0 then -b64pos (-x) else b64pos x

theorem b64pos_nonneg {x : ℝ} (h : 0 ≤ x) : 0 ≤ b64pos x := by
  unfold b64pos
  have h1 : (0 : ℤ) ≤ roundEven (x / 2 ^ lastPlace x) := by
    rw [← roundEven_int 0]
    exact roundEven_mono (by push_cast; positivity)
  have : (0 : ℝ) ≤ (roundEven (x / 2 ^ lastPlace x) : ℝ) := by exact_mod_cast h1
  positivity

theorem b64pos_zero : b64pos 0 = 0 := by
  unfold b64pos
  rw [zero_div, ← Int.cast_zero, roundEven_int]
  simp

theorem b64pos_err {x : ℝ} (h : 0 ≤ x) : |b64pos x - x| ≤ x / 2 ^ 53 + 1 / 2 ^ 1075 := by
  have hp : (0 : ℝ) < 2 ^ lastPlace x := by positivity
  have h1 : |b64pos x - x| ≤ 2 ^ lastPlace x / 2 := by
    have e : b64pos x - x = ((roundEven (x / 2 ^ lastPlace x) : ℝ) - x / 2 ^ lastPlace x) * 2 ^ lastPlace x := by
      unfold b64pos
      field_simp
    rw [e, abs_mul, abs_of_pos hp]
    have := roundEven_err (x / 2 ^ lastPlace x)
    nlinarith
  rcases h.eq_or_lt with h0 | h0
  · rw [← h0, b64pos_zero, sub_zero, abs_zero, zero_div, zero_add]
    positivity
  refine h1.trans ?_
  rcases le_total (-1074) (Int.log 2 x - 52) with hm | hm
  · have e : lastPlace x = Int.log 2 x - 52 := max_eq_left hm
    have hl : (2 : ℝ) ^ Int.log 2 x ≤ x := by
      have := Int.zpow_log_le_self (b := 2) (by norm_num) h0
      exact_mod_cast this
    have e2 : (2 : ℝ) ^ lastPlace x = 2 ^ Int.log 2 x / 2 ^ 52 := by
      rw [e, zpow_sub₀ (by norm_num)]
      rfl
    rw [e2]
    have h3 : (2 : ℝ) ^ Int.log 2 x / 2 ^ 52 / 2 ≤ x / 2 ^ 53 := by
      rw [div_div, ← pow_succ]
      gcongr
    have : (0 : ℝ) ≤ 1 / 2 ^ 1075 := by positivity
    linarith
  · have e : lastPlace x = -1074 := max_eq_right hm
    rw [e]
    have h3 : (2 : ℝ) ^ (-1074 : ℤ) / 2 = 1 / 2 ^ 1075 := by
      rw [show ((2 : ℝ) ^ (-1074 : ℤ)) = 1 / 2 ^ 1074 by rw [zpow_neg, one_div]; rfl, div_div, ← pow_succ]
    rw [h3]
    have : 0 ≤ x / 2 ^ 53 := by positivity
    linarith

theorem b64_err (x : ℝ) : |b64 x - x| ≤ |x| / 2 ^ 53 + 1 / 2 ^ 1075 := by
  unfold b64
  split_ifs with h
  · have := b64pos_err (x := -x) (by linarith)
    rw [abs_of_neg h]
    rw [show -b64pos (-x) - x = -(b64pos (-x) - -x) by ring, abs_neg]
    exact this
  · rw [abs_of_nonneg (not_lt.1 h)]
    exact b64pos_err (not_lt.1 h)

theorem b64pos_mono {x y : ℝ} (hx : 0 ≤ x) (h : x ≤ y) : b64pos x ≤ b64pos y := by
  rcases hx.eq_or_lt with h0 | h0
  · rw [← h0, b64pos_zero]
    exact b64pos_nonneg (by linarith)
  have hlog : Int.log 2 x ≤ Int.log 2 y := Int.log_mono_right h0 h
  have he : lastPlace x ≤ lastPlace y := max_le_max (by omega) le_rfl
  rcases he.eq_or_lt with e | hlt
  · unfold b64pos
    rw [e]
    have hp : (0 : ℝ) < 2 ^ lastPlace y := by positivity
    have h1 : roundEven (x / 2 ^ lastPlace y) ≤ roundEven (y / 2 ^ lastPlace y) := roundEven_mono (by gcongr)
    have h2 : (roundEven (x / 2 ^ lastPlace y) : ℝ) ≤ roundEven (y / 2 ^ lastPlace y) := by exact_mod_cast h1
    gcongr
  · -- a power of two lies in between
    have hy0 : 0 < y := lt_of_lt_of_le h0 h
    have hm : -1074 < lastPlace y := lt_of_le_of_lt (le_max_right _ _) hlt
    have ey : lastPlace y = Int.log 2 y - 52 := by
      unfold lastPlace at hm ⊢
      omega
    have hxl : Int.log 2 x < Int.log 2 y := by
      by_contra hc
      push Not at hc
      have : Int.log 2 x = Int.log 2 y := le_antisymm hlog hc
      unfold lastPlace at hlt
      rw [this] at hlt
      exact lt_irrefl _ hlt
    have hx1 : x ≤ 2 ^ Int.log 2 y := by
      have h1 := Int.lt_zpow_succ_log_self (b := 2) (by norm_num) x
      have h2 : (2 : ℝ) ^ (Int.log 2 x + 1) ≤ 2 ^ Int.log 2 y := zpow_le_zpow_right₀ (by norm_num) (by omega)
      have h3 : x < (2 : ℝ) ^ (Int.log 2 x + 1) := by exact_mod_cast h1
      linarith
    have hy1 : (2 : ℝ) ^ Int.log 2 y ≤ y := by
      have := Int.zpow_log_le_self (b := 2) (by norm_num) hy0
      exact_mod_cast this
    have key : ∀ (e : ℤ), e ≤ Int.log 2 y → ((2 ^ (Int.log 2 y - e).toNat : ℤ) : ℝ) * 2 ^ e = 2 ^ Int.log 2 y := by
      intro e hle
      push_cast
      rw [← zpow_natCast, Int.toNat_of_nonneg (by omega), ← zpow_add₀ (by norm_num)]
      congr 1
      omega
    have hA : b64pos x ≤ 2 ^ Int.log 2 y := by
      have k := key (lastPlace x) (by omega)
      unfold b64pos
      have hp : (0 : ℝ) < 2 ^ lastPlace x := by positivity
      have h1 : roundEven (x / 2 ^ lastPlace x) ≤ 2 ^ (Int.log 2 y - lastPlace x).toNat := by
        rw [← roundEven_int (2 ^ (Int.log 2 y - lastPlace x).toNat)]
        refine roundEven_mono ?_
        rw [div_le_iff₀ hp, k]
        exact hx1
      have h2 : (roundEven (x / 2 ^ lastPlace x) : ℝ) ≤ ((2 ^ (Int.log 2 y - lastPlace x).toNat : ℤ) : ℝ) := by
        exact_mod_cast h1
      rw [← k]
      gcongr
    have hB : 2 ^ Int.log 2 y ≤ b64pos y := by
      have k := key (lastPlace y) (by omega)
      unfold b64pos
      have hp : (0 : ℝ) < 2 ^ lastPlace y := by positivity
      have h1 : 2 ^ (Int.log 2 y - lastPlace y).toNat ≤ roundEven (y / 2 ^ lastPlace y) := by
        rw [← roundEven_int (2 ^ (Int.log 2 y - lastPlace y).toNat)]
        refine roundEven_mono ?_
        rw [le_div_iff₀ hp, k]
        exact hy1
      have h2 : ((2 ^ (Int.log 2 y - lastPlace y).toNat : ℤ) : ℝ) ≤ (roundEven (y / 2 ^ lastPlace y) : ℝ) := by
        exact_mod_cast h1
      rw [← k]
      gcongr
    exact hA.trans hB

theorem b64_mono : Monotone b64 := by
  intro x y h
  unfold b64
  split_ifs with a b b
  · exact neg_le_neg (b64pos_mono (by linarith) (by linarith))
  · have h1 := b64pos_nonneg (x := -x) (by linarith)
    have h2 := b64pos_nonneg (x := y) (by linarith)
    linarith
  · exact absurd (lt_of_le_of_lt h b) a
  · exact b64pos_mono (by linarith) h

theorem b64pos_nat (n : ℕ) (h : n ≤ 2 ^ 53) : b64pos n = n := by
  rcases Nat.eq_zero_or_pos n with h0 | h0
  · subst h0; simpa using b64pos_zero
  -- the scaled number is an integer
  have hint : ∃ m : ℤ, (n : ℝ) / 2 ^ lastPlace n = m := by
    rcases h.lt_or_eq with hl | hl
    · have hlog : Int.log 2 (n : ℝ) ≤ 52 := by
        rw [Int.log_natCast]
        have : Nat.log 2 n < 53 := Nat.log_lt_of_lt_pow (by omega) hl
        exact_mod_cast Nat.lt_succ_iff.1 this
      have he : lastPlace (n : ℝ) ≤ 0 := max_le (by omega) (by norm_num)
      refine ⟨n * 2 ^ (-lastPlace (n : ℝ)).toNat, ?_⟩
      push_cast
      rw [← zpow_natCast, Int.toNat_of_nonneg (by omega), zpow_neg]
      rfl
    · have hlog : Int.log 2 (n : ℝ) = 53 := by
        rw [Int.log_natCast, hl, Nat.log_pow (by norm_num)]
        rfl
      have he : lastPlace (n : ℝ) = 1 := by unfold lastPlace; rw [hlog]; norm_num
      refine ⟨2 ^ 52, ?_⟩
      rw [he, hl]
      norm_num
  obtain ⟨m, hm⟩ := hint
  unfold b64pos
  rw [hm, roundEven_int, ← hm]
  field_simp

theorem b64_int (n : ℤ) (h : |n| ≤ 2 ^ 53) : b64 n = n := by
  have h' := abs_le.1 h
  unfold b64
  split_ifs with hn
  · have hn' : n < 0 := by exact_mod_cast hn
    have e : (-(n : ℝ)) = ((-n).toNat : ℝ) := by
      have : ((-n).toNat : ℤ) = -n := Int.toNat_of_nonneg (by omega)
      have h2 : (((-n).toNat : ℤ) : ℝ) = ((-n : ℤ) : ℝ) := by rw [this]
      push_cast at h2
      linarith
    rw [e, b64pos_nat _ (by omega), ← e]
    ring
  · have hn' : 0 ≤ n := by
      by_contra hc
      push Not at hc
      exact hn (by exact_mod_cast hc)
    have e : (n : ℝ) = (n.toNat : ℝ) := by
      have : (n.toNat : ℤ) = n := Int.toNat_of_nonneg hn'
      have h2 : ((n.toNat : ℤ) : ℝ) = ((n : ℤ) : ℝ) := by rw [this]
      push_cast at h2
      linarith
    rw [e, b64pos_nat _ (by omega)]

theorem b64_close {x M : ℝ} {n : ℕ} (h : |x| ≤ M) (hM : M / 2 ^ 53 ≤ 1 / 2 ^ (n + 1)) (hn : n + 1 ≤ 1075) :
    |b64 x - x| ≤ 1 / 2 ^ n := by
  have h1 := b64_err x
  have h2 : |x| / 2 ^ 53 ≤ M / 2 ^ 53 := by gcongr
  have h3 : (1 : ℝ) / 2 ^ 1075 ≤ 1 / 2 ^ (n + 1) :=
    one_div_le_one_div_of_le (by positivity) (pow_le_pow_right₀ (by norm_num) hn)
  have h4 : (1 : ℝ) / 2 ^ n = 1 / 2 ^ (n + 1) + 1 / 2 ^ (n + 1) := by rw [pow_succ]; field_simp; norm_num
  linarith

theorem b64_rel (x : ℝ) : |b64 x - x| ≤ |x| / 2 ^ 51 + 1 / 2 ^ 1074 := by
  refine (b64_err x).trans (add_le_add ?_ ?_)
  · exact div_le_div_of_nonneg_left (abs_nonneg _) (by norm_num) (by norm_num)
  · exact one_div_le_one_div_of_le (by positivity) (pow_le_pow_right₀ (by norm_num) (by norm_num))

theorem b64_abs_le_one {x : ℝ} (h : |x| ≤ 1) : |b64 x| ≤ 1 := by
  have h' := abs_le.1 h
  have e1 : b64 1 = 1 := by simpa using b64_int 1 (by norm_num)
  have e2 : b64 (-1) = -1 := by simpa using b64_int (-1) (by norm_num)
  have h1 := b64_mono h'.1
  have h2 := b64_mono h'.2
  rw [e2] at h1
  rw [e1] at h2
  exact abs_le.2 ⟨h1, h2⟩

/-- IEEE double precision with correctly rounded library functions. (No double is a pole of the tangent.) -/
def binary64 : F64 where
  rnd := b64
  rnd_mono := b64_mono
  rnd_err := b64_err
  rnd_int := b64_int
  sin x := b64 (Real.sin x)
  cos x := b64 (Real.cos x)
  tan x := if Real.cos x = 0 then 2 ^ 54 else b64 (Real.tan x)
  asin x := b64 (Real.arcsin x)
  acos x := b64 (Real.arccos x)
  atan x := b64 (Real.arctan x)
  atan2 y x := b64 (Complex.arg ⟨x, y⟩)
  exp x := b64 (Real.exp x)
  pow x y := b64 (x ^ y)
  sin_err x := b64_close (Real.abs_sin_le_one x) (by norm_num) (by norm_num)
  cos_err x := b64_close (Real.abs_cos_le_one x) (by norm_num) (by norm_num)
  sin_le x := b64_abs_le_one (Real.abs_sin_le_one x)
  cos_le x := b64_abs_le_one (Real.abs_cos_le_one x)
  tan_err x h := by
    rw [if_neg h]
    exact b64_rel _
  tan_pole x h := by
    rw [if_pos h]
    norm_num
  asin_err x _ := by
    refine b64_close (M := 2) ?_ (by norm_num) (by norm_num)
    have h1 := Real.arcsin_le_pi_div_two x
    have h2 := Real.neg_pi_div_two_le_arcsin x
    have h3 := Real.pi_le_four
    rw [abs_le]
    constructor <;> linarith
  acos_err x _ := by
    refine b64_close (M := 4) ?_ (by norm_num) (by norm_num)
    have h1 := Real.arccos_le_pi x
    have h2 := Real.arccos_nonneg x
    have h3 := Real.pi_le_four
    rw [abs_le]
    constructor <;> linarith
  atan_err x := by
    refine b64_close (M := 2) ?_ (by norm_num) (by norm_num)
    have h1 := (Real.arctan_lt_pi_div_two x).le
    have h2 := (Real.neg_pi_div_two_lt_arctan x).le
    have h3 := Real.pi_le_four
    rw [abs_le]
    constructor <;> linarith
  atan2_err y x := by
    refine b64_close (M := 4) ?_ (by norm_num) (by norm_num)
    exact (Complex.abs_arg_le_pi _).trans Real.pi_le_four
  exp_err x := by
    have := b64_rel (Real.exp x)
    rwa [abs_of_pos (Real.exp_pos x)] at this
  pow_err x y hx := by
    have := b64_rel (x ^ y)
    rwa [abs_of_pos (Real.rpow_pos_of_pos hx y)] at this
  powN_err x n := by
    have := b64_rel (x ^ n)
    rw [abs_pow] at this
    rw [Real.rpow_natCast]
    exact this

/-- The value of an IEEE double (with unbounded exponent). -/
def IsDouble (v : ℝ) : Prop := ∃ m e : ℤ, |m| < 2 ^ 53 ∧ -1074 ≤ e ∧ v = m * 2 ^ e

theorem roundEven_nearest (y : ℝ) (n : ℤ) : |(roundEven y : ℝ) - y| ≤ |(n : ℝ) - y| := by
  by_cases h : n = roundEven y
  · rw [h]
  · have h1 := roundEven_err y
    have h2 : (1 : ℝ) ≤ |(n : ℝ) - roundEven y| := by
      have : (1 : ℤ) ≤ |n - roundEven y| := Int.one_le_abs (sub_ne_zero.2 h)
      exact_mod_cast this
    have h3 := abs_sub_abs_le_abs_sub ((n : ℝ) - roundEven y) (y - roundEven y)
    rw [show (n : ℝ) - roundEven y - (y - roundEven y) = n - y by ring, abs_sub_comm y] at h3
    linarith

/-- `b64pos` picks a nearest double. -/
theorem b64pos_nearest {x : ℝ} (h : 0 < x) {v : ℝ} (hv : IsDouble v) : |b64pos x - x| ≤ |v - x| := by
  obtain ⟨m, f, hm, hf, rfl⟩ := hv
  have hp : (0 : ℝ) < 2 ^ lastPlace x := by positivity
  have hb : ∀ n : ℤ, |b64pos x - x| ≤ |n * 2 ^ lastPlace x - x| := by
    intro n
    have e : ∀ t : ℝ, t * 2 ^ lastPlace x - x = (t - x / 2 ^ lastPlace x) * 2 ^ lastPlace x := by
      intro t; field_simp
    unfold b64pos
    rw [e, e, abs_mul, abs_mul, abs_of_pos hp]
    exact mul_le_mul_of_nonneg_right (roundEven_nearest _ _) hp.le
  rcases le_or_gt (lastPlace x) f with hle | hlt
  · refine (hb (m * 2 ^ (f - lastPlace x).toNat)).trans (le_of_eq ?_)
    congr 2
    push_cast
    rw [← zpow_natCast, Int.toNat_of_nonneg (by omega), mul_assoc, ← zpow_add₀ (by norm_num)]
    congr 2
    omega
  · have hL : lastPlace x = Int.log 2 x - 52 := by unfold lastPlace at hlt ⊢; omega
    have hx1 : (2 : ℝ) ^ Int.log 2 x ≤ x := by
      have := Int.zpow_log_le_self (b := 2) (by norm_num) h
      exact_mod_cast this
    have e1 : (((2 : ℤ) ^ 52 : ℤ) : ℝ) * 2 ^ lastPlace x = 2 ^ Int.log 2 x := by
      rw [show (((2 : ℤ) ^ 52 : ℤ) : ℝ) = (2 : ℝ) ^ (52 : ℤ) by norm_num, ← zpow_add₀ (by norm_num), hL]
      congr 1
      ring
    have h1 := hb (2 ^ 52)
    rw [e1] at h1
    refine h1.trans ?_
    have h2 : (m : ℝ) * 2 ^ f ≤ 2 ^ Int.log 2 x := by
      have h3 : (m : ℝ) ≤ 2 ^ 53 := by
        have := (le_abs_self m).trans hm.le
        exact_mod_cast this
      calc (m : ℝ) * 2 ^ f ≤ 2 ^ 53 * 2 ^ f := by gcongr
        _ = 2 ^ (53 + f) := by rw [zpow_add₀ (by norm_num)]; rfl
        _ ≤ _ := zpow_le_zpow_right₀ (by norm_num) (by omega)
    rw [abs_sub_comm, abs_of_nonneg (by linarith), abs_sub_comm, abs_of_nonneg (by linarith)]
    linarith

/-- `b64pos` is a double. -/
theorem b64pos_double {x : ℝ} (h : 0 < x) : IsDouble (b64pos x) := by
  have hp : (0 : ℝ) < 2 ^ lastPlace x := by positivity
  set n := roundEven (x / 2 ^ lastPlace x) with hn
  have hup : x / 2 ^ lastPlace x ≤ ((2 ^ 53 : ℤ) : ℝ) := by
    rw [div_le_iff₀ hp]
    have h1 := Int.lt_zpow_succ_log_self (b := 2) (by norm_num) x
    have h3 : x < (2 : ℝ) ^ (Int.log 2 x + 1) := by exact_mod_cast h1
    refine h3.le.trans ?_
    rw [show ((2 ^ 53 : ℤ) : ℝ) = (2 : ℝ) ^ (53 : ℤ) by norm_num, ← zpow_add₀ (by norm_num)]
    refine zpow_le_zpow_right₀ (by norm_num) ?_
    have := le_max_left (Int.log 2 x - 52) (-1074)
    unfold lastPlace
    omega
  have hn53 : n ≤ 2 ^ 53 := by
    rw [hn, ← roundEven_int (2 ^ 53)]
    exact roundEven_mono hup
  have hn0 : 0 ≤ n := by
    rw [hn, ← roundEven_int 0]
    exact roundEven_mono (by push_cast; positivity)
  have hge : -1074 ≤ lastPlace x := le_max_right _ _
  rcases hn53.lt_or_eq with hl | hl
  · exact ⟨n, lastPlace x, by rw [abs_of_nonneg hn0]; exact hl, hge, rfl⟩
  · refine ⟨2 ^ 52, lastPlace x + 1, by norm_num, by omega, ?_⟩
    have : b64pos x = (n : ℝ) * 2 ^ lastPlace x := rfl
    rw [this, hl, zpow_add₀ (by norm_num)]
    push_cast
    ring

theorem IsDouble.neg {v : ℝ} (h : IsDouble v) : IsDouble (-v) := by
  obtain ⟨m, e, h1, h2, rfl⟩ := h
  exact ⟨-m, e, by rwa [abs_neg], h2, by push_cast; ring⟩

/-- `b64` rounds to a nearest double. -/
theorem b64_nearest (x : ℝ) : IsDouble (b64 x) ∧ ∀ v, IsDouble v → |b64 x - x| ≤ |v - x| := by
  unfold b64
  split_ifs with h
  · have h' : 0 < -x := by linarith
    refine ⟨(b64pos_double h').neg, fun v hv => ?_⟩
    have := b64pos_nearest h' hv.neg
    rw [show -b64pos (-x) - x = -(b64pos (-x) - -x) by ring, abs_neg]
    rwa [show -v - -x = -(v - x) by ring, abs_neg] at this
  · rcases (not_lt.1 h).eq_or_lt with h0 | h0
    · rw [← h0, b64pos_zero]
      exact ⟨⟨0, 0, by norm_num, by norm_num, by norm_num⟩, fun v _ => by simp⟩
    · exact ⟨b64pos_double h0, fun v hv => b64pos_nearest h0 hv⟩

end

end Verif
