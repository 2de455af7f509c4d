import Verif.Proofs.FloatPos
import Verif.Proofs.Binary64

/-!
# The poles in IEEE binary64

`math.radians(90.0)` is the double 7074237752028440 / 2^52, short of a right angle by 6.1e-17.
-/

namespace Verif

theorem roundEven_eq {y : ℝ} {n : ℤ} (h : |y - n| < 1 / 2) : roundEven y = n := by
  have h1 := roundEven_err y
  have h2 : |((roundEven y - n : ℤ) : ℝ)| < 1 := by
    push_cast
    calc |(roundEven y : ℝ) - n| = |((roundEven y : ℝ) - y) + (y - n)| := by ring_nf
      _ ≤ _ := abs_add_le _ _
      _ < 1 := by linarith
  have h3 : |roundEven y - n| < 1 := by exact_mod_cast h2
  have := Int.abs_lt_one_iff.1 h3
  omega

/-- Evaluation of the rounding: the exponent from the binade, the significand as the nearest integer. -/
theorem b64_eq {x : ℝ} (e n : ℤ) (h1 : (2 : ℝ) ^ e ≤ x) (h2 : x < 2 ^ (e + 1)) (he : -1074 ≤ e - 52)
    (hn : |x / 2 ^ (e - 52) - n| < 1 / 2) : b64 x = n * 2 ^ (e - 52) := by
  have hx : 0 < x := lt_of_lt_of_le (by positivity) h1
  have hl : Int.log 2 x = e := by
    have a : e ≤ Int.log 2 x := (Int.zpow_le_iff_le_log (by norm_num) hx).1 (by exact_mod_cast h1)
    have b : Int.log 2 x < e + 1 := (Int.lt_zpow_iff_log_lt (by norm_num) hx).1 (by exact_mod_cast h2)
    omega
  have hp : lastPlace x = e - 52 := by
    rw [lastPlace, hl]
    omega
  rw [b64, if_neg hx.not_gt, b64pos, hp, roundEven_eq hn]

theorem b64_pi : b64 Real.pi = 7074237752028440 / 2 ^ 51 := by
  have h1 := Real.pi_gt_d20
  have h2 := Real.pi_lt_d20
  rw [b64_eq 1 7074237752028440 (by norm_num; linarith) (by norm_num; linarith) (by norm_num) ?_]
  · norm_num
  · rw [abs_lt]
    norm_num
    constructor <;> linarith

theorem b64_rad : b64 (7074237752028440 / 2 ^ 51 / 180) = 5030569068109113 / 2 ^ 58 := by
  rw [b64_eq (-6) 5030569068109113 (by norm_num) (by norm_num) (by norm_num) (by rw [abs_lt]; norm_num)]
  norm_num

theorem b64_ninety : b64 (90 * (5030569068109113 / 2 ^ 58)) = 7074237752028440 / 2 ^ 52 := by
  rw [b64_eq 0 7074237752028440 (by norm_num) (by norm_num) (by norm_num) (by rw [abs_lt]; norm_num)]
  norm_num

theorem b64_neg {x : ℝ} (h : 0 < x) : b64 (-x) = -b64 x := by
  rw [b64, if_pos (by linarith), b64, if_neg h.not_gt, neg_neg]

/-- The condition on `radians(90.0)` of `LatOk` holds in IEEE binary64. -/
theorem binary64_pole : PoleOk binary64 := by
  have h1 := Real.pi_gt_d20
  have e : (binary64.rnd : ℝ → ℝ) = b64 := rfl
  unfold PoleOk
  rw [e, b64_pi, b64_rad, neg_mul, b64_neg (by norm_num), b64_ninety]
  constructor <;> norm_num <;> linarith

end Verif
