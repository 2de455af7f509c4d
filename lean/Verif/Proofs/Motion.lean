import Verif.Proofs.Position

/-!
# Rate of change of the series
-/

namespace Verif

open Verif.Spec Pysolar Pysolar.Constants Real

/-- Bound of the rate of change for `|t| ≤ c`, computable. -/
def lip (c : ℚ) : List (List (ℚ × ℚ × ℚ)) → ℚ
  | [] => 0
  | row :: table => (row.map fun l => |l.1 * l.2.2|).sum + (c * lip c table + ampl c table)

theorem lip_nonneg {c : ℚ} (hc : 0 ≤ c) (table : List (List (ℚ × ℚ × ℚ))) : 0 ≤ lip c table := by
  induction table with
  | nil => exact le_refl _
  | cons row table ih =>
    have : 0 ≤ (row.map fun l => |l.1 * l.2.2|).sum := by
      apply List.sum_nonneg
      simp only [List.mem_map]
      rintro x ⟨l, -, rfl⟩
      exact abs_nonneg _
    have := ampl_nonneg hc table
    unfold lip
    positivity

theorem rowSum_cons (t : ℝ) (l : ℚ × ℚ × ℚ) (row : List (ℚ × ℚ × ℚ)) :
    rowSum t (l :: row) = (l.1 : ℝ) * cos ((l.2.1 : ℝ) + (l.2.2 : ℝ) * t) + rowSum t row := by
  simp [rowSum]

theorem rowSum_lip (s t : ℝ) (row : List (ℚ × ℚ × ℚ)) :
    |rowSum t row - rowSum s row| ≤ ((row.map fun l => |l.1 * l.2.2|).sum : ℚ) * |t - s| := by
  induction row with
  | nil => simp [rowSum]
  | cons l row ih =>
    rw [rowSum_cons, rowSum_cons, List.map_cons, List.sum_cons, Rat.cast_add, add_mul, show ∀ a b a' b' : ℝ, a + b - (a' + b') = (a - a') + (b - b') by intros; ring]
    refine (abs_add_le _ _).trans (add_le_add ?_ ih)
    rw [← mul_sub, abs_mul, Rat.cast_abs, Rat.cast_mul, abs_mul, mul_assoc]
    refine mul_le_mul_of_nonneg_left ?_ (abs_nonneg _)
    have := Real.abs_cos_sub_cos_le ((l.2.1 : ℝ) + (l.2.2 : ℝ) * t) ((l.2.1 : ℝ) + (l.2.2 : ℝ) * s)
    refine this.trans (le_of_eq ?_)
    rw [← abs_mul]
    congr 1
    ring

theorem vsop_lip {s t : ℝ} {c : ℚ} (hs : |s| ≤ c) (ht : |t| ≤ c) (table : List (List (ℚ × ℚ × ℚ))) :
    |vsop t table - vsop s table| ≤ (lip c table : ℝ) * |t - s| := by
  have hc : (0 : ℚ) ≤ c := by exact_mod_cast (abs_nonneg t).trans ht
  induction table with
  | nil => simp [vsop, lip]
  | cons row table ih =>
    rw [vsop_cons, vsop_cons, lip, Rat.cast_add, Rat.cast_add, Rat.cast_mul]
    rw [show rowSum t row + t * vsop t table - (rowSum s row + s * vsop s table)
      = (rowSum t row - rowSum s row) + (t * (vsop t table - vsop s table) + vsop s table * (t - s)) by ring,
      add_mul]
    have hl : (0 : ℝ) ≤ lip c table := by exact_mod_cast lip_nonneg hc table
    refine (abs_add_le _ _).trans (add_le_add (rowSum_lip s t row) ?_)
    rw [add_mul]
    refine (abs_add_le _ _).trans (add_le_add ?_ ?_)
    · rw [abs_mul, mul_assoc]
      exact mul_le_mul ht ih (abs_nonneg _) (by exact_mod_cast hc)
    · rw [abs_mul]
      exact mul_le_mul_of_nonneg_right ((abs_vsop_le _ _).trans (vsopBound_le hs _)) (abs_nonneg _)

/-- The longitude table without its linear term. -/
def lonRest : List (List (ℚ × ℚ × ℚ)) :=
  heliocentric_longitude_coeffs.head! :: (heliocentric_longitude_coeffs.tail.head!).tail ::
    heliocentric_longitude_coeffs.tail.tail

theorem lon_head : heliocentric_longitude_coeffs
    = heliocentric_longitude_coeffs.head! ::
      ((628331966747, 0, 0) :: (heliocentric_longitude_coeffs.tail.head!).tail) ::
        heliocentric_longitude_coeffs.tail.tail := by
  decide +kernel

theorem lon_eq (t : ℝ) : vsop t heliocentric_longitude_coeffs = 628331966747 * t + vsop t lonRest := by
  conv_lhs => rw [lon_head]
  unfold lonRest
  rw [vsop_cons, vsop_cons, rowSum_cons, vsop_cons, vsop_cons]
  simp
  ring

theorem lonRest_lip8 : lip 8 lonRest ≤ 37800000000 := by decide +kernel
theorem lonRest_lip01 : lip 0.1 lonRest ≤ 21960000000 := by decide +kernel

end Verif
