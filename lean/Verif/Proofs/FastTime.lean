import Verif.Proofs.FastEval
import Verif.Props.Accuracy
import Verif.Proofs.Motion
import Mathlib.Analysis.Real.Pi.Bounds

/-!
# The sun's mean longitude by day of the year

The years 1901 to 2099, in which every fourth year is a leap year.
-/

namespace Verif

open Verif.Spec Pysolar Pysolar.Solar Pysolar.Constants Pysolar.Solartime Real

/-- UT1 - UTC as computed from the two tables stays below 3 seconds at all times. -/
theorem ut_small {Y M : ℤ} (h1 : 1 ≤ M) (h2 : M ≤ 12) :
    -3 ≤ (taiMinusUtc Y M : ℚ) + 32.184 - dtVal Y M ∧ (taiMinusUtc Y M : ℚ) + 32.184 - dtVal Y M ≤ 3 := by
  have hb := taiMinusUtc_bounds Y M
  rcases lt_or_ge Y 1973 with hY | hY
  · have hm := taiMinusUtc_mono (Y := Y) (M := M) (Y' := 1972) (M' := 12) h1 h2 (by norm_num) (by norm_num)
      (by unfold monthIndex; omega)
    have e : taiMinusUtc 1972 12 = 11 := by decide +kernel
    have e2 : dtVal Y M = 43.4724 := by
      unfold dtVal dtClamp
      rw [if_pos hY]
      decide +kernel
    have b1 : (10 : ℚ) ≤ taiMinusUtc Y M := by exact_mod_cast hb.1
    have b2 : (taiMinusUtc Y M : ℚ) ≤ 11 := by exact_mod_cast e ▸ hm
    rw [e2]
    norm_num
    constructor <;> linarith
  · rcases lt_or_ge Y 2017 with hY2 | hY2
    · have key : ∀ i : Fin 44, ∀ j : Fin 12,
          -3 ≤ (taiMinusUtc (1973 + i.1) (1 + j.1) : ℚ) + 32.184 - dtVal (1973 + i.1) (1 + j.1) ∧
            (taiMinusUtc (1973 + i.1) (1 + j.1) : ℚ) + 32.184 - dtVal (1973 + i.1) (1 + j.1) ≤ 3 := by
        decide +kernel
      have := key ⟨(Y - 1973).toNat, by omega⟩ ⟨(M - 1).toNat, by omega⟩
      simp only [Int.toNat_of_nonneg (show 0 ≤ Y - 1973 by omega), Int.toNat_of_nonneg (show 0 ≤ M - 1 by omega),
        show 1973 + (Y - 1973) = Y by ring, show 1 + (M - 1) = M by ring] at this
      exact this
    · have hm := taiMinusUtc_mono (Y := 2017) (M := 1) (Y' := Y) (M' := M) (by norm_num) (by norm_num) h1 h2
        (by unfold monthIndex; omega)
      have e : taiMinusUtc 2017 1 = 37 := by decide +kernel
      have e1 : taiMinusUtc Y M = 37 := by omega
      have e2 : dtVal Y M = dtVal 2014 M := by
        unfold dtVal dtClamp
        rw [if_neg (by omega), if_neg (by omega), if_neg (by omega)]
        rfl
      have key : ∀ j : Fin 12, -3 ≤ (37 : ℚ) + 32.184 - dtVal 2014 (1 + j.1) ∧
          (37 : ℚ) + 32.184 - dtVal 2014 (1 + j.1) ≤ 3 := by decide +kernel
      have := key ⟨(M - 1).toNat, by omega⟩
      simp only [Int.toNat_of_nonneg (show 0 ≤ M - 1 by omega), show 1 + (M - 1) = M by ring] at this
      rw [e1, e2]
      exact_mod_cast this

/-- The Julian days by year and day of the year: `N` whole days, `y = year - 2000`. -/
theorem days_of_year {c : Civil} (h : c.Valid) (h1 : 1901 ≤ c.year) (h2 : c.year ≤ 2099) :
    ∃ (N r : ℤ) (f η η' : ℝ), 0 ≤ r ∧ r ≤ 3 ∧ 4 * N = 1461 * (c.year - 2000) + r ∧
      360 * f = ((c.hour : ℝ) * 60 + c.minute) / 4 + ((c.second : ℝ) + (c.micro : ℝ) / 1000000) / 240 ∧
      0 ≤ f ∧ f ≤ 1 ∧ |η| ≤ 3 / 86400 ∧ 0 ≤ η' ∧ η' ≤ 70 / 86400 ∧
      jdOf c - 2451545 = N + yday c.date + f - 1.5 + η ∧
      jdeOf c - 2451545 = N + yday c.date + f - 1.5 + η' := by
  obtain ⟨hy1, hy2, hv⟩ := h
  obtain ⟨hd, a1, a2, a3, a4, a5, a6, a7, a8⟩ := hv
  have ho := ymd2ord_eq c.date
  have hu := ut_small (Y := c.year) (M := c.month) hd.1 hd.2.1
  have hb := taiMinusUtc_bounds c.year c.month
  refine ⟨daysBeforeYear c.year - 730119, 4 * (daysBeforeYear c.year - 730119) - 1461 * (c.year - 2000),
    ((c.hour * 3600 + c.minute * 60 + c.second : ℤ) + (c.micro : ℝ) / 1000000) / 86400,
    ((taiMinusUtc c.year c.month : ℚ) + 32.184 - dtVal c.year c.month : ℚ) / 86400,
    ((taiMinusUtc c.year c.month : ℝ) + 32.184) / 86400, ?_, ?_, by ring, ?_, ?_, ?_, ?_, ?_, ?_, ?_, ?_⟩
  · unfold daysBeforeYear; omega
  · unfold daysBeforeYear; omega
  · push_cast; ring
  · have : (0 : ℝ) ≤ ((c.hour * 3600 + c.minute * 60 + c.second : ℤ) : ℝ) := by
      exact_mod_cast (by omega : 0 ≤ c.hour * 3600 + c.minute * 60 + c.second)
    have : (0 : ℝ) ≤ (c.micro : ℝ) := by exact_mod_cast a7
    positivity
  · have e1 : ((c.hour * 3600 + c.minute * 60 + c.second : ℤ) : ℝ) ≤ 86399 := by
      exact_mod_cast (by omega : c.hour * 3600 + c.minute * 60 + c.second ≤ 86399)
    have e2 : (c.micro : ℝ) ≤ 1000000 := by exact_mod_cast (by omega : c.micro ≤ 1000000)
    rw [div_le_iff₀ (by norm_num)]
    linarith
  · rw [abs_div, abs_of_pos (by norm_num : (0 : ℝ) < 86400)]
    gcongr
    rw [← Rat.cast_abs]
    exact_mod_cast abs_le.mpr hu
  · have : (10 : ℝ) ≤ taiMinusUtc c.year c.month := by exact_mod_cast hb.1
    positivity
  · have : (taiMinusUtc c.year c.month : ℝ) ≤ 37 := by exact_mod_cast hb.2
    gcongr
    linarith
  · unfold jdOf Civil.micros epochMicros usPerDay
    have ho' : ymd2ord c.year c.month c.day = daysBeforeYear c.year + yday c.date := ho
    rw [ho']
    push_cast
    ring
  · unfold jdeOf Civil.micros epochMicros usPerDay
    have ho' : ymd2ord c.year c.month c.day = daysBeforeYear c.year + yday c.date := ho
    rw [ho']
    push_cast
    ring

end Verif
