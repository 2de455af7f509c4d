import Verif.Model.ElevationTest
import Verif.Props.FloatElevation
import Verif.Proofs.Binary64

/-!
# C128: the table printed by `elevation_test`
-/

namespace Verif.Props

open Verif.Spec Verif.Chain Pysolar Pysolar.Elevation Pysolar.Constants

/-- `"%i" % x` for a float: the integral part; infinities and nan raise. -/
noncomputable def pctI : V → Py ℤ
  | .fin x => .ok (truncR x)
  | .nan => .error .valueError
  | _ => .error .overflow

theorem pctI_fin {x : ℝ} {n : ℤ} (h0 : 0 ≤ n) (h1 : (n : ℝ) ≤ x) (h2 : x < n + 1) : pctI (.fin x) = .ok n := by
  have hx : 0 ≤ x := le_trans (by exact_mod_cast h0) h1
  show Except.ok (truncR x) = _
  unfold truncR
  rw [if_pos hx, Int.floor_eq_iff.2 ⟨h1, h2⟩]

/-- A power enclosed by comparing integers. -/
theorem power_between {a b N D : ℕ} {k : ℝ} (ha : 0 < a) (hab : a ≤ b) (hk1 : (2013 / 383 : ℝ) ≤ k) (hk2 : k ≤ 7826 / 1489) (hD : 0 < D)
    (h1 : (N * D + 1) ^ 1489 * b ^ 7826 ≤ (101325 * D) ^ 1489 * a ^ 7826)
    (h2 : (101325 * D) ^ 383 * a ^ 2013 ≤ (N * D + D - 1) ^ 383 * b ^ 2013) :
    (N : ℝ) + 1 / D ≤ 101325 * ((a : ℝ) / b) ^ k ∧ 101325 * ((a : ℝ) / b) ^ k ≤ N + 1 - 1 / D := by
  have ha' : (0 : ℝ) < a := by exact_mod_cast ha
  have hb' : (0 : ℝ) < b := by exact_mod_cast lt_of_lt_of_le ha hab
  have hD' : (0 : ℝ) < D := by exact_mod_cast hD
  have hx : 0 < (a : ℝ) / b := div_pos ha' hb'
  have hx1 : (a : ℝ) / b ≤ 1 := by rw [div_le_one hb']; exact_mod_cast hab
  have key : ∀ (p q : ℕ), 0 < q → ((((a : ℝ) / b) ^ ((p : ℝ) / q)) ^ q = ((a : ℝ) / b) ^ p) := by
    intro p q hq
    rw [← Real.rpow_natCast, ← Real.rpow_mul hx.le, div_mul_cancel₀ _ (by exact_mod_cast hq.ne'), Real.rpow_natCast]
  constructor
  · have e1 : ((a : ℝ) / b) ^ ((7826 : ℕ) / (1489 : ℕ) : ℝ) ≤ ((a : ℝ) / b) ^ k :=
      Real.rpow_le_rpow_of_exponent_ge hx hx1 (by push_cast; exact hk2)
    refine le_trans ?_ (mul_le_mul_of_nonneg_left e1 (by norm_num))
    refine le_of_pow_le_pow_left₀ (n := 1489) (by norm_num) (by positivity) ?_
    rw [mul_pow, key 7826 1489 (by norm_num), div_pow]
    have h1' : (((N : ℝ) * D + 1) ^ 1489 * (b : ℝ) ^ 7826 ≤ (101325 * D) ^ 1489 * (a : ℝ) ^ 7826) := by exact_mod_cast h1
    have e2 : (N : ℝ) + 1 / D = (N * D + 1) / D := by field_simp
    rw [e2, div_pow, div_le_iff₀ (pow_pos hD' _), ← mul_div_assoc, div_mul_eq_mul_div, le_div_iff₀ (pow_pos hb' _)]
    refine h1'.trans (le_of_eq ?_)
    rw [mul_pow]
    exact mul_right_comm _ _ _
  · have e1 : ((a : ℝ) / b) ^ k ≤ ((a : ℝ) / b) ^ ((2013 : ℕ) / (383 : ℕ) : ℝ) :=
      Real.rpow_le_rpow_of_exponent_ge hx hx1 (by push_cast; exact hk1)
    refine le_trans (mul_le_mul_of_nonneg_left e1 (by norm_num)) ?_
    have hD1 : (1 : ℝ) ≤ D := by exact_mod_cast hD
    have e2 : (N : ℝ) + 1 - 1 / D = (N * D + D - 1) / D := by field_simp
    have e3 : 0 ≤ (N : ℝ) * D + D - 1 := by nlinarith [Nat.cast_nonneg (α := ℝ) N]
    refine le_of_pow_le_pow_left₀ (n := 383) (by norm_num) (by rw [e2]; positivity) ?_
    rw [mul_pow, key 2013 383 (by norm_num), div_pow]
    have h2' : ((101325 * D : ℝ) ^ 383 * (a : ℝ) ^ 2013 ≤ ((N : ℝ) * D + D - 1) ^ 383 * (b : ℝ) ^ 2013) := by
      have : ((N * D + D - 1 : ℕ) : ℝ) = (N : ℝ) * D + D - 1 := by
        rw [Nat.cast_sub (by omega)]
        push_cast
        ring
      rw [← this]
      exact_mod_cast h2
    rw [e2, div_pow, le_div_iff₀ (pow_pos hD' _), ← mul_div_assoc, div_mul_eq_mul_div, div_le_iff₀ (pow_pos hb' _)]
    refine le_trans (le_of_eq ?_) h2'
    rw [mul_pow]
    exact mul_right_comm _ _ _

/-- The pressure printed at `1000 i` metres. -/
def pascals : List ℕ := [101325, 89874, 79495, 70108, 61640, 54019, 47181, 41060, 35599, 30742, 26436]

set_option maxRecDepth 100000 in
set_option exponentiation.threshold 10000 in
theorem table_checked : ((List.range 10).all fun j =>
    decide ((pascals.getD (j + 1) 0 * 10 ^ 8 + 1) ^ 1489 * 5763 ^ 7826 ≤ (101325 * 10 ^ 8) ^ 1489 * (5763 - 130 * (j + 1)) ^ 7826) &&
    decide ((101325 * 10 ^ 8) ^ 383 * (5763 - 130 * (j + 1)) ^ 2013 ≤ (pascals.getD (j + 1) 0 * 10 ^ 8 + 10 ^ 8 - 1) ^ 383 * 5763 ^ 2013)) = true := by
  decide +kernel

theorem table_row {i : ℕ} (h1 : 1 ≤ i) (h2 : i ≤ 10) {k : ℝ} (hk : k = 9.80665 * 0.0289644 / (8.31432 * 0.0065)) :
    (pascals.getD i 0 : ℝ) + 1 / 10 ^ 8 ≤ 101325 * ((288.15 - 0.0065 * (1000 * i)) / 288.15) ^ k ∧
    101325 * ((288.15 - 0.0065 * (1000 * (i : ℝ))) / 288.15) ^ k ≤ pascals.getD i 0 + 1 - 1 / 10 ^ 8 := by
  obtain ⟨j, rfl⟩ : ∃ j, i = j + 1 := ⟨i - 1, by omega⟩
  have h := List.all_eq_true.1 table_checked j (List.mem_range.2 (by omega))
  rw [Bool.and_eq_true, decide_eq_true_iff, decide_eq_true_iff] at h
  have e : (288.15 - 0.0065 * (1000 * ((j + 1 : ℕ) : ℝ))) / 288.15 = ((5763 - 130 * (j + 1) : ℕ) : ℝ) / (5763 : ℕ) := by
    rw [Nat.cast_sub (by omega)]
    push_cast
    rw [div_eq_div_iff (by norm_num) (by norm_num)]
    ring
  have := power_between (k := k) (D := 10 ^ 8) (by omega) (by omega) (by rw [hk]; norm_num) (by rw [hk]; norm_num) (by norm_num) h.1 h.2
  rw [show ((10 ^ 8 : ℕ) : ℝ) = 10 ^ 8 by norm_num] at this
  rw [e]
  exact this

/-- The temperature printed at `1000 i` metres. -/
def kelvins : List ℕ := [288, 281, 275, 268, 262, 255, 249, 242, 236, 229, 223]

theorem kelvin_row {i : ℕ} (h : i ≤ 10) :
    (kelvins.getD i 0 : ℝ) + 1 / 10 ≤ 288.15 - 0.0065 * (1000 * i) ∧
      288.15 - 0.0065 * (1000 * (i : ℝ)) ≤ kelvins.getD i 0 + 1 - 1 / 10 := by
  interval_cases i <;> norm_num [kelvins]

/-- The table. -/
def elevationTable : List String :=
  ["Elevation(m) Pressure(Pa) Temperature(K)", "0 101325 288", "1000 89874 281", "2000 79495 275", "3000 70108 268", "4000 61640 262",
    "5000 54019 255", "6000 47181 249", "7000 41060 242", "8000 35599 236", "9000 30742 229", "10000 26436 223"]

theorem run_of_steps {B : Backend} {toInt : B.α → Py ℤ}
    (h : ∀ i : ℕ, i ≤ 10 → elevationTestStep B toInt (1000 * i) = .ok (elevationLine (1000 * i) (pascals.getD i 0) (kelvins.getD i 0))) :
    elevation_test B toInt = ⟨elevationTable, none⟩ := by
  have h0 := h 0 (by norm_num)
  have h1 := h 1 (by norm_num)
  have h2 := h 2 (by norm_num)
  have h3 := h 3 (by norm_num)
  have h4 := h 4 (by norm_num)
  have h5 := h 5 (by norm_num)
  have h6 := h 6 (by norm_num)
  have h7 := h 7 (by norm_num)
  have h8 := h 8 (by norm_num)
  have h9 := h 9 (by norm_num)
  have h10 := h 10 (by norm_num)
  norm_num at h0 h1 h2 h3 h4 h5 h6 h7 h8 h9 h10
  unfold elevation_test
  simp only [elevationTestLoop]
  norm_num
  rw [h0, h1, h2, h3, h4, h5, h6, h7, h8, h9, h10]
  show TestRun.mk _ _ = _
  congr 1

theorem lit_exact (tp : ℝ) (i : ℕ) : (mathB tp).lit ((1000 * i : ℤ) : ℚ) = num (1000 * i) := by
  show V.fin _ = V.fin _
  push_cast
  rfl

theorem lit_double (F : F64) {i : ℕ} (h : i ≤ 10) : (rndB F).lit ((1000 * i : ℤ) : ℚ) = V.fin (1000 * i) := by
  show V.fin (F.rnd _) = _
  have := F.rnd_int (1000 * i) (by rw [abs_of_nonneg (by positivity)]; norm_num; omega)
  push_cast at this ⊢
  rw [this]

theorem step_of {B : Backend} {toInt : B.α → Py ℤ} {h n m : ℤ} {P T : B.α} (hP : get_pressure_with_elevation B (B.lit h) = .ok P)
    (hT : get_temperature_with_elevation B (B.lit h) = T) (hn : toInt P = .ok n) (hm : toInt T = .ok m) :
    elevationTestStep B toInt h = .ok (elevationLine h n m) := by
  unfold elevationTestStep
  rw [hP, hT]
  simp only [ok_bind, hn, hm, pure_eq_ok]

/-- C128, exact reals. -/
theorem C128_exact (tp : ℝ) : elevation_test (mathB tp) pctI = ⟨elevationTable, none⟩ := by
  refine run_of_steps fun i hi => ?_
  obtain ⟨⟨k, hP, hk, -⟩, hT⟩ := C116_standard_atmosphere tp (1000 * i) (by
    have : (i : ℝ) ≤ 10 := by exact_mod_cast hi
    linarith)
  rw [← lit_exact] at hP hT
  refine step_of hP hT ?_ ?_
  · rcases Nat.eq_zero_or_pos i with rfl | h0
    · refine pctI_fin (by norm_num) ?_ ?_ <;> norm_num [pascals]
    · obtain ⟨a, b⟩ := table_row h0 hi hk
      have h8 : (0 : ℝ) < 1 / 10 ^ 8 := by norm_num
      refine pctI_fin (by positivity) ?_ ?_ <;> rw [Int.cast_natCast] <;> linarith
  · obtain ⟨a, b⟩ := kelvin_row hi
    refine pctI_fin (by positivity) ?_ ?_ <;> rw [Int.cast_natCast] <;> linarith

/-- Rounding twice is rounding once, and `pow(1.0, y)` is exact: as in IEEE arithmetic and C. -/
structure ExactAtOne (F : F64) : Prop where
  rnd_rnd : ∀ x, F.rnd (F.rnd x) = F.rnd x
  pow_one : ∀ y, F.pow 1 y = 1

theorem pressure_zero {F : F64} (hF : ExactAtOne F) : get_pressure_with_elevation (rndB F) (V.fin 0) = .ok (V.fin 101325) := by
  obtain ⟨k', k, hk, -⟩ := ball_unary powE_sim powE_ok F 0 (elevB_rel (h := 0) (by norm_num) (by norm_num))
  have hn : ∀ n : ℤ, |n| ≤ 2 ^ 53 → F.rnd n = n := F.rnd_int
  have r0 : F.rnd 0 = 0 := by simpa using hn 0 (by norm_num)
  have r1 : F.rnd 1 = 1 := by simpa using hn 1 (by norm_num)
  have rP : F.rnd 101325 = 101325 := by simpa using hn 101325 (by norm_num)
  have t1 : 288 ≤ F.rnd 288.15 := by
    have := F.rnd_mono (show (288 : ℝ) ≤ 288.15 by norm_num)
    rwa [show F.rnd 288 = 288 by simpa using hn 288 (by norm_num)] at this
  have t2 : F.rnd 288.15 ≤ 289 := by
    have := F.rnd_mono (show (288.15 : ℝ) ≤ 289 by norm_num)
    rwa [show F.rnd 289 = 289 by simpa using hn 289 (by norm_num)] at this
  have hq : ratioE (rndB F) (flt F 0) = .ok (flt F 1) := by
    have s1 : flt F 0 - (0.0 : (rndB F).α) = flt F 0 := by
      show V.rnd F (V.fin (0 - F.rnd ((0.0 : ℚ) : ℝ))) = V.fin 0
      rw [show ((0.0 : ℚ) : ℝ) = 0 by norm_num, r0, sub_zero, V.rnd_fin F (by norm_num), r0]
    have s2 : (rndB F).lit earth_temperature_lapse_rate * flt F 0 = flt F 0 := by
      show V.rnd F (V.fin (_ * 0)) = V.fin 0
      rw [mul_zero, V.rnd_fin F (by norm_num), r0]
    have s3 : (rndB F).lit standard_temperature + flt F 0 = flt F (F.rnd 288.15) := by
      show V.rnd F (V.fin (F.rnd ((standard_temperature : ℚ) : ℝ) + 0)) = V.fin (F.rnd 288.15)
      rw [show ((standard_temperature : ℚ) : ℝ) = 288.15 by norm_num [standard_temperature], add_zero,
        V.rnd_fin F (by rw [abs_of_pos (by linarith)]; exact t2.trans (by norm_num)), hF.rnd_rnd]
    have s4 : (rndB F).div ((rndB F).lit standard_temperature) (flt F (F.rnd 288.15)) = .ok (flt F 1) := by
      have e : ((standard_temperature : ℚ) : ℝ) = 288.15 := by norm_num [standard_temperature]
      refine (if_neg (by linarith : F.rnd 288.15 ≠ 0)).trans ?_
      show Except.ok (V.rnd F (V.fin (F.rnd ((standard_temperature : ℚ) : ℝ) / F.rnd 288.15))) = Except.ok (V.fin 1)
      rw [e, div_self (by linarith), V.rnd_fin F (by norm_num), r1]
    unfold ratioE
    rw [s1, s2, s3, s4]
  have hp : (rndB F).rpow (flt F 1) (flt F k') = .ok (flt F 1) := by
    refine (if_pos (one_pos : (0 : ℝ) < 1)).trans ?_
    rw [hF.pow_one, if_neg (not_le.2 (one_lt_pow₀ (by norm_num) (by norm_num)))]
    rfl
  have hm : (rndB F).lit standard_pressure * flt F 1 = flt F 101325 := by
    show V.rnd F (V.fin (F.rnd ((standard_pressure : ℚ) : ℝ) * 1)) = V.fin 101325
    rw [show ((standard_pressure : ℚ) : ℝ) = 101325 by norm_num [standard_pressure], mul_one, rP, V.rnd_fin F (by norm_num), rP]
  have hk' : powE (rndB F) (flt F 0) = .ok (flt F k') := hk
  refine (pressure_split (rndB F) (flt F 0)).trans ?_
  rw [hq, hk']
  show (rndB F).rpow (flt F 1) (flt F k') >>= _ = _
  rw [hp, ok_bind, hm]

/-- C128, double precision. -/
theorem C128_double {F : F64} (hF : ExactAtOne F) : elevation_test (rndB F) pctI = ⟨elevationTable, none⟩ := by
  refine run_of_steps fun i hi => ?_
  have hi' : (i : ℝ) ≤ 10 := by exact_mod_cast hi
  have hi0 : (0 : ℝ) ≤ i := Nat.cast_nonneg i
  obtain ⟨T', hT, eT⟩ := temp_float F (h := 1000 * i) (by linarith) (by linarith)
  obtain ⟨P', P, hP, hPe, -, -, eP⟩ := pressure_float F 0 (h := 1000 * i) (by linarith) (by linarith)
  obtain ⟨⟨k, hP', hk, -⟩, -⟩ := C116_standard_atmosphere 0 (1000 * i) (by linarith)
  have hPk := num_injective (Except.ok.inj (hPe.symm.trans hP'))
  rw [abs_le] at eT eP
  rcases Nat.eq_zero_or_pos i with rfl | h0
  · have z : ((1000 : ℝ) * ((0 : ℕ) : ℝ)) = 0 := by norm_num
    refine step_of (P := V.fin 101325) (T := V.fin T') ?_ ?_ ?_ ?_
    · rw [lit_double F hi, z]
      exact pressure_zero hF
    · rw [lit_double F hi]
      exact hT
    · refine pctI_fin (by norm_num) ?_ ?_ <;> norm_num [pascals]
    · obtain ⟨a, b⟩ := kelvin_row hi
      norm_num at eT
      refine pctI_fin (by positivity) ?_ ?_ <;> norm_num [kelvins] <;> linarith
  · obtain ⟨a, b⟩ := table_row h0 hi hk
    rw [← hPk] at a b
    obtain ⟨a', b'⟩ := kelvin_row hi
    have h8 : (1 : ℝ) / 10 ^ 9 < 1 / 10 ^ 8 := by norm_num
    have h9 : (81 : ℝ) / 10 ^ 15 < 1 / 10 := by norm_num
    refine step_of (P := V.fin P') (T := V.fin T') ?_ ?_ ?_ ?_
    · rw [lit_double F hi]
      exact hP
    · rw [lit_double F hi]
      exact hT
    · refine pctI_fin (by positivity) ?_ ?_ <;> rw [Int.cast_natCast] <;> linarith
    · refine pctI_fin (by positivity) ?_ ?_ <;> rw [Int.cast_natCast] <;> linarith

theorem exactAtOne_binary64 : ExactAtOne binary64 where
  rnd_rnd x := by
    show b64 (b64 x) = b64 x
    have := (b64_nearest (b64 x)).2 _ (b64_nearest x).1
    rw [sub_self, abs_zero] at this
    exact sub_eq_zero.1 (abs_eq_zero.1 (le_antisymm this (abs_nonneg _)))
  pow_one y := by
    show b64 (1 ^ y) = 1
    rw [Real.one_rpow]
    simpa using b64_int 1 (by norm_num)

/-- In IEEE double precision. -/
theorem C128_binary64 : elevation_test (rndB binary64) pctI = ⟨elevationTable, none⟩ := C128_double exactAtOne_binary64

end Verif.Props
