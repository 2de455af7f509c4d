import Verif.Model.SimulateFloat
import Verif.Props.SolarTest

/-!
# C132: `datetime_range` and `simulate_span` with a fractional number of minutes
-/

namespace Verif.Props

open Verif.Spec Pysolar Pysolar.Simulate Pysolar.Constants

/-- With an `int` step the two models are the same. -/
theorem C132_int_partial (F : F64) (B : Backend) (lat lon elevation temperature pressure : B.α) (hz : List B.α)
    (s e : DateTime) (k : ℤ) :
    datetime_rangeN F s e (.int k) = datetime_range s e k ∧
    simulate_spanN F B lat lon hz s e (.int k) elevation temperature pressure
      = simulate_span B lat lon hz s e k elevation temperature pressure := by
  have key : datetime_rangeN F s e (.int k) = datetime_range s e k := by
    unfold datetime_rangeN datetime_range rangeCount
    dsimp only [timesSixty, tdSeconds, floorDiv]
    cases e.sub s with
    | error x => rfl
    | ok span =>
      simp only [ok_bind]
      by_cases hk : -999999999 * usPerDay ≤ k * 60 * usPerSecond ∧ k * 60 * usPerSecond < 1000000000 * usPerDay
      · have ht : timedeltaChecked (k * 60 * usPerSecond) = .ok (k * 60 * usPerSecond) := if_pos hk
        rw [ht]
        by_cases h0 : k * 60 = 0
        · simp only [ok_bind, if_pos h0]
          rfl
        · simp only [ok_bind, if_neg h0]
          rfl
      · have ht : timedeltaChecked (k * 60 * usPerSecond) = .error .overflow := if_neg hk
        rw [ht]
        rfl
  refine ⟨key, ?_⟩
  unfold simulate_spanN simulate_span
  rw [key]

open scoped Classical in
/-- What the generator does with a float step: the exception it ends with. -/
noncomputable def floatStepError (F : F64) (s e : DateTime) (x : V) : PyErr :=
  match e.sub s with
  | .error err => err
  | .ok _ =>
    match tdSecondsF F (V.rnd F (V.mul x (.fin 60))) with
    | .error err => err
    | .ok _ => if V.rnd F (V.mul x (.fin 60)) = .fin 0 then .zeroDivision else .typeError

/-- C132, what the code does: with a step that is a float (of whatever value) `datetime_range` and `simulate_span` yield
nothing and end with an exception. -/
theorem C132_float_partial (F : F64) (B : Backend) (lat lon elevation temperature pressure : B.α) (hz : List B.α)
    (s e : DateTime) (x : V) :
    datetime_rangeN F s e (.float x) = ⟨[], some (floatStepError F s e x)⟩ ∧
    simulate_spanN F B lat lon hz s e (.float x) elevation temperature pressure = ⟨[], some (floatStepError F s e x)⟩ := by
  have key : datetime_rangeN F s e (.float x) = ⟨[], some (floatStepError F s e x)⟩ := by
    unfold datetime_rangeN floatStepError
    dsimp only [timesSixty, tdSeconds, floorDiv]
    cases e.sub s with
    | error err => rfl
    | ok span =>
      simp only [ok_bind]
      cases tdSecondsF F (V.rnd F (V.mul x (.fin 60))) with
      | error err => rfl
      | ok dt =>
        simp only [ok_bind]
        by_cases h0 : V.rnd F (V.mul x (.fin 60)) = .fin 0
        · rw [if_pos h0, if_pos h0]
          rfl
        · rw [if_neg h0, if_neg h0]
          rfl
  refine ⟨key, ?_⟩
  unfold simulate_spanN
  rw [key]
  rfl

/-- C132: between two datetimes that can be subtracted, every float step from a millionth of a minute to a million minutes
gives `TypeError`: `range` refuses the quotient, even when it is a whole number. -/
theorem C132_type_error_partial (F : F64) (s e : DateTime) (span : ℤ) (hs : e.sub s = .ok span) (x : ℝ)
    (h1 : 1 / 10 ^ 6 ≤ x) (h2 : x ≤ 10 ^ 6) : datetime_rangeN F s e (.float (.fin x)) = ⟨[], some .typeError⟩ := by
  have ht : (1 : ℝ) / 2 ^ 1075 ≤ 1 / 2 ^ 60 :=
    one_div_le_one_div_of_le (by positivity) (pow_le_pow_right₀ (by norm_num) (by norm_num))
  have hp : 0 < x * 60 := by norm_num at *; linarith
  have r := abs_le.1 (F.rnd_err (x * 60))
  rw [abs_of_pos hp] at r
  generalize (1 : ℝ) / 2 ^ 1075 = t at *
  have hm : V.rnd F (V.mul (.fin x) (.fin 60)) = .fin (F.rnd (x * 60)) := by
    refine V.rnd_fin F ?_
    rw [abs_of_pos hp]
    norm_num at *
    linarith
  set y := F.rnd (x * 60) with hy
  have y1 : 1 / 10 ^ 5 ≤ y := by norm_num at *; linarith
  have y2 : y ≤ 10 ^ 8 := by norm_num at *; linarith
  have htd : ∃ us, tdSecondsF F (.fin y) = .ok us := by
    have hf0 : 0 ≤ y := by norm_num at *; linarith
    have et : truncR y = ⌊y⌋ := if_pos hf0
    have f1 : ((⌊y⌋ : ℤ) : ℝ) ≤ y := Int.floor_le y
    have f2 : y < ⌊y⌋ + 1 := Int.lt_floor_add_one y
    have f0 : (0 : ℝ) ≤ ⌊y⌋ := by exact_mod_cast Int.floor_nonneg.2 hf0
    have ht' : (1 : ℝ) / 2 ^ 1075 ≤ 1 := (div_le_one (by positivity)).2 (one_le_pow₀ (by norm_num))
    have r' := F.rnd_err (1000000 * (y - truncR y))
    rw [← et] at f1 f2 f0
    have hw0 : 0 ≤ 1000000 * (y - truncR y) := by linarith
    rw [abs_of_nonneg hw0] at r'
    generalize (1 : ℝ) / 2 ^ 1075 = t' at *
    have r'' := abs_le.1 r'
    have hb := abs_le.1 (roundHalfEven_bounds (truncR y * 1000000 + F.rnd (1000000 * (y - truncR y))))
    have b1 : (-10 ^ 10 : ℝ) ≤ roundHalfEven (truncR y * 1000000 + F.rnd (1000000 * (y - truncR y))) := by
      norm_num at *; linarith [hb.1, hb.2, r''.1, r''.2]
    have b2 : (roundHalfEven (truncR y * 1000000 + F.rnd (1000000 * (y - truncR y))) : ℝ) ≤ 10 ^ 15 := by
      norm_num at *; linarith [hb.1, hb.2, r''.1, r''.2]
    have c1 : (-10 ^ 10 : ℤ) ≤ roundHalfEven (truncR y * 1000000 + F.rnd (1000000 * (y - truncR y))) := by exact_mod_cast b1
    have c2 : roundHalfEven (truncR y * 1000000 + F.rnd (1000000 * (y - truncR y))) ≤ (10 ^ 15 : ℤ) := by exact_mod_cast b2
    refine ⟨_, if_pos ⟨le_trans (by norm_num [usPerDay]) c1, lt_of_le_of_lt c2 (by norm_num [usPerDay])⟩⟩
  obtain ⟨us, hus⟩ := htd
  rw [(C132_float_partial F (rndB F) 0 0 0 0 0 [] s e (.fin x)).1]
  unfold floatStepError
  rw [hs]
  dsimp only
  rw [hm, hus]
  dsimp only
  rw [if_neg]
  intro h0
  have := V.fin.inj h0
  norm_num at *
  linarith

/-- C132 is false: half a minute, between any two times of day in UTC. -/
theorem C132_refuted (F : F64) : ¬ ∀ (a b : Civil) (x : ℝ), a.Valid → b.Valid → 0 < x →
    (datetime_rangeN F (utcDT a) (utcDT b) (.float (.fin x))).err = none := by
  intro hall
  have h := hall sunriseC sunriseEnd 0.5 sunriseC_valid sunriseEnd_valid (by norm_num)
  have hs : ∃ span, (utcDT sunriseEnd).sub (utcDT sunriseC) = .ok span := ⟨_, sub_same_tz rfl⟩
  obtain ⟨span, hs⟩ := hs
  rw [C132_type_error_partial F _ _ span hs 0.5 (by norm_num) (by norm_num)] at h
  cases h

end Verif.Props
