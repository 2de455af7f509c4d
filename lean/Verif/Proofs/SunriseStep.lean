import Verif.Proofs.SunriseNum

/-!
# How much the half day changes from one day number to the next

The declination and the equation of time of the sunrise formula depend only on the day number, which takes 366
values.  For each step between consecutive days (ends of years included) the kernel bounds the change of the half day
at latitudes up to 60 degrees, by rational arithmetic on `decQ` and `eotQ`.
-/

namespace Verif

open Verif.Spec Verif.Props Pysolar Pysolar.Solar Pysolar.Constants Pysolar.Solartime Real

/-- Nearest multiple of 1e-9 degrees below the declination. -/
def decZ (n : ℤ) : ℤ := ⌊decQ n * 1000000000⌋

theorem decZ_near (n : ℤ) : |sin (rad (sunriseDeclination n)) - sinD (decZ n)| ≤ 1e-7 ∧
    |cos (rad (sunriseDeclination n)) - cosD (decZ n)| ≤ 1e-7 := by
  have hq := abs_le.1 (decQ_close n)
  have f1 : ((⌊decQ n * 1000000000⌋ : ℤ) : ℝ) ≤ decQ n * 1000000000 := by
    have := Int.floor_le (decQ n * 1000000000)
    exact_mod_cast this
  have f2 : (decQ n : ℝ) * 1000000000 ≤ ((⌊decQ n * 1000000000⌋ : ℤ) : ℝ) + 1 := by
    have := (Int.lt_floor_add_one (decQ n * 1000000000)).le
    exact_mod_cast this
  have h3 : |rad (sunriseDeclination n) - rad ((decZ n : ℝ) / 1000000000)| ≤ 5e-8 := by
    have hp := pi_lt_d2
    have hp0 := pi_pos
    have e : rad (sunriseDeclination n) - rad ((decZ n : ℝ) / 1000000000)
        = (sunriseDeclination n - (decZ n : ℝ) / 1000000000) * (π / 180) := by unfold rad; ring
    have h : |sunriseDeclination n - (decZ n : ℝ) / 1000000000| ≤ 2e-6 := by
      unfold decZ
      rw [abs_le]
      norm_num at *
      constructor <;> linarith
    rw [e, abs_mul, abs_of_pos (by positivity : 0 < π / 180)]
    have : |sunriseDeclination n - (decZ n : ℝ) / 1000000000| * (π / 180) ≤ 2e-6 * (3.15 / 180) := by gcongr
    refine this.trans (by norm_num)
  have s := abs_le.1 ((lip_sin _ _).trans h3)
  have c := abs_le.1 ((lip_cos _ _).trans h3)
  have s' := abs_le.1 (sinD_err (decZ n))
  have c' := abs_le.1 (cosD_err (decZ n))
  norm_num at *
  rw [abs_le, abs_le]
  refine ⟨⟨?_, ?_⟩, ⟨?_, ?_⟩⟩ <;> linarith

/-- The comparison for the step from day number `n` to day number `n'`. -/
def stepCheck (n n' : ℤ) : Bool :=
  let s := max |sinD (decZ n)| |sinD (decZ n')| + 1e-7
  let c := min (cosD (decZ n)) (cosD (decZ n')) - 1e-7
  let r := (|decQ n - decQ n'| + 2e-6) * 0.0174533
  let g := |cosD (decZ n) - cosD (decZ n')| + 2e-7
  let m := (1.7321 * s + 0.0292) / c
  let a := (1.7321 * r + 0.0292 * g) / c ^ 2
  let e := |eotQ n - eotQ n'| + 2e-6
  decide (0.917 ≤ c ∧ s ≤ 0.3987 ∧ e ≤ 0.1475 ∧ a ^ 2 ≤ ((0.77 - e) * 0.017453) ^ 2 * (1 - m ^ 2))

def stepChunk (k m : ℕ) : Bool := (List.range m).all (fun i => stepCheck (k + i + 1) (k + i + 2))

set_option maxRecDepth 100000 in
theorem step_chunk_0 : stepChunk 0 73 = true := by decide +kernel
set_option maxRecDepth 100000 in
theorem step_chunk_1 : stepChunk 73 73 = true := by decide +kernel
set_option maxRecDepth 100000 in
theorem step_chunk_2 : stepChunk 146 73 = true := by decide +kernel
set_option maxRecDepth 100000 in
theorem step_chunk_3 : stepChunk 219 73 = true := by decide +kernel
set_option maxRecDepth 100000 in
theorem step_chunk_4 : stepChunk 292 73 = true := by decide +kernel
set_option maxRecDepth 100000 in
theorem step_chunk_365 : stepCheck 365 1 = true := by decide +kernel
set_option maxRecDepth 100000 in
theorem step_chunk_366 : stepCheck 366 1 = true := by decide +kernel

/-- Day numbers of consecutive days. -/
def NextDay (n n' : ℤ) : Prop := (1 ≤ n ∧ n ≤ 365 ∧ n' = n + 1) ∨ ((n = 365 ∨ n = 366) ∧ n' = 1)

theorem step_checks {n n' : ℤ} (h : NextDay n n') : stepCheck n n' = true := by
  rcases h with ⟨h1, h2, rfl⟩ | ⟨rfl | rfl, rfl⟩
  · have key : ∀ k : ℕ, stepChunk k 73 = true → k < n → n ≤ k + 73 → stepCheck n (n + 1) = true := by
      intro k hk ha hb
      have := List.all_eq_true.1 hk (n - k - 1).toNat (List.mem_range.2 (by omega))
      rwa [show (k : ℤ) + ((n - k - 1).toNat : ℤ) + 1 = n by omega,
        show (k : ℤ) + ((n - k - 1).toNat : ℤ) + 2 = n + 1 by omega] at this
    rcases le_or_gt n 73 with h | h
    · exact key _ step_chunk_0 (by push_cast; omega) (by push_cast; omega)
    rcases le_or_gt n 146 with h | h
    · exact key _ step_chunk_1 (by push_cast; omega) (by push_cast; omega)
    rcases le_or_gt n 219 with h | h
    · exact key _ step_chunk_2 (by push_cast; omega) (by push_cast; omega)
    rcases le_or_gt n 292 with h | h
    · exact key _ step_chunk_3 (by push_cast; omega) (by push_cast; omega)
    exact key _ step_chunk_4 (by push_cast; omega) (by push_cast; omega)
  · exact step_chunk_365
  · exact step_chunk_366

end Verif
