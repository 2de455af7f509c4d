import Verif.Proofs.NumTrig
import Verif.Proofs.FastHour
import Verif.Proofs.Seasons
import Verif.Spec.Sunrise

/-!
# Declination and equation of time of the sunrise formula against the precise sun

The formula depends only on the day number `n`.  For each of the 366 values the kernel compares it with the
position of the sun in the middle of the range of instants it is used for; how far the sun can be from that
position is bounded by analysis.
-/

namespace Verif

open Verif.Spec Verif.Props Pysolar Pysolar.Solar Pysolar.Constants Pysolar.Solartime Real

theorem cosD_near {y : ℝ} {q : ℤ} (h : |y * 1000000000 - q| ≤ 2) : |cos (rad y) - cosD q| ≤ 3e-9 := by
  have h1 := abs_le.mp (cosD_err q)
  have h2 := lip_cos (rad y) (rad (q / 1000000000))
  have h3 : |rad y - rad (q / 1000000000)| ≤ 1e-10 := by
    have hp := pi_lt_d2
    have hp0 := pi_pos
    have : rad y - rad (q / 1000000000) = (y * 1000000000 - q) * (π / 180000000000) := by unfold rad; ring
    rw [this, abs_mul, abs_of_pos (by positivity : 0 < π / 180000000000)]
    have : |y * 1000000000 - q| * (π / 180000000000) ≤ 2 * (3.15 / 180000000000) := by gcongr
    refine this.trans (by norm_num)
  have := abs_le.mp (h2.trans h3)
  rw [abs_le]
  norm_num at *
  constructor <;> linarith

theorem sinD_near {y : ℝ} {q : ℤ} (h : |y * 1000000000 - q| ≤ 2) : |sin (rad y) - sinD q| ≤ 3e-9 := by
  have h1 := abs_le.mp (sinD_err q)
  have h2 := lip_sin (rad y) (rad (q / 1000000000))
  have h3 : |rad y - rad (q / 1000000000)| ≤ 1e-10 := by
    have hp := pi_lt_d2
    have hp0 := pi_pos
    have : rad y - rad (q / 1000000000) = (y * 1000000000 - q) * (π / 180000000000) := by unfold rad; ring
    rw [this, abs_mul, abs_of_pos (by positivity : 0 < π / 180000000000)]
    have : |y * 1000000000 - q| * (π / 180000000000) ≤ 2 * (3.15 / 180000000000) := by gcongr
    refine this.trans (by norm_num)
  have := abs_le.mp (h2.trans h3)
  rw [abs_le]
  norm_num at *
  constructor <;> linarith

/-! ## The formulas in rational arithmetic -/

/-- `k` times the day angle. -/
def dayZ (k n : ℤ) : ℤ := 360000000000 * (k * n) / 366

def decQ (n : ℤ) : ℚ :=
  0.322003 - 22.971 * cosD (dayZ 1 n) - 0.357898 * cosD (dayZ 2 n) - 0.14398 * cosD (dayZ 3 n)
    + 3.94638 * sinD (dayZ 1 n) + 0.019334 * sinD (dayZ 2 n) + 0.05928 * sinD (dayZ 3 n)

/-- `k` times the angle of the equation of time. -/
def adjZ (k n : ℤ) : ℤ := k * (279134000000 + 985647000 * n)

/-- Equation of time in degrees. -/
def eotQ (n : ℤ) : ℚ :=
  (5.0323 - 430.847 * cosD (adjZ 1 n) + 12.5024 * cosD (adjZ 2 n) + 18.25 * cosD (adjZ 3 n)
    - 100.976 * sinD (adjZ 1 n) + 595.275 * sinD (adjZ 2 n) + 3.6858 * sinD (adjZ 3 n) - 12.47 * sinD (adjZ 4 n)) / 240

theorem dayZ_near (k n : ℤ) : |((k * n : ℤ) : ℝ) * (360 / 366) * 1000000000 - dayZ k n| ≤ 2 := by
  have := fp_div (360000000000 * (k * n)) (b := 366) (by norm_num)
  have h := abs_le.mp this
  unfold dayZ
  push_cast at *
  rw [abs_le]
  constructor <;> linarith

theorem decQ_close (n : ℤ) : |sunriseDeclination n - decQ n| ≤ 1e-6 := by
  have c1 := abs_le.mp (cosD_near (dayZ_near 1 n))
  have c2 := abs_le.mp (cosD_near (dayZ_near 2 n))
  have c3 := abs_le.mp (cosD_near (dayZ_near 3 n))
  have s1 := abs_le.mp (sinD_near (dayZ_near 1 n))
  have s2 := abs_le.mp (sinD_near (dayZ_near 2 n))
  have s3 := abs_le.mp (sinD_near (dayZ_near 3 n))
  have e : ∀ k : ℤ, rad (((k * n : ℤ) : ℝ) * (360 / 366)) = k * (2 * π * n / 366) := fun k => by
    unfold rad; push_cast; ring
  rw [e] at c1 c2 c3 s1 s2 s3
  unfold sunriseDeclination fourier decQ
  simp only [List.zipIdx_cons, List.zipIdx_nil, List.map_cons, List.map_nil, List.sum_cons, List.sum_nil]
  push_cast at *
  rw [abs_le]
  norm_num at *
  constructor <;> linarith

theorem eotQ_close (n : ℤ) : |15 * equationOfTime n - eotQ n| ≤ 1e-6 := by
  have hz : ∀ k : ℤ, |((k : ℝ) * (279.134 + 0.985647 * n)) * 1000000000 - adjZ k n| ≤ 2 := fun k => by
    have : ((k : ℝ) * (279.134 + 0.985647 * n)) * 1000000000 - adjZ k n = 0 := by
      unfold adjZ; push_cast; ring
    rw [this, abs_zero]; norm_num
  have c1 := abs_le.mp (cosD_near (hz 1))
  have c2 := abs_le.mp (cosD_near (hz 2))
  have c3 := abs_le.mp (cosD_near (hz 3))
  have s1 := abs_le.mp (sinD_near (hz 1))
  have s2 := abs_le.mp (sinD_near (hz 2))
  have s3 := abs_le.mp (sinD_near (hz 3))
  have s4 := abs_le.mp (sinD_near (hz 4))
  have e : ∀ k : ℤ, rad ((k : ℝ) * (279.134 + 0.985647 * n)) = k * rad (279.134 + 0.985647 * n) := fun k => by
    unfold rad; ring
  rw [e] at c1 c2 c3 s1 s2 s3 s4
  unfold equationOfTime fourier eotQ
  simp only [List.zipIdx_cons, List.zipIdx_nil, List.map_cons, List.map_nil, List.sum_cons, List.sum_nil]
  generalize rad (279.134 + 0.985647 * n) = x at *
  push_cast at *
  rw [abs_le]
  norm_num at *
  constructor <;> linarith

/-! ## The sun in the middle of the range -/

def muZ (n : ℤ) : ℤ := 279850400000 + 985647400 * n
def anZ (n : ℤ) : ℤ := muZ n - 12937700000
def lamZ (n : ℤ) : ℤ := muZ n + 191465 * (expZ (degFp (anZ n))).1 / 10 ^ 11

/-- The comparisons for one day number. -/
def sunriseCheck (n : ℤ) : Bool :=
  let s := sinD (lamZ n)
  let c := cosD (lamZ n)
  let sl := 0.0395 * |c| + 0.00079
  let z := 0.3978 * s
  let w := 0.3978 * sl + 0.0022 * (|s| + sl) + 0.00004
  let D : ℤ := ⌊decQ n * 1000000000⌋
  let e := -1.91465 * cosD (anZ n) + 2.466 * sinD (2 * lamZ n)
  let b := 1.9147 * (0.0352 * |sinD (anZ n)| + 0.00062) + 2.466 * (0.079 * |cosD (2 * lamZ n)| + 0.0032)
  decide (z + w ≤ sinD (D + 1118000000) ∧ sinD (D - 1118000000) ≤ z - w ∧ |e - eotQ n| + b ≤ 0.3335)

/-- The comparisons for `m` day numbers after `k`. -/
def sunriseChunk (k m : ℕ) : Bool := (List.range m).all (fun i => sunriseCheck (k + i + 1))

theorem sunrise_chunk_0 : sunriseChunk 0 61 = true := by decide +kernel
theorem sunrise_chunk_1 : sunriseChunk 61 61 = true := by decide +kernel
theorem sunrise_chunk_2 : sunriseChunk 122 61 = true := by decide +kernel
theorem sunrise_chunk_3 : sunriseChunk 183 61 = true := by decide +kernel
theorem sunrise_chunk_4 : sunriseChunk 244 61 = true := by decide +kernel
theorem sunrise_chunk_5 : sunriseChunk 305 61 = true := by decide +kernel

theorem sunrise_checks (n : ℤ) (h1 : 1 ≤ n) (h2 : n ≤ 366) : sunriseCheck n = true := by
  have key : ∀ k : ℕ, sunriseChunk k 61 = true → k < n → n ≤ k + 61 → sunriseCheck n = true := by
    intro k hk ha hb
    have := List.all_eq_true.1 hk (n - k - 1).toNat (List.mem_range.2 (by omega))
    rwa [show (k : ℤ) + ((n - k - 1).toNat : ℤ) + 1 = n by omega] at this
  rcases le_or_gt n 61 with h | h
  · exact key _ sunrise_chunk_0 (by push_cast; omega) (by push_cast; omega)
  rcases le_or_gt n 122 with h | h
  · exact key _ sunrise_chunk_1 (by push_cast; omega) (by push_cast; omega)
  rcases le_or_gt n 183 with h | h
  · exact key _ sunrise_chunk_2 (by push_cast; omega) (by push_cast; omega)
  rcases le_or_gt n 244 with h | h
  · exact key _ sunrise_chunk_3 (by push_cast; omega) (by push_cast; omega)
  rcases le_or_gt n 305 with h | h
  · exact key _ sunrise_chunk_4 (by push_cast; omega) (by push_cast; omega)
  exact key _ sunrise_chunk_5 (by push_cast; omega) (by push_cast; omega)

end Verif
