import Verif.Model.Constants
import Verif.Proofs.Eval

/-!
# C60: the cached polynomials of constants.py
-/

namespace Verif.Props

open Pysolar Pysolar.Constants

/-- The fundamental arguments of the nutation theory, `(name, a, b, c, d)` for `a + b x + c x^2 + x^3 / d` in degrees
(Reda & Andreas, NREL/TP-560-34302, equations 15-19). -/
def fundamentalArguments : List (String × ℝ × ℝ × ℝ × ℝ) :=
  [("ArgumentOfLatitudeOfMoon", 93.27191, 483202.017538, -0.0036825, 327270),
   ("LongitudeOfAscendingNode", 125.04452, -1934.136261, 0.0020708, 450000),
   ("MeanElongationOfMoon", 297.85036, 445267.111480, -0.0019142, 189474),
   ("MeanAnomalyOfMoon", 134.96298, 477198.867398, 0.0086972, 56250),
   ("MeanAnomalyOfSun", 357.52772, 35999.050340, -0.0001603, -300000)]

/-- The result of call number `n` (from 0) in a history of calls that starts when the module is loaded, and the cache
after it. -/
def call (B : Backend) : ℕ → AberrationDict B × Option (AberrationDict B)
  | 0 => get_aberration_coeffs B (aberration_coeffs0 B)
  | n + 1 => get_aberration_coeffs B (call B n).2

theorem call_eq (B : Backend) (n : ℕ) : call B n = (buildAberrationDict B, some (buildAberrationDict B)) := by
  induction n with
  | zero => rfl
  | succ n ih => rw [call, ih]; rfl

/-- C60: all calls return the same dictionary. -/
theorem C60_same (B : Backend) (m n : ℕ) : (call B m).1 = (call B n).1 := by rw [call_eq, call_eq]

/-- C60: in every call, each name denotes the polynomial with its own coefficients. -/
theorem C60_polynomials (tp : ℝ) (n : ℕ) : ∀ e ∈ fundamentalArguments,
    ∃ f, pyLookup (call (mathB tp) n).1 e.1 = .ok f ∧
      ∀ x : ℝ, f (num x) = num (e.2.1 + e.2.2.1 * x + e.2.2.2.1 * x ^ 2 + x ^ 3 / e.2.2.2.2) := by
  rw [call_eq]
  simp only [fundamentalArguments, List.forall_mem_cons]
  refine ⟨⟨_, rfl, fun x => ?_⟩, ⟨_, rfl, fun x => ?_⟩, ⟨_, rfl, fun x => ?_⟩, ⟨_, rfl, fun x => ?_⟩,
    ⟨_, rfl, fun x => ?_⟩, by simp⟩ <;>
  · simp only [aberrationPoly, m_lit, m_pow, m_mul, m_add, m_divq]
    congr 1
    push_cast
    norm_num

/-- C60: the names are exactly these five. -/
theorem C60_names (B : Backend) (n : ℕ) :
    (call B n).1.map (·.1) = fundamentalArguments.map (·.1) ∧
    ∀ k, k ∉ fundamentalArguments.map (·.1) → pyLookup (call B n).1 k = .error .keyError := by
  rw [call_eq]
  refine ⟨rfl, fun k hk => ?_⟩
  simp only [fundamentalArguments, List.map, List.mem_cons, List.not_mem_nil, or_false, not_or] at hk
  simp only [← ne_eq] at hk
  obtain ⟨h1, h2, h3, h4, h5⟩ := hk
  rw [← beq_eq_false_iff_ne] at h1 h2 h3 h4 h5
  simp only [pyLookup, buildAberrationDict, aberrationRows, List.map, List.lookup, h1, h2, h3, h4, h5]

example (tp : ℝ) : ∃ f, pyLookup (call (mathB tp) 7).1 "MeanAnomalyOfSun" = .ok f ∧
    f (num 0) = num 357.52772 := by
  obtain ⟨f, hf, h⟩ := C60_polynomials tp 7 ("MeanAnomalyOfSun", 357.52772, 35999.050340, -0.0001603, -300000)
    (by simp [fundamentalArguments])
  refine ⟨f, hf, ?_⟩
  rw [h]
  congr 1
  norm_num

end Verif.Props
