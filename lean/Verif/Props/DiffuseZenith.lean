import Verif.Props.DirectExcess

/-!
# C179: diffuse irradiance and its value at the zenith

`diffuse_transmittance` is documented as the diffuse irradiance on a horizontal surface with the sun at the zenith, where it is
greatest (it is 1367 times the transmittance of the European Solar Radiation Atlas, -0.015843 + 0.030543 TL + 0.0003797 TL²).
`diffuse_underclear` multiplies it with the altitude in degrees instead of a function of the altitude from 0 to 1.
-/

namespace Verif.Props

open Verif Verif.Spec Pysolar Pysolar.Util

/-- What C179 claims: for every turbidity from that of clean dry air on. -/
def C179_claim (tp : ℝ) : Prop := ∀ (d : DateTime) (c : Civil), UtcFields d c → ∀ lat lon elev T P TL a r z : ℝ, 1 ≤ TL → TL ≤ 10 →
  Solar.get_altitude (mathB tp) (num lat) (num lon) (.dt d) (num elev) (num T) (num P) = .ok (num a) → 0 ≤ a → a ≤ 90 →
  diffuse_underclear (mathB tp) (num lat) (num lon) (.dt d) (num elev) (num T) (num P) (num TL) = .ok (num r) →
  diffuse_transmittance (mathB tp) (num TL) = num z → r ≤ z

/-- C179 holds exactly with the sun at most one degree high, and the result is the value at the zenith times the altitude in
degrees. Missing: every altitude above one degree. -/
theorem C179_exact_partial (tp : ℝ) (d : DateTime) (c : Civil) (h : UtcFields d c) (lat lon elev T P TL a : ℝ) (hT : 1 ≤ TL)
    (ha : Solar.get_altitude (mathB tp) (num lat) (num lon) (.dt d) (num elev) (num T) (num P) = .ok (num a)) :
    ∃ r z, diffuse_underclear (mathB tp) (num lat) (num lon) (.dt d) (num elev) (num T) (num P) (num TL) = .ok (num r) ∧
      diffuse_transmittance (mathB tp) (num TL) = num z ∧ 20 < z ∧ r = a * z ∧ (r ≤ z ↔ a ≤ 1) := by
  have z0 : 20 < -21.657 + 41.752 * TL + 0.51905 * TL ^ 2 := by
    norm_num
    nlinarith
  refine ⟨_, _, diffuse_eval h ha, C81_diffuse_transmittance tp TL, z0, ?_, ?_⟩
  · ring
  · generalize hz : -21.657 + 41.752 * TL + 0.51905 * TL ^ 2 = z at *
    constructor <;> intro k <;> nlinarith

/-- C179 is false: the place of the documentation's examples on the morning of their date, default turbidity. -/
theorem C179_refuted (tp : ℝ) : ¬ C179_claim tp := by
  intro hall
  obtain ⟨a, _, h1, h2, h3, -⟩ := C178_documented_partial tp
  obtain ⟨r, z, k1, k2, -, -, k3⟩ := C179_exact_partial tp _ _ (utcDT_fields docMorning_valid) ((42.206 : ℚ) : ℝ) ((-71.382 : ℚ) : ℝ) 0
    (Constants.standard_temperature : ℚ) (Constants.standard_pressure : ℚ) 1 a le_rfl h1
  have := k3.1 (hall _ _ (utcDT_fields docMorning_valid) _ _ _ _ _ 1 a r z le_rfl (by norm_num) h1 (by linarith) (by linarith) k1 k2)
  linarith

/-- C179, what `diffuse_transmittance` is: divided by the solar constant it is the published transmittance to 1e-6 for each power of the turbidity, hence
a fraction for turbidities from 0.6 to 10, increasing with the turbidity. -/
theorem C179_scaled_partial (tp : ℝ) :
    (∀ TL, 0 ≤ TL → ∃ r, diffuse_transmittance (mathB tp) (num TL) = num r ∧
      |r / 1367 - (-0.015843 + 0.030543 * TL + 0.0003797 * TL ^ 2)| ≤ (1 + TL + TL ^ 2) / 10 ^ 6 ∧
      (0.6 ≤ TL → TL ≤ 10 → 0 ≤ r / 1367 ∧ r / 1367 ≤ 1)) ∧
    (∀ TL TL' r r', 0 ≤ TL → TL < TL' → diffuse_transmittance (mathB tp) (num TL) = num r →
      diffuse_transmittance (mathB tp) (num TL') = num r' → r < r') := by
  refine ⟨fun TL h => ⟨_, C81_diffuse_transmittance tp TL, ?_, fun h0 h1 => ?_⟩, fun TL TL' r r' h0 h1 h2 h3 => ?_⟩
  · have q := sq_nonneg TL
    rw [abs_le]
    constructor <;> norm_num <;> linarith
  · constructor
    · norm_num at *
      nlinarith
    · norm_num at *
      nlinarith
  · rw [C81_diffuse_transmittance] at h2 h3
    obtain rfl := num_injective h2
    obtain rfl := num_injective h3
    norm_num
    nlinarith

end Verif.Props
