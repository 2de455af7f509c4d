import Verif.Proofs.FloatSunrise
import Mathlib.Analysis.SpecialFunctions.Trigonometric.InverseDeriv

/-!
# How the half day depends on latitude and declination
-/

namespace Verif

open Verif.Spec Verif.Props Pysolar Pysolar.Solar Pysolar.Constants Pysolar.Solartime Real
open Verif.Chain (dayCos c1_range)

theorem arccos_step {a b m : ℝ} (hm : m < 1) (ha : |a| ≤ m) (hb : |b| ≤ m) :
    |arccos a - arccos b| * √(1 - m ^ 2) ≤ |a - b| := by
  have hm0 : 0 ≤ m := (abs_nonneg _).trans ha
  have hpos : 0 < √(1 - m ^ 2) := sqrt_pos.2 (by nlinarith)
  have h := Convex.norm_image_sub_le_of_norm_hasDerivWithin_le (f := arccos) (f' := fun x => -(1 / √(1 - x ^ 2)))
    (s := Set.Icc (-m) m) (x := b) (y := a) (C := 1 / √(1 - m ^ 2))
    (fun x hx => (hasDerivAt_arccos (by linarith [hx.1] : x ≠ -1 ) (by linarith [hx.2] : x ≠ 1)).hasDerivWithinAt)
    (fun x hx => by
      rw [norm_neg, norm_eq_abs, abs_of_nonneg (by positivity)]
      refine one_div_le_one_div_of_le hpos (sqrt_le_sqrt ?_)
      have := sq_le_sq' hx.1 hx.2
      linarith) (convex_Icc _ _) (abs_le.1 hb) (abs_le.1 ha)
  rw [norm_eq_abs, norm_eq_abs] at h
  calc |arccos a - arccos b| * √(1 - m ^ 2) ≤ 1 / √(1 - m ^ 2) * |a - b| * √(1 - m ^ 2) := by gcongr
    _ = |a - b| := by field_simp

theorem dayCos_comm (x y : ℝ) : dayCos x y = dayCos y x := by unfold dayCos; ring

theorem dayCos_abs {p x t k c s : ℝ} (hp : 0 < cos (rad p)) (ht : |tan (rad p)| ≤ t) (hk : 0.0146 / cos (rad p) ≤ k)
    (hc : 0 < c) (hx : c ≤ cos (rad x)) (hs : |sin (rad x)| ≤ s) : |dayCos p x| ≤ (t * s + k) / c := by
  have hcx : 0 < cos (rad x) := hc.trans_le hx
  have ht0 := (abs_nonneg _).trans ht
  have hs0 := (abs_nonneg _).trans hs
  have k1 := c1_range
  have e : dayCos p x = (cos (rad 90.833) / cos (rad p) - tan (rad p) * sin (rad x)) / cos (rad x) := by
    unfold dayCos
    rw [tan_eq_sin_div_cos (rad x)]
    field_simp
  have h1 : |cos (rad 90.833) / cos (rad p)| ≤ k := by
    rw [abs_div, abs_of_pos hp]
    refine le_trans ?_ hk
    gcongr
    rw [abs_le]; constructor <;> linarith
  have h2 : |tan (rad p) * sin (rad x)| ≤ t * s := by rw [abs_mul]; gcongr
  have h3 := abs_sub (cos (rad 90.833) / cos (rad p)) (tan (rad p) * sin (rad x))
  rw [e, abs_div, abs_of_pos hcx]
  have hk0 : 0 ≤ k := (abs_nonneg _).trans h1
  have : (0 : ℝ) ≤ t * s + k := by positivity
  gcongr
  linarith

theorem dayCos_step {p x y t k c r g : ℝ} (hp : 0 < cos (rad p)) (ht : |tan (rad p)| ≤ t)
    (hk : 0.0146 / cos (rad p) ≤ k) (hc : 0 < c) (hx : c ≤ cos (rad x)) (hy : c ≤ cos (rad y))
    (hr : |rad x - rad y| ≤ r) (hg : |cos (rad x) - cos (rad y)| ≤ g) :
    |dayCos p x - dayCos p y| ≤ (t * r + k * g) / c ^ 2 := by
  have hcx : 0 < cos (rad x) := hc.trans_le hx
  have hcy : 0 < cos (rad y) := hc.trans_le hy
  have ht0 := (abs_nonneg _).trans ht
  have hr0 := (abs_nonneg _).trans hr
  have hg0 := (abs_nonneg _).trans hg
  have k1 := c1_range
  have e : dayCos p x - dayCos p y = (-(cos (rad 90.833) / cos (rad p) * (cos (rad x) - cos (rad y)))
      - tan (rad p) * sin (rad x - rad y)) / (cos (rad x) * cos (rad y)) := by
    unfold dayCos
    rw [sin_sub, tan_eq_sin_div_cos (rad x), tan_eq_sin_div_cos (rad y)]
    field_simp
    ring
  have h1 : |cos (rad 90.833) / cos (rad p)| ≤ k := by
    rw [abs_div, abs_of_pos hp]
    refine le_trans ?_ hk
    gcongr
    rw [abs_le]; constructor <;> linarith
  have hk0 : 0 ≤ k := (abs_nonneg _).trans h1
  have h2 : |cos (rad 90.833) / cos (rad p) * (cos (rad x) - cos (rad y))| ≤ k * g := by rw [abs_mul]; gcongr
  have h3 : |tan (rad p) * sin (rad x - rad y)| ≤ t * r := by
    rw [abs_mul]
    have : |sin (rad x - rad y)| ≤ r := abs_sin_le_abs.trans hr
    gcongr
  have h4 := abs_sub (-(cos (rad 90.833) / cos (rad p) * (cos (rad x) - cos (rad y)))) (tan (rad p) * sin (rad x - rad y))
  rw [abs_neg] at h4
  rw [e, abs_div, abs_of_pos (mul_pos hcx hcy)]
  have h5 : c ^ 2 ≤ cos (rad x) * cos (rad y) := by rw [sq]; gcongr
  have : (0 : ℝ) ≤ t * r + k * g := by positivity
  gcongr
  linarith

/-- Latitudes up to 60 degrees. -/
theorem lat60 {lat : ℝ} (h : |lat| ≤ 60) :
    1 / 2 ≤ cos (rad lat) ∧ |tan (rad lat)| ≤ 1.7321 ∧ 0.0146 / cos (rad lat) ≤ 0.0292 := by
  have c60 : cos (rad 60) = 1 / 2 := by rw [← cos_pi_div_three]; congr 1; unfold rad; ring
  have hr : rad |lat| = |rad lat| := by
    unfold rad; rw [abs_div, abs_mul, abs_of_pos pi_pos, abs_of_pos (by norm_num : (0 : ℝ) < 180)]
  have hc : 1 / 2 ≤ cos (rad lat) := by
    rw [← c60, ← cos_abs (rad lat), ← hr]
    have hp := pi_pos
    refine cos_le_cos_of_nonneg_of_le_pi ?_ ?_ ?_
    · unfold rad; positivity
    · unfold rad; linarith
    · unfold rad; gcongr
  have h0 : 0 < cos (rad lat) := by linarith
  refine ⟨hc, ?_, ?_⟩
  · rw [tan_eq_sin_div_cos, abs_div, abs_of_pos h0, div_le_iff₀ h0]
    refine abs_le_of_sq_le_sq ?_ (by positivity)
    have := sin_sq_add_cos_sq (rad lat)
    nlinarith
  · rw [div_le_iff₀ h0]
    linarith

end Verif
