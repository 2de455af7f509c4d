import Verif.Props.RestFraction
import Verif.Proofs.FloatElev
import Verif.Proofs.FloatNumpy

/-!
# C171: pressure and temperature never rise with the elevation in double precision

The formulas of `elevation.py` are strictly decreasing in real arithmetic (C46). In IEEE double precision, with rounding in every
step, a higher place never has a higher pressure or temperature.
-/

namespace Verif.Props

open Verif Verif.Spec Pysolar Pysolar.Numeric Pysolar.Elevation Pysolar.Constants Chain

/-- Temperature at the elevation `h`, in double precision. -/
noncomputable def temp64 (h : ℝ) : ℝ := b64 (b64 ((288.15 : ℚ) : ℝ) + b64 (b64 ((-0.0065 : ℚ) : ℝ) * b64 h))

/-- The exponent. -/
noncomputable def expo64 : ℝ :=
  b64 (b64 (b64 ((9.80665 : ℚ) : ℝ) * b64 ((0.0289644 : ℚ) : ℝ)) / b64 (b64 ((8.31432 : ℚ) : ℝ) * b64 ((-0.0065 : ℚ) : ℝ)))

/-- Pressure at the elevation `h`, in double precision. -/
noncomputable def pres64 (h : ℝ) : ℝ := b64 (b64 ((101325 : ℚ) : ℝ) * b64 (b64 (b64 ((288.15 : ℚ) : ℝ) / temp64 h) ^ expo64))

theorem lapse64 : -0.006501 ≤ b64 ((-0.0065 : ℚ) : ℝ) ∧ b64 ((-0.0065 : ℚ) : ℝ) ≤ -0.006499 := by
  have h := b64_err_nonneg (x := ((0.0065 : ℚ) : ℝ)) (by norm_num)
  rw [show ((-0.0065 : ℚ) : ℝ) = -((0.0065 : ℚ) : ℝ) by norm_num, b64_neg]
  norm_num at *
  constructor <;> linarith

theorem ts64 : 288.1499 ≤ b64 ((288.15 : ℚ) : ℝ) ∧ b64 ((288.15 : ℚ) : ℝ) ≤ 288.1501 := by
  have h := b64_err_nonneg (x := ((288.15 : ℚ) : ℝ)) (by norm_num)
  norm_num at *
  constructor <;> linarith

theorem expo_parts :
    |b64 ((9.80665 : ℚ) : ℝ) * b64 ((0.0289644 : ℚ) : ℝ)| ≤ 1 ∧ |b64 ((8.31432 : ℚ) : ℝ) * b64 ((-0.0065 : ℚ) : ℝ)| ≤ 1 ∧
    b64 (b64 ((8.31432 : ℚ) : ℝ) * b64 ((-0.0065 : ℚ) : ℝ)) < 0 ∧
    -6 ≤ b64 (b64 ((9.80665 : ℚ) : ℝ) * b64 ((0.0289644 : ℚ) : ℝ)) / b64 (b64 ((8.31432 : ℚ) : ℝ) * b64 ((-0.0065 : ℚ) : ℝ)) ∧
    b64 (b64 ((9.80665 : ℚ) : ℝ) * b64 ((0.0289644 : ℚ) : ℝ)) / b64 (b64 ((8.31432 : ℚ) : ℝ) * b64 ((-0.0065 : ℚ) : ℝ)) ≤ 0 := by
  have g := b64_err_nonneg (x := ((9.80665 : ℚ) : ℝ)) (by norm_num)
  have m := b64_err_nonneg (x := ((0.0289644 : ℚ) : ℝ)) (by norm_num)
  have r := b64_err_nonneg (x := ((8.31432 : ℚ) : ℝ)) (by norm_num)
  obtain ⟨l0, l1⟩ := lapse64
  generalize b64 ((9.80665 : ℚ) : ℝ) = g' at *
  generalize b64 ((0.0289644 : ℚ) : ℝ) = m' at *
  generalize b64 ((8.31432 : ℚ) : ℝ) = r' at *
  generalize b64 ((-0.0065 : ℚ) : ℝ) = l at *
  have g0 : 9.8 ≤ g' ∧ g' ≤ 9.81 := by norm_num at *; constructor <;> linarith
  have m0 : 0.0289 ≤ m' ∧ m' ≤ 0.02897 := by norm_num at *; constructor <;> linarith
  have r0 : 8.31 ≤ r' ∧ r' ≤ 8.32 := by norm_num at *; constructor <;> linarith
  have gm : 0 ≤ g' * m' ∧ g' * m' ≤ 0.2843 := by
    constructor
    · norm_num at *; nlinarith
    · calc g' * m' ≤ 9.81 * 0.02897 := mul_le_mul g0.2 m0.2 (by norm_num at *; linarith) (by norm_num)
        _ ≤ _ := by norm_num
  have rl : 0.054 ≤ r' * -l := by
    calc (0.054 : ℝ) ≤ 8.31 * 0.006499 := by norm_num
      _ ≤ r' * -l := mul_le_mul r0.1 (by linarith) (by norm_num) (by norm_num at *; linarith)
  have rl1 : r' * -l ≤ 1 := by
    calc r' * -l ≤ 8.32 * 0.006501 := mul_le_mul r0.2 (by linarith) (by norm_num at *; linarith) (by norm_num)
      _ ≤ _ := by norm_num
  have a1 : |g' * m'| ≤ 1 := by rw [abs_of_nonneg gm.1]; exact gm.2.trans (by norm_num)
  have a2 : |r' * l| ≤ 1 := by rw [abs_le]; constructor <;> norm_num at * <;> linarith
  have e1 := b64_err_nonneg gm.1
  have e2 := b64_err_nonneg (x := r' * -l) (by norm_num at *; linarith)
  have e3 : b64 (r' * l) = -b64 (r' * -l) := by rw [← b64_neg]; congr 1; ring
  rw [e3]
  generalize b64 (g' * m') = p at *
  generalize b64 (r' * -l) = q at *
  have p0 : 0 ≤ p := by
    have := b64_nonneg gm.1
    norm_num at *
    nlinarith
  have p1 : p ≤ 0.285 := by norm_num at *; linarith
  have q0 : 0.0539 ≤ q := by norm_num at *; linarith
  have qp : 0 < q := by norm_num at *; linarith
  have b1 : p / -q ≤ 0 := by rw [div_neg]; have : 0 ≤ p / q := by positivity
                             linarith
  have b0 : -6 ≤ p / -q := by
    rw [div_neg]
    have : p / q ≤ 6 := by rw [div_le_iff₀ qp]; norm_num at *; linarith
    linarith
  exact ⟨a1, a2, by linarith, b0, b1⟩

theorem expo_range : -6 ≤ expo64 ∧ expo64 ≤ 0 := by
  obtain ⟨-, -, -, b0, b1⟩ := expo_parts
  have c0 := b64_mono (show ((-6 : ℤ) : ℝ) ≤ _ by push_cast; exact_mod_cast b0)
  have c1 := b64_mono b1
  rw [b64_int _ (by norm_num)] at c0
  rw [b64_zero] at c1
  refine ⟨le_trans (by norm_num) c0, c1⟩

theorem elev_range {h : ℝ} (h0 : -1000 ≤ h) (h1 : h ≤ 40000) : -1000 ≤ b64 h ∧ b64 h ≤ 40000 := by
  have a := b64_mono (show ((-1000 : ℤ) : ℝ) ≤ h by push_cast; exact h0)
  have b := b64_mono (show h ≤ ((40000 : ℤ) : ℝ) by push_cast; exact h1)
  rw [b64_int _ (by norm_num)] at a b
  push_cast at a b
  exact ⟨a, b⟩

theorem cool_range {h : ℝ} (h0 : -1000 ≤ h) (h1 : h ≤ 40000) :
    -261 ≤ b64 (b64 ((-0.0065 : ℚ) : ℝ) * b64 h) ∧ b64 (b64 ((-0.0065 : ℚ) : ℝ) * b64 h) ≤ 7 ∧
    |b64 ((-0.0065 : ℚ) : ℝ) * b64 h| ≤ 300 := by
  obtain ⟨x0, x1⟩ := elev_range h0 h1
  obtain ⟨l0, l1⟩ := lapse64
  generalize b64 h = x at *
  generalize b64 ((-0.0065 : ℚ) : ℝ) = l at *
  have a : ((-261 : ℤ) : ℝ) ≤ l * x := by push_cast; norm_num at *; nlinarith
  have b : l * x ≤ ((7 : ℤ) : ℝ) := by push_cast; norm_num at *; nlinarith
  have a' := b64_mono a
  have b' := b64_mono b
  rw [b64_int _ (by norm_num)] at a' b'
  push_cast at a a' b b'
  exact ⟨a', b', abs_le.2 ⟨by linarith, by linarith⟩⟩

theorem temp_range {h : ℝ} (h0 : -1000 ≤ h) (h1 : h ≤ 40000) : 27 ≤ temp64 h ∧ temp64 h ≤ 296 := by
  obtain ⟨y0, y1, -⟩ := cool_range h0 h1
  obtain ⟨t0, t1⟩ := ts64
  unfold temp64
  have a := b64_mono (show ((27 : ℤ) : ℝ) ≤ b64 ((288.15 : ℚ) : ℝ) + b64 (b64 ((-0.0065 : ℚ) : ℝ) * b64 h) by
    push_cast at *; linarith)
  have b := b64_mono (show b64 ((288.15 : ℚ) : ℝ) + b64 (b64 ((-0.0065 : ℚ) : ℝ) * b64 h) ≤ ((296 : ℤ) : ℝ) by
    push_cast at *; linarith)
  rw [b64_int _ (by norm_num)] at a b
  push_cast at a b
  push_cast
  exact ⟨a, b⟩

theorem temp_antitone {h h' : ℝ} (hle : h ≤ h') : temp64 h' ≤ temp64 h := by
  have l1 := lapse64.2
  refine b64_mono (add_le_add le_rfl (b64_mono ?_))
  exact mul_le_mul_of_nonpos_left (b64_mono hle) (by norm_num at *; linarith)

theorem ratio_range {h : ℝ} (h0 : -1000 ≤ h) (h1 : h ≤ 40000) :
    0.9 ≤ b64 (b64 ((288.15 : ℚ) : ℝ) / temp64 h) ∧ b64 ((288.15 : ℚ) : ℝ) / temp64 h ≤ 20 ∧ 0 ≤ b64 ((288.15 : ℚ) : ℝ) / temp64 h := by
  obtain ⟨z0, z1⟩ := temp_range h0 h1
  obtain ⟨t0, t1⟩ := ts64
  have zp : 0 < temp64 h := by linarith
  have q0 : 0.95 ≤ b64 ((288.15 : ℚ) : ℝ) / temp64 h := by rw [le_div_iff₀ zp]; norm_num at *; linarith
  have q1 : b64 ((288.15 : ℚ) : ℝ) / temp64 h ≤ 20 := by rw [div_le_iff₀ zp]; norm_num at *; linarith
  have qn : 0 ≤ b64 ((288.15 : ℚ) : ℝ) / temp64 h := by norm_num at *; linarith
  refine ⟨?_, q1, qn⟩
  have := (b64_err_nonneg qn).1
  norm_num at *
  linarith

theorem ratio_mono {h h' : ℝ} (h0 : -1000 ≤ h) (hle : h ≤ h') (h1 : h' ≤ 40000) :
    b64 (b64 ((288.15 : ℚ) : ℝ) / temp64 h) ≤ b64 (b64 ((288.15 : ℚ) : ℝ) / temp64 h') := by
  have z := (temp_range (h0.trans hle) h1).1
  have t := ts64.1
  exact b64_mono (div_le_div_of_nonneg_left (by norm_num at *; linarith) (by linarith) (temp_antitone hle))

theorem pow64_range {r : ℝ} (hr : 0.9 ≤ r) : 0 ≤ r ^ expo64 ∧ r ^ expo64 ≤ 2 := by
  obtain ⟨e0, e1⟩ := expo_range
  have hp : 0 < r := lt_of_lt_of_le (by norm_num) hr
  refine ⟨Real.rpow_nonneg hp.le _, ?_⟩
  have a : r ^ expo64 ≤ (0.9 : ℝ) ^ expo64 := Real.rpow_le_rpow_of_nonpos (by norm_num) hr e1
  have b : (0.9 : ℝ) ^ expo64 ≤ (0.9 : ℝ) ^ (-6 : ℝ) := Real.rpow_le_rpow_of_exponent_ge (by norm_num) (by norm_num) e0
  have c : (0.9 : ℝ) ^ (-6 : ℝ) ≤ 2 := by
    rw [Real.rpow_neg (by norm_num), show (6 : ℝ) = ((6 : ℕ) : ℝ) by norm_num, Real.rpow_natCast]
    norm_num
  linarith

theorem pres_antitone {h h' : ℝ} (h0 : -1000 ≤ h) (hle : h ≤ h') (h1 : h' ≤ 40000) : pres64 h' ≤ pres64 h := by
  refine b64_mono (mul_le_mul_of_nonneg_left (b64_mono ?_) (b64_nonneg (by norm_num)))
  have r := (ratio_range h0 (hle.trans h1)).1
  exact Real.rpow_le_rpow_of_nonpos (lt_of_lt_of_le (by norm_num) r) (ratio_mono h0 hle h1) expo_range.2

theorem ratio64 {h : ℝ} (h0 : -1000 ≤ h) (h1 : h ≤ 40000) :
    ratioE (rndB binary64) (V.fin h) = .ok (V.fin (b64 (b64 ((288.15 : ℚ) : ℝ) / temp64 h))) := by
  obtain ⟨r0, r1, r2⟩ := ratio_range h0 h1
  obtain ⟨z0, z1⟩ := temp_range h0 h1
  obtain ⟨y0, y1, y2⟩ := cool_range h0 h1
  obtain ⟨t0, t1⟩ := ts64
  have l0 : ((0.0 : (rndB binary64).α) : V) = V.fin 0 := by
    show V.fin (b64 ((0.0 : ℚ) : ℝ)) = _
    rw [show ((0.0 : ℚ) : ℝ) = 0 by norm_num, b64_zero]
  have e1 : (rndB binary64).sub (V.fin h) (0.0 : (rndB binary64).α) = V.fin (b64 h) := by
    refine (congrArg (fun v => (rndB binary64).sub (V.fin h) v) l0).trans (vrnd64 (z := h + -0) ?_ (by simp))
    rw [abs_le]
    constructor <;> norm_num <;> linarith
  have e2 : (rndB binary64).mul ((rndB binary64).lit earth_temperature_lapse_rate) (V.fin (b64 h))
      = V.fin (b64 (b64 ((-0.0065 : ℚ) : ℝ) * b64 h)) :=
    vrnd64 (z := b64 ((-0.0065 : ℚ) : ℝ) * b64 h) (y2.trans (by norm_num)) rfl
  have e3 : (rndB binary64).add ((rndB binary64).lit standard_temperature) (V.fin (b64 (b64 ((-0.0065 : ℚ) : ℝ) * b64 h)))
      = V.fin (temp64 h) := by
    refine vrnd64 (z := b64 ((288.15 : ℚ) : ℝ) + b64 (b64 ((-0.0065 : ℚ) : ℝ) * b64 h)) ?_ rfl
    rw [abs_le]
    constructor <;> norm_num at * <;> linarith
  have e : (rndB binary64).div ((rndB binary64).lit standard_temperature) (V.fin (temp64 h))
      = .ok (V.fin (b64 (b64 ((288.15 : ℚ) : ℝ) / temp64 h))) := by
    refine (if_neg (show temp64 h ≠ 0 by linarith)).trans (congrArg Except.ok ?_)
    exact vrnd64 (z := b64 ((288.15 : ℚ) : ℝ) / temp64 h) (by rw [abs_of_nonneg r2]; exact r1.trans (by norm_num)) rfl
  rw [← e3, ← e2, ← e1] at e
  exact e

theorem pow64 (h : ℝ) : powE (rndB binary64) (V.fin h) = .ok (V.fin expo64) := by
  obtain ⟨a1, a2, q0, b0, b1⟩ := expo_parts
  have e1 : (rndB binary64).mul ((rndB binary64).lit earth_gravity) ((rndB binary64).lit earth_atmosphere_molar_mass)
      = V.fin (b64 (b64 ((9.80665 : ℚ) : ℝ) * b64 ((0.0289644 : ℚ) : ℝ))) := vrnd64 (a1.trans (by norm_num)) rfl
  have e2 : (rndB binary64).mul ((rndB binary64).lit air_gas_constant) ((rndB binary64).lit earth_temperature_lapse_rate)
      = V.fin (b64 (b64 ((8.31432 : ℚ) : ℝ) * b64 ((-0.0065 : ℚ) : ℝ))) := vrnd64 (a2.trans (by norm_num)) rfl
  have e : (rndB binary64).div (V.fin (b64 (b64 ((9.80665 : ℚ) : ℝ) * b64 ((0.0289644 : ℚ) : ℝ))))
      (V.fin (b64 (b64 ((8.31432 : ℚ) : ℝ) * b64 ((-0.0065 : ℚ) : ℝ)))) = .ok (V.fin expo64) := by
    refine (if_neg q0.ne).trans (congrArg Except.ok ?_)
    refine vrnd64 (z := _ / _) ?_ rfl
    rw [abs_of_nonpos b1]
    exact (show _ ≤ (6 : ℝ) by linarith).trans (by norm_num)
  rw [← e1, ← e2] at e
  exact e

/-- The code computes `pres64`. -/
theorem pressure64 {h : ℝ} (h0 : -1000 ≤ h) (h1 : h ≤ 40000) :
    get_pressure_with_elevation (rndB binary64) (V.fin h) = .ok (V.fin (pres64 h)) := by
  obtain ⟨r0, -⟩ := ratio_range h0 h1
  have hp : 0 < b64 (b64 ((288.15 : ℚ) : ℝ) / temp64 h) := lt_of_lt_of_le (by norm_num) r0
  obtain ⟨p0, p1⟩ := pow64_range r0
  have q0 := b64_nonneg p0
  have q1 := b64_mono (p1.trans (show (2 : ℝ) ≤ ((2 : ℤ) : ℝ) by norm_num))
  rw [b64_int 2 (by norm_num), show ((2 : ℤ) : ℝ) = 2 by norm_num] at q1
  have hrp : (rndB binary64).rpow (V.fin (b64 (b64 ((288.15 : ℚ) : ℝ) / temp64 h))) (V.fin expo64)
      = .ok (V.fin (b64 (b64 (b64 ((288.15 : ℚ) : ℝ) / temp64 h) ^ expo64))) := by
    refine (if_pos hp).trans (if_neg (not_le.2 (lt_of_le_of_lt q1 ?_)))
    exact lt_self_pow₀ (by norm_num) (by norm_num)
  have s : b64 ((101325 : ℚ) : ℝ) = 101325 := by
    have := b64_int 101325 (by norm_num)
    push_cast at this ⊢
    exact this
  have e1 : (rndB binary64).mul ((rndB binary64).lit standard_pressure) (V.fin (b64 (b64 (b64 ((288.15 : ℚ) : ℝ) / temp64 h) ^ expo64)))
      = V.fin (pres64 h) := by
    have l : (rndB binary64).lit standard_pressure = V.fin (b64 ((101325 : ℚ) : ℝ)) := by
      show V.fin (b64 ((standard_pressure : ℚ) : ℝ)) = _
      rw [show (standard_pressure : ℚ) = 101325 by norm_num [standard_pressure]]
    refine (congrArg (fun v => (rndB binary64).mul v _) l).trans (vrnd64 (z := b64 ((101325 : ℚ) : ℝ) * _) ?_ rfl)
    rw [s, abs_of_nonneg (by positivity)]
    exact (show _ ≤ (101325 * 2 : ℝ) by gcongr).trans (by norm_num)
  exact (pressure_split (rndB binary64) (V.fin h)).trans (bind_of_ok (a := decide (binary64.rnd ((11000.0 : ℚ) : ℝ) < h)) rfl
      (bind_of_ok (ratio64 h0 h1) (bind_of_ok (pow64 h) (bind_of_ok hrp (congrArg Except.ok e1)))))

/-- Temperature of the code. -/
theorem temperature64 {h : ℝ} (h0 : -1000 ≤ h) (h1 : h ≤ 40000) :
    get_temperature_with_elevation (rndB binary64) (V.fin h)
      = V.fin (b64 (b64 ((288.15 : ℚ) : ℝ) + b64 (h * b64 ((-0.0065 : ℚ) : ℝ)))) := by
  obtain ⟨l0, l1⟩ := lapse64
  obtain ⟨t0, t1⟩ := ts64
  have a : ((-261 : ℤ) : ℝ) ≤ h * b64 ((-0.0065 : ℚ) : ℝ) := by
    generalize b64 ((-0.0065 : ℚ) : ℝ) = l at *
    push_cast; norm_num at *; nlinarith
  have b : h * b64 ((-0.0065 : ℚ) : ℝ) ≤ ((7 : ℤ) : ℝ) := by
    generalize b64 ((-0.0065 : ℚ) : ℝ) = l at *
    push_cast; norm_num at *; nlinarith
  have a' := b64_mono a
  have b' := b64_mono b
  rw [b64_int _ (by norm_num)] at a' b'
  have e1 : (rndB binary64).mul (V.fin h) ((rndB binary64).lit earth_temperature_lapse_rate)
      = V.fin (b64 (h * b64 ((-0.0065 : ℚ) : ℝ))) := by
    refine vrnd64 (z := h * b64 ((-0.0065 : ℚ) : ℝ)) (abs_le.2 ⟨le_trans ?_ a, b.trans ?_⟩) rfl <;> norm_num
  have e2 : (rndB binary64).add ((rndB binary64).lit standard_temperature) (V.fin (b64 (h * b64 ((-0.0065 : ℚ) : ℝ))))
      = V.fin (b64 (b64 ((288.15 : ℚ) : ℝ) + b64 (h * b64 ((-0.0065 : ℚ) : ℝ)))) := by
    refine vrnd64 (z := b64 ((288.15 : ℚ) : ℝ) + b64 (h * b64 ((-0.0065 : ℚ) : ℝ))) ?_ rfl
    generalize b64 (h * b64 ((-0.0065 : ℚ) : ℝ)) = y at *
    generalize b64 ((288.15 : ℚ) : ℝ) = t at *
    push_cast at a' b'
    rw [abs_le]
    constructor <;> norm_num at * <;> linarith
  exact (congrArg (fun v => (rndB binary64).add ((rndB binary64).lit standard_temperature) v) e1).trans e2

/-- The numpy backend agrees with the scalar one on a value. -/
theorem pressure64_numpy {h : ℝ} (h0 : -1000 ≤ h) (h1 : h ≤ 40000) :
    get_pressure_with_elevation (nprB binary64) (V.fin h) = .ok (V.fin (pres64 h)) := by
  obtain ⟨v, n, rfl⟩ := RelM.of_ok ((rndNp binary64).get_pressure_with_elevation (h := .fin h) (h' := .fin h) rfl
    rfl rfl rfl rfl rfl rfl rfl) (pressure64 h0 h1)
  exact n

/-- C171, pressure: between any two elevations from -1000 m to 40 km the higher place never has the higher pressure. -/
theorem C171_pressure (h h' : ℝ) (h0 : -1000 ≤ h) (hle : h ≤ h') (h1 : h' ≤ 40000) :
    ∃ P P' : ℝ, get_pressure_with_elevation (rndB binary64) (V.fin h) = .ok (V.fin P) ∧
      get_pressure_with_elevation (rndB binary64) (V.fin h') = .ok (V.fin P') ∧ P' ≤ P :=
  ⟨_, _, pressure64 h0 (hle.trans h1), pressure64 (h0.trans hle) h1, pres_antitone h0 hle h1⟩

theorem C171_pressure_numpy (h h' : ℝ) (h0 : -1000 ≤ h) (hle : h ≤ h') (h1 : h' ≤ 40000) :
    ∃ P P' : ℝ, get_pressure_with_elevation (nprB binary64) (V.fin h) = .ok (V.fin P) ∧
      get_pressure_with_elevation (nprB binary64) (V.fin h') = .ok (V.fin P') ∧ P' ≤ P :=
  ⟨_, _, pressure64_numpy h0 (hle.trans h1), pressure64_numpy (h0.trans hle) h1, pres_antitone h0 hle h1⟩

/-- C171, temperature, scalar and numpy. -/
theorem C171_temperature (h h' : ℝ) (h0 : -1000 ≤ h) (hle : h ≤ h') (h1 : h' ≤ 40000) :
    ∃ T T' : ℝ, get_temperature_with_elevation (rndB binary64) (V.fin h) = V.fin T ∧
      get_temperature_with_elevation (rndB binary64) (V.fin h') = V.fin T' ∧
      get_temperature_with_elevation (nprB binary64) (V.fin h) = V.fin T ∧
      get_temperature_with_elevation (nprB binary64) (V.fin h') = V.fin T' ∧ T' ≤ T := by
  refine ⟨_, _, temperature64 h0 (hle.trans h1), temperature64 (h0.trans hle) h1, temperature64 h0 (hle.trans h1),
    temperature64 (h0.trans hle) h1, ?_⟩
  refine b64_mono (add_le_add le_rfl (b64_mono ?_))
  exact mul_le_mul_of_nonpos_right hle (lapse64.2.trans (by norm_num))

/-- Two different elevations: La Paz (3640 m) and Amsterdam (-2 m). -/
example : ∃ P P' : ℝ, get_pressure_with_elevation (rndB binary64) (V.fin (-2)) = .ok (V.fin P) ∧
      get_pressure_with_elevation (rndB binary64) (V.fin 3640) = .ok (V.fin P') ∧ P' ≤ P :=
  C171_pressure (-2) 3640 (by norm_num) (by norm_num) (by norm_num)

end Verif.Props
