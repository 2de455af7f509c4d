import Verif.Proofs.FloatIrr
import Verif.Props.Defaults

/-!
# The standard atmosphere of elevation.py in floating-point arithmetic
-/

namespace Verif

open Verif.Spec Verif.Props Pysolar Pysolar.Elevation Pysolar.Constants Pysolar.Numeric

namespace Chain

open Ball hiding deg rad num

/-- The base of the power in `get_pressure_with_elevation`. -/
def ratioE (B : Backend) (h : B.α) : Py B.α :=
  B.div (B.lit standard_temperature) (B.lit standard_temperature + B.lit earth_temperature_lapse_rate * (h - 0.0))

/-- Its exponent, which depends on no argument. -/
def powE (B : Backend) (_ : B.α) : Py B.α :=
  B.div (B.lit earth_gravity * B.lit earth_atmosphere_molar_mass)
    (B.lit air_gas_constant * B.lit earth_temperature_lapse_rate)

def tempE (B : Backend) (h : B.α) : Py B.α := do
  return B.lit standard_temperature + h * B.lit earth_temperature_lapse_rate

theorem ratioE_sim {B B' : Backend} (S : Sim B B') {x x'} (hx : S.r x x') :
    RelM S.strict S.r (ratioE B x) (ratioE B' x') := by
  unfold ratioE
  sim

theorem powE_sim {B B' : Backend} (S : Sim B B') {x x'} (_ : S.r x x') :
    RelM S.strict S.r (powE B x) (powE B' x') := by
  unfold powE
  sim

theorem tempE_sim {B B' : Backend} (S : Sim B B') {x x'} (hx : S.r x x') :
    RelM S.strict S.r (tempE B x) (tempE B' x') := by
  unfold tempE
  sim

def elevB : Ball := .num (-500) 11000 0

theorem ratioE_ok : inside (ratioE B elevB) (.num (9888 / 10000) (1331 / 1000) (84 / 10 ^ 17)) = true := by decide +kernel
theorem powE_ok : inside (powE B elevB) (.num (-5256 / 1000) (-5255 / 1000) (41 / 10 ^ 16)) = true := by decide +kernel
theorem tempE_ok : inside (tempE B elevB) (.num 216 292 (81 / 10 ^ 15)) = true := by decide +kernel

theorem elevB_rel {h : ℝ} (h1 : -500 ≤ h) (h2 : h ≤ 11000) : elevB.rel (V.fin h, V.fin h) :=
  ⟨_, _, rfl, by push_cast; exact h1, by push_cast; exact h2, by simp⟩

theorem temp_float (F : F64) {h : ℝ} (h1 : -500 ≤ h) (h2 : h ≤ 11000) :
    ∃ T', get_temperature_with_elevation (rndB F) (V.fin h) = V.fin T' ∧ |T' - (288.15 - 0.0065 * h)| ≤ 81 / 10 ^ 15 := by
  obtain ⟨T', T, g1, g2, _, _, e, -, -, g3⟩ := ball_unary tempE_sim tempE_ok F 0 (elevB_rel h1 h2)
  cases e
  push_cast at g3
  refine ⟨T', Except.ok.inj g1, ?_⟩
  have e := (C116_standard_atmosphere 0 h (by linarith)).2
  rw [num_injective ((Except.ok.inj g2).symm.trans e)] at g3
  exact g3

theorem log_close {x y e : ℝ} (hx : 0 < x) (hy : 0 < y) (h : |x - y| ≤ e) : |Real.log x - Real.log y| ≤ e / min x y := by
  have h' := abs_le.1 h
  have hm : 0 < min x y := lt_min hx hy
  have he : 0 ≤ e := (abs_nonneg _).trans h
  rw [abs_le, ← Real.log_div hx.ne' hy.ne']
  constructor
  · have := Real.log_le_sub_one_of_pos (div_pos hy hx)
    have e1 : Real.log (x / y) = -Real.log (y / x) := by rw [← Real.log_inv, inv_div]
    have e2 : y / x - 1 = (y - x) / x := by field_simp
    have e3 : (y - x) / x ≤ e / x := by gcongr; linarith
    have e4 : e / x ≤ e / min x y := div_le_div_of_nonneg_left he hm (min_le_left _ _)
    linarith
  · have := Real.log_le_sub_one_of_pos (div_pos hx hy)
    have e2 : x / y - 1 = (x - y) / y := by field_simp
    have e3 : (x - y) / y ≤ e / y := by gcongr; linarith
    have e4 : e / y ≤ e / min x y := div_le_div_of_nonneg_left he hm (min_le_right _ _)
    linarith

theorem exp_close' {x y e : ℝ} (h : |x - y| ≤ e) (he : e ≤ 1 / 100) : |Real.exp x - Real.exp y| ≤ 1.01 * e * Real.exp y := by
  have e1 : Real.exp x = Real.exp y * Real.exp (x - y) := by rw [← Real.exp_add]; ring_nf
  have h0 := abs_nonneg (x - y)
  have h1 := Real.abs_exp_sub_one_sub_id_le (x := x - y) (by linarith)
  rw [e1, show Real.exp y * Real.exp (x - y) - Real.exp y = (Real.exp (x - y) - 1) * Real.exp y by ring, abs_mul,
    abs_of_pos (Real.exp_pos y)]
  refine mul_le_mul_of_nonneg_right ?_ (Real.exp_pos y).le
  have h2 : |Real.exp (x - y) - 1| ≤ |Real.exp (x - y) - 1 - (x - y)| + |x - y| := by
    have := abs_add_le (Real.exp (x - y) - 1 - (x - y)) (x - y)
    rwa [sub_add_cancel] at this
  have h3 : (x - y) ^ 2 ≤ 1 / 100 * e := by
    rw [← sq_abs, sq]
    exact mul_le_mul (h.trans he) h h0 (by norm_num)
  norm_num at *
  linarith

theorem pressure_split (B : Backend) (h : B.α) : get_pressure_with_elevation B h
    = B.truth (B.lt 11000.0 h) >>= fun _ => ratioE B h >>= fun q => powE B h >>= fun k => B.rpow q k >>= fun p =>
      .ok (B.lit standard_pressure * p) := by
  unfold get_pressure_with_elevation get_pressure_with_elevation_warn
  simp only [bind_assoc]
  rfl

theorem pow_range {q k : ℝ} (h1 : 0.9888 ≤ q) (h2 : q ≤ 1.331) (h3 : -6 ≤ k) (h4 : k ≤ 0) : 0.179 ≤ q ^ k ∧ q ^ k ≤ 1.07 := by
  have h0 : 0 < q := lt_of_lt_of_le (by norm_num) h1
  have e6 : q ^ (-6 : ℝ) = (q ^ 6)⁻¹ := by
    rw [Real.rpow_neg h0.le, show (6 : ℝ) = ((6 : ℕ) : ℝ) by norm_num, Real.rpow_natCast]
  have l6 : (0.9345 : ℝ) ≤ q ^ 6 := le_trans (by norm_num) (pow_le_pow_left₀ (by norm_num) h1 6)
  have u6 : q ^ 6 ≤ 5.561 := le_trans (pow_le_pow_left₀ h0.le h2 6) (by norm_num)
  have p6 : 0 < q ^ 6 := by positivity
  have lo : 0.179 ≤ q ^ (-6 : ℝ) := by
    rw [e6]
    refine le_trans (by norm_num) (inv_anti₀ p6 u6)
  have hi : q ^ (-6 : ℝ) ≤ 1.0701 := by
    rw [e6]
    refine le_trans (inv_anti₀ (by norm_num) l6) (by norm_num)
  rcases le_or_gt 1 q with h | h
  · exact ⟨lo.trans (Real.rpow_le_rpow_of_exponent_le h h3), (Real.rpow_le_one_of_one_le_of_nonpos h h4).trans (by norm_num)⟩
  · refine ⟨le_trans (by norm_num) (Real.one_le_rpow_of_pos_of_le_one_of_nonpos h0 h.le h4), ?_⟩
    refine (Real.rpow_le_rpow_of_exponent_ge h0 h.le h3).trans ?_
    rw [e6]
    refine le_trans (inv_anti₀ (by norm_num) (le_trans ?_ (pow_le_pow_left₀ (by norm_num) h1 6))) (by norm_num : (0.9346 : ℝ)⁻¹ ≤ 1.07)
    norm_num

theorem pressure_float (F : F64) (tp : ℝ) {h : ℝ} (h1 : -500 ≤ h) (h2 : h ≤ 11000) :
    ∃ P' P, get_pressure_with_elevation (rndB F) (V.fin h) = .ok (V.fin P') ∧
      get_pressure_with_elevation (mathB tp) (num h) = .ok (num P) ∧ 18000 ≤ P ∧ P ≤ 109000 ∧ |P' - P| ≤ 1 / 10 ^ 9 := by
  obtain ⟨q', q, hq, hqe, _, _, e, lq, uq, rq⟩ := ball_unary ratioE_sim ratioE_ok F tp (elevB_rel h1 h2)
  cases e
  obtain ⟨k', k, hk, hke, _, _, e, lk, uk, rk⟩ := ball_unary powE_sim powE_ok F tp (elevB_rel h1 h2)
  cases e
  push_cast at lq uq rq lk uk rk
  have rq' := abs_le.1 rq
  have rk' := abs_le.1 rk
  have hq0 : 0 < q := by linarith
  have hq1 : 0.9887 ≤ q' := by norm_num at *; linarith
  have hq0' : 0 < q' := lt_of_lt_of_le (by norm_num) hq1
  have hpow : (mathB tp).rpow (num q) (num k) = .ok (num (q ^ k)) := m_rpow hq0 k
  obtain ⟨E1, E2⟩ := pow_range (q := q) (k := k) (by norm_num at *; linarith) (by norm_num at *; linarith) (by linarith) (by linarith)
  have eP : get_pressure_with_elevation (mathB tp) (num h) = .ok (num (101325 * q ^ k)) := by
    have e0 : (mathB tp).lit standard_pressure * num (q ^ k) = num (101325 * q ^ k) := by
      rw [m_lit, m_mul]
      norm_num [standard_pressure]
    rw [pressure_split, hqe, hke]
    simp only [ok_bind, m_sci, m_lt, m_truth, hpow]
    exact congrArg Except.ok e0
  -- the power
  have hlog : |Real.log q' - Real.log q| ≤ 85 / 10 ^ 17 := by
    refine (log_close hq0' hq0 rq).trans ?_
    have hm : 0.9887 ≤ min q' q := le_min hq1 (by norm_num at *; linarith)
    rw [div_le_iff₀ (lt_of_lt_of_le (by norm_num) hm)]
    exact le_trans (by norm_num) (mul_le_mul_of_nonneg_left hm (by norm_num : (0 : ℝ) ≤ 85 / 10 ^ 17))
  have hlq : |Real.log q| ≤ 0.331 := by
    rw [abs_le]
    constructor
    · have := Real.one_sub_inv_le_log_of_pos hq0
      have h5 : q⁻¹ ≤ 1.02 := by
        rw [inv_le_comm₀ hq0 (by norm_num)]
        norm_num at *
        linarith
      norm_num at *
      linarith
    · have := Real.log_le_sub_one_of_pos hq0
      norm_num at *
      linarith
  have hx : |Real.log q' * k' - Real.log q * k| ≤ 59 / 10 ^ 16 := by
    have := mul_err hlog rk hlq (by rw [abs_le]; constructor <;> linarith : |k| ≤ 5.256)
    refine this.trans ?_
    norm_num
  have hE : |q' ^ k' - q ^ k| ≤ 6 / 10 ^ 15 * 1.07 := by
    have g := exp_close' hx (by norm_num)
    rw [← Real.rpow_def_of_pos hq0', ← Real.rpow_def_of_pos hq0] at g
    refine g.trans ?_
    norm_num at *
    linarith
  have hE' := abs_le.1 hE
  have g1 : (1 : ℝ) / 2 ^ 1074 ≤ 1 / 2 ^ 100 := one_div_le_one_div_of_le (by norm_num) (pow_le_pow_right₀ (by norm_num) (by norm_num))
  have hF : |F.pow q' k' - q ^ k| ≤ 7 / 10 ^ 15 := by
    have g2 := F.pow_err q' k' hq0'
    have g3 := abs_sub_le (F.pow q' k') (q' ^ k') (q ^ k)
    have g4 : q' ^ k' / 2 ^ 51 ≤ 1.08 / 2 ^ 51 := by
      gcongr
      norm_num at *
      linarith
    have g5 := g2.trans (add_le_add g4 g1)
    norm_num at g3 g5 hE ⊢
    linarith
  have hF' := abs_le.1 hF
  have hrp : (rndB F).rpow (V.fin q') (V.fin k') = .ok (V.fin (F.pow q' k')) := by
    refine (if_pos hq0').trans (if_neg ?_)
    rw [not_le]
    have g3 : (2 : ℝ) ≤ 2 ^ 1024 := le_self_pow₀ (by norm_num) (by norm_num)
    refine lt_of_lt_of_le ?_ g3
    norm_num at *
    linarith
  have hPs : (rndB F).lit standard_pressure = V.fin 101325 := by
    have := lit_fin F 101325 (by norm_num)
    have e : (standard_pressure : ℚ) = ((101325 : ℤ) : ℚ) := by norm_num [standard_pressure]
    rw [e]
    push_cast at this ⊢
    exact this
  have hb : |101325 * F.pow q' k'| ≤ 110000 := by
    rw [abs_le]
    norm_num at *
    constructor <;> linarith
  refine ⟨F.rnd (101325 * F.pow q' k'), 101325 * q ^ k, ?_, eP, ?_, ?_, ?_⟩
  · have hb' : |101325 * F.pow q' k'| ≤ 2 ^ 1000 := hb.trans
      (le_trans (by norm_num : (110000 : ℝ) ≤ 2 ^ 40) (pow_le_pow_right₀ (by norm_num) (by norm_num)))
    have e1 : (rndB F).mul ((rndB F).lit standard_pressure) (V.fin (F.pow q' k')) = V.fin (F.rnd (101325 * F.pow q' k')) :=
      (congrArg (fun v => (rndB F).mul v (V.fin (F.pow q' k'))) hPs).trans (rnd_fin_big F hb')
    refine (pressure_split (rndB F) (V.fin h)).trans (bind_of_ok (a := decide (F.rnd ((11000.0 : ℚ) : ℝ) < h)) rfl
      (bind_of_ok hq (bind_of_ok hk (bind_of_ok hrp (congrArg Except.ok e1)))))
  · norm_num at *
    linarith
  · norm_num at *
    linarith
  · have g2 := F.err (101325 * F.pow q' k')
    have g3 := abs_sub_le (F.rnd (101325 * F.pow q' k')) (101325 * F.pow q' k') (101325 * q ^ k)
    have g4 : |101325 * F.pow q' k' - 101325 * q ^ k| ≤ 101325 * (7 / 10 ^ 15) := by
      rw [← mul_sub, abs_mul, abs_of_pos (by norm_num : (0 : ℝ) < 101325)]
      exact mul_le_mul_of_nonneg_left hF (by norm_num)
    have g5 := g2.trans (add_le_add (div_le_div_of_nonneg_right hb (by norm_num)) tiny_le)
    norm_num at g3 g4 g5 ⊢
    linarith

end Chain
end Verif
