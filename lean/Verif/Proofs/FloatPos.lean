import Verif.Proofs.FloatChain
import Verif.Proofs.FloatAngles

/-!
# The topocentric position in floating-point arithmetic
-/

namespace Verif

open Verif.Spec Pysolar Pysolar.Solar Pysolar.Constants Pysolar.Solartime

/-- The same input to both computations. -/
noncomputable def dup (F : F64) (tp x : ℝ) : (fxB F tp).α := (V.fin x, V.fin x)

theorem dup_rel (F : F64) (tp : ℝ) {x : ℝ} {lo hi : ℚ} (h1 : (lo : ℝ) ≤ x) (h2 : x ≤ hi) :
    (Ball.num lo hi 0).rel (dup F tp x) := ⟨x, x, rfl, h1, h2, by simp⟩

theorem bind_of_ok {β γ : Type} {m : Py β} {a : β} {f : β → Py γ} {r : Py γ} (h : m = .ok a) (h' : f a = r) :
    (m >>= f) = r := by
  subst h
  exact h'

/-- `math.radians(90.0)` and `math.radians(-90.0)` are short of a right angle (in double precision by 6e-17). -/
def PoleOk (F : F64) : Prop :=
  F.rnd (90 * F.rnd (F.rnd Real.pi / 180)) ≤ Real.pi / 2 - 1 / 2 ^ 54 ∧
  -(Real.pi / 2 - 1 / 2 ^ 54) ≤ F.rnd (-90 * F.rnd (F.rnd Real.pi / 180))

/-- Latitudes from pole to pole. At the poles themselves the exact computation, in which `tp` stands for the tangent of
a right angle, is compared only if `tp` is large and of the sign of the latitude. -/
def LatOk (F : F64) (tp φ : ℝ) : Prop :=
  |φ| ≤ 90 - 1 / 10 ^ 9 ∨ PoleOk F ∧ |φ| ≤ 90 ∧ (φ = 90 → 10 ^ 15 ≤ tp) ∧ (φ = -90 → tp ≤ -10 ^ 15)

theorem LatOk.le {F : F64} {tp φ : ℝ} (h : LatOk F tp φ) : |φ| ≤ 90 := by
  rcases h with h | h
  · exact h.trans (by norm_num)
  · exact h.2.1

namespace Chain

open Ball

def latIn : Ball := .num (-90) 90 0
def latRad : Ball := .num (-158 / 100) (158 / 100) (1 / 10 ^ 15)
def flatRad : Ball := .num (-16 / 10) (16 / 10) (1 / 10 ^ 14)
def flat : Ball := .num (-92) 92 (1 / 10 ^ 12)

theorem latRad_ok : stronger (B.radians latIn) latRad = true := by decide +kernel
theorem flat_ok : stronger (B.degrees flatRad) flat = true := by decide +kernel

/-- The latitude in radians. -/
theorem latRad_rel (F : F64) (tp : ℝ) {φ : ℝ} (h : |φ| ≤ 90) :
    ∃ x, (fxB F tp).radians (dup F tp φ) = (V.fin x, V.fin (φ * Real.pi / 180)) ∧
      |x - φ * Real.pi / 180| ≤ 1 / 10 ^ 15 ∧ x = F.rnd (φ * F.rnd (F.rnd Real.pi / 180)) := by
  have hφ := abs_le.1 h
  have h0 : latIn.rel (dup F tp φ) := dup_rel F tp (by push_cast; linarith) (by push_cast; linarith)
  have h1 := rel_of_stronger (radians_rel F tp h0) latRad_ok
  obtain ⟨x, y, hxy, -, -, he⟩ := h1
  have hy : φ * Real.pi / 180 = y := by
    have : V.fin (φ * Real.pi / 180) = V.fin y := congrArg Prod.snd hxy
    exact V.fin.inj this
  push_cast at he
  refine ⟨x, by rw [hy]; exact hxy, by rw [hy]; exact he, ?_⟩
  have hx : V.rnd F (.fin (φ * F.rnd (F.rnd Real.pi / 180))) = V.fin x := congrArg Prod.fst hxy
  simp only [V.rnd] at hx
  split_ifs at hx
  exact (V.fin.inj hx).symm

theorem cos_ge_of {t : ℝ} (ht : |t| ≤ Real.pi / 2 - 1 / 2 ^ 54) : 1 / 2 ^ 55 ≤ Real.cos t := by
  have hpi' := Real.pi_lt_d20
  rw [← Real.cos_abs, ← Real.sin_pi_div_two_sub]
  have h2 : 1 / 2 ^ 54 ≤ Real.pi / 2 - |t| := by linarith
  have h3 : Real.pi / 2 - |t| ≤ Real.pi / 2 := by linarith [abs_nonneg t]
  have h4 := Real.mul_le_sin (x := Real.pi / 2 - |t|) (le_trans (by norm_num) h2) h3
  refine le_trans ?_ h4
  have h5 : (6 : ℝ) / 10 ≤ 2 / Real.pi := by
    rw [le_div_iff₀ Real.pi_pos]
    norm_num at hpi' ⊢
    linarith
  calc (1 : ℝ) / 2 ^ 55 ≤ 6 / 10 * (1 / 2 ^ 54) := by norm_num
    _ ≤ _ := mul_le_mul h5 h2 (by norm_num) (by positivity)

theorem tan_le_of {t : ℝ} (ht : |t| ≤ Real.pi / 2 - 1 / 2 ^ 54) : |Real.tan t| ≤ 2 ^ 55 := by
  have hc := cos_ge_of ht
  have hc0 : 0 < Real.cos t := lt_of_lt_of_le (by norm_num) hc
  rw [Real.tan_eq_sin_div_cos, abs_div, abs_of_pos hc0, div_le_iff₀ hc0]
  have := Real.abs_sin_le_one t
  nlinarith

/-- The computed tangent, and its product with the literal: finite, and exact up to a relative and a tiny error. -/
theorem flatProd (F : F64) {x : ℝ} (hx : |x| ≤ Real.pi / 2 - 1 / 2 ^ 54) :
    V.rnd F (.fin (F.rnd 0.99664719 * F.tan x)) = .fin (F.rnd (F.rnd 0.99664719 * F.tan x)) ∧
    |F.rnd (F.rnd 0.99664719 * F.tan x) - 0.99664719 * Real.tan x|
      ≤ |0.99664719 * Real.tan x| / 2 ^ 48 + 3 * tiny := by
  have hcx0 : Real.cos x ≠ 0 := ne_of_gt (lt_of_lt_of_le (by norm_num) (cos_ge_of hx))
  have htx := tan_le_of hx
  -- the computed tangent, literal and product
  have ht := (F.tan_err x hcx0).trans (add_le_add le_rfl two_1074)
  have htiny := tiny_le
  set T := F.tan x with hT
  have hK := F.err 0.99664719
  set K := F.rnd 0.99664719 with hKdef
  rw [abs_of_pos (by norm_num : (0 : ℝ) < 0.99664719)] at hK
  have hTabs : |T| ≤ 2 ^ 56 := by
    have h2 : |Real.tan x| / 2 ^ 51 ≤ 2 ^ 55 / 2 ^ 51 := by gcongr
    calc |T| = |Real.tan x + (T - Real.tan x)| := by ring_nf
      _ ≤ |Real.tan x| + |T - Real.tan x| := abs_add_le _ _
      _ ≤ _ := by norm_num at h2 htiny ht htx ⊢; linarith
  have hKabs : |K| ≤ 1 := by
    rw [abs_le] at hK ⊢
    norm_num at hK htiny ⊢
    constructor <;> linarith
  have hprod : |K * T| ≤ 2 ^ 56 := by
    rw [abs_mul]
    nlinarith [abs_nonneg K, abs_nonneg T]
  have hz := V.rnd_fin F (z := K * T) (hprod.trans (by norm_num))
  set z := F.rnd (K * T) with hzdef
  have hzerr := F.err (K * T)
  -- the product is the exact one for `x`, up to a relative and a tiny error
  set m := 0.99664719 * Real.tan x with hm
  have hrel : |z - m| ≤ |m| / 2 ^ 48 + 3 * tiny := by
    have ha : |K * T - m| ≤ |Real.tan x| / 2 ^ 50 + tiny * 1.5 := by
      have : K * T - m = K * (T - Real.tan x) + (K - 0.99664719) * Real.tan x := by rw [hm]; ring
      rw [this]
      refine (abs_add_le _ _).trans ?_
      rw [abs_mul, abs_mul]
      have h3 : |K| * |T - Real.tan x| ≤ 1 * (|Real.tan x| / 2 ^ 51 + tiny) :=
        mul_le_mul hKabs ht (abs_nonneg _) (by norm_num)
      have h4 : |K - 0.99664719| * |Real.tan x| ≤ (1 / 2 ^ 52) * |Real.tan x| := by
        refine mul_le_mul_of_nonneg_right (hK.trans ?_) (abs_nonneg _)
        norm_num at htiny ⊢
        linarith
      have h5 : 0 ≤ |Real.tan x| := abs_nonneg _
      have h6 := tiny_pos
      have e1 : |Real.tan x| / 2 ^ 50 = |Real.tan x| / 2 ^ 51 + 2 * (1 / 2 ^ 52 * |Real.tan x|) := by ring
      rw [e1]
      have e2 : 0 ≤ 1 / 2 ^ 52 * |Real.tan x| := by positivity
      linarith
    have hb : |K * T| ≤ |m| + (|Real.tan x| / 2 ^ 50 + tiny * 1.5) := by
      calc |K * T| = |m + (K * T - m)| := by ring_nf
        _ ≤ |m| + |K * T - m| := abs_add_le _ _
        _ ≤ _ := by linarith
    have hmt : |Real.tan x| ≤ 1.01 * |m| := by
      rw [hm, abs_mul, abs_of_pos (by norm_num : (0 : ℝ) < 0.99664719)]
      nlinarith [abs_nonneg (Real.tan x)]
    calc |z - m| = |(z - K * T) + (K * T - m)| := by ring_nf
      _ ≤ |z - K * T| + |K * T - m| := abs_add_le _ _
      _ ≤ _ := by
        have h6 := tiny_pos
        have e1 : |Real.tan x| / 2 ^ 50 ≤ 1.01 * |m| / 2 ^ 50 := by gcongr
        have e2 : |K * T| / 2 ^ 53 ≤ (|m| + (1.01 * |m| / 2 ^ 50 + tiny * 1.5)) / 2 ^ 53 := by
          gcongr
          linarith
        have e3 := abs_nonneg m
        norm_num at e1 e2 ha hzerr ⊢
        linarith
  exact ⟨hz, hrel⟩

theorem flat_step (F : F64) (tp : ℝ) {φ x y0 t : ℝ} (e0 : (fxB F tp).radians (dup F tp φ) = (V.fin x, V.fin y0))
    (hx : |x| ≤ Real.pi / 2 - 1 / 2 ^ 54) (hy : (mathB tp).tan (.fin y0) = .ok (.fin t))
    (hd : |Real.arctan (F.rnd (F.rnd 0.99664719 * F.tan x)) - Real.arctan (0.99664719 * t)| ≤ 9 / 10 ^ 15) :
    ∃ p, get_flattened_latitude (fxB F tp) (dup F tp φ) = .ok p ∧ flat.rel p := by
  obtain ⟨hz, -⟩ := flatProd F hx
  set T := F.tan x with hT
  set z := F.rnd (F.rnd 0.99664719 * T) with hzdef
  have hatan := F.atan_err z
  have h2 : flatRad.rel (V.fin (F.atan z), V.fin (Real.arctan (0.99664719 * t))) := by
    have hb := abs_le.1 (abs_arctan_le' (0.99664719 * t))
    refine ⟨_, _, rfl, ?_, ?_, ?_⟩
    · push_cast; linarith [hb.1]
    · push_cast; linarith [hb.2]
    · push_cast
      calc |F.atan z - Real.arctan (0.99664719 * t)|
          = |(F.atan z - Real.arctan z) + (Real.arctan z - Real.arctan (0.99664719 * t))| := by ring_nf
        _ ≤ |F.atan z - Real.arctan z| + |Real.arctan z - Real.arctan (0.99664719 * t)| := abs_add_le _ _
        _ ≤ _ := by norm_num at hatan hd ⊢; linarith only [hatan, hd]
  have h3 := rel_of_stronger (degrees_rel F tp h2) flat_ok
  refine ⟨_, ?_, h3⟩
  have e1 : (fxB F tp).tan ((fxB F tp).radians (dup F tp φ)) = .ok (V.fin T, V.fin t) := by
    rw [e0]
    show both ((rndB F).tan (.fin x)) ((mathB tp).tan (.fin y0)) = _
    rw [hy]
    rfl
  have e2 : (fxB F tp).mul (0.99664719 : (fxB F tp).α) (V.fin T, V.fin t)
      = (V.fin z, V.fin (0.99664719 * t)) := by
    have hl : (((0.99664719 : ℚ)) : ℝ) = 0.99664719 := by norm_num
    refine Prod.ext ?_ ?_
    · show V.rnd F (.fin (F.rnd ((0.99664719 : ℚ) : ℝ) * T)) = _
      rw [hl]
      exact hz
    · show V.fin (((0.99664719 : ℚ) : ℝ) * t) = _
      rw [hl]
  unfold get_flattened_latitude
  simp only []
  rw [e1]
  show ((fxB F tp).atan ((fxB F tp).mul (0.99664719 : (fxB F tp).α) (V.fin T, V.fin t)) >>=
    fun a => .ok ((fxB F tp).degrees a)) = _
  rw [e2]
  rfl

/-- Short of the poles. -/
theorem flat_rel_lt (F : F64) (tp : ℝ) {φ x : ℝ} (h : |φ| < 90)
    (e0 : (fxB F tp).radians (dup F tp φ) = (V.fin x, V.fin (φ * Real.pi / 180)))
    (he : |x - φ * Real.pi / 180| ≤ 1 / 10 ^ 15) (hx : |x| ≤ Real.pi / 2 - 1 / 2 ^ 54) :
    ∃ p, get_flattened_latitude (fxB F tp) (dup F tp φ) = .ok p ∧ flat.rel p := by
  have hy1 : |φ * Real.pi / 180| < Real.pi / 2 := by
    rw [abs_div, abs_mul, abs_of_pos Real.pi_pos, abs_of_pos (by norm_num : (0 : ℝ) < 180)]
    rw [div_lt_iff₀ (by norm_num)]
    nlinarith [Real.pi_pos]
  set y := φ * Real.pi / 180 with hy
  have hcy0 : Real.cos y ≠ 0 := (Real.cos_pos_of_mem_Ioo (abs_lt.1 hy1)).ne'
  obtain ⟨-, hrel⟩ := flatProd F hx
  have htiny := tiny_le
  set z := F.rnd (F.rnd 0.99664719 * F.tan x) with hzdef
  set m := 0.99664719 * Real.tan x with hm
  have harc : |Real.arctan z - Real.arctan m| ≤ 1 / 2 ^ 47 := by
    by_cases hm0 : m = 0
    · rw [hm0] at hrel ⊢
      refine (lip_arctan z 0).trans (hrel.trans ?_)
      norm_num at htiny ⊢
      linarith
    · by_cases hms : |m| ≤ 1 / 2 ^ 50
      · refine (lip_arctan z m).trans (hrel.trans ?_)
        have : |m| / 2 ^ 48 ≤ (1 / 2 ^ 50) / 2 ^ 48 := by gcongr
        norm_num at htiny this ⊢
        linarith
      · have hmpos : 0 < |m| := abs_pos.2 hm0
        have hδ : |(z - m) / m| ≤ 1 / 2 ^ 47 := by
          rw [abs_div, div_le_iff₀ hmpos]
          refine hrel.trans ?_
          push Not at hms
          have : (1 : ℝ) / 2 ^ 47 * |m| = |m| / 2 ^ 48 + 1 / 2 ^ 48 * |m| := by ring
          rw [this]
          have h7 : 1 / 2 ^ 48 * (1 / 2 ^ 50) ≤ 1 / 2 ^ 48 * |m| := by gcongr
          norm_num at htiny h7 ⊢
          linarith
        have := arctan_mul_close m ((z - m) / m) (hδ.trans (by norm_num))
        rw [show m * (1 + (z - m) / m) = z by field_simp; ring] at this
        exact this.trans hδ
  have hred := reduced_close (k := 0.99664719) (by norm_num) (by norm_num)
    (lt_of_le_of_lt hx (by norm_num)) hy1
  rw [← hm] at hred
  refine flat_step F tp e0 hx (t := Real.tan y) ?_ ?_
  · simp only [mathB, if_neg hcy0]
  · calc |Real.arctan z - Real.arctan (0.99664719 * Real.tan y)|
        = |(Real.arctan z - Real.arctan m) + (Real.arctan m - Real.arctan (0.99664719 * Real.tan y))| := by ring_nf
      _ ≤ |Real.arctan z - Real.arctan m| + |Real.arctan m - Real.arctan (0.99664719 * Real.tan y)| := abs_add_le _ _
      _ ≤ _ := by norm_num at harc hred he ⊢; linarith only [harc, hred, he]

theorem arctan_large {z : ℝ} (hz : 0 < z) : |Real.arctan z - Real.pi / 2| ≤ 1 / z := by
  have h1 := Real.arctan_inv_of_pos hz
  have h2 := lip_arctan z⁻¹ 0
  rw [Real.arctan_zero, sub_zero, sub_zero, abs_of_pos (inv_pos.2 hz)] at h2
  have h2 := (le_abs_self _).trans h2
  have h3 := Real.arctan_nonneg.2 (inv_nonneg.2 hz.le)
  rw [abs_le, one_div]
  constructor <;> linarith

/-- At the poles. -/
theorem flat_rel_pole (F : F64) (tp : ℝ) {φ x s : ℝ} (hs : s = 1 ∨ s = -1) (hφ : φ = s * 90)
    (e0 : (fxB F tp).radians (dup F tp φ) = (V.fin x, V.fin (φ * Real.pi / 180)))
    (he : |x - φ * Real.pi / 180| ≤ 1 / 10 ^ 15) (hx : |x| ≤ Real.pi / 2 - 1 / 2 ^ 54) (ht : 10 ^ 15 ≤ s * tp) :
    ∃ p, get_flattened_latitude (fxB F tp) (dup F tp φ) = .ok p ∧ flat.rel p := by
  have hpi := Real.pi_gt_d20
  have hs2 : s * s = 1 := by rcases hs with rfl | rfl <;> norm_num
  have hs1 : |s| = 1 := by rcases hs with rfl | rfl <;> norm_num
  have harct : ∀ a : ℝ, Real.arctan (s * a) = s * Real.arctan a := by
    intro a
    rcases hs with rfl | rfl
    · simp
    · rw [neg_one_mul, neg_one_mul, Real.arctan_neg]
  have htan : ∀ a : ℝ, Real.tan (s * a) = s * Real.tan a := by
    intro a
    rcases hs with rfl | rfl
    · simp
    · rw [neg_one_mul, neg_one_mul, Real.tan_neg]
  have hy : φ * Real.pi / 180 = s * (Real.pi / 2) := by rw [hφ]; ring
  rw [hy] at e0 he
  have hcy0 : Real.cos (s * (Real.pi / 2)) = 0 := by
    rcases hs with rfl | rfl
    · rw [one_mul, Real.cos_pi_div_two]
    · rw [neg_one_mul, Real.cos_neg, Real.cos_pi_div_two]
  obtain ⟨-, hrel⟩ := flatProd F hx
  have htiny := tiny_le
  set z := F.rnd (F.rnd 0.99664719 * F.tan x) with hzdef
  -- the computed angle is short of a right angle by at most 1e-15
  obtain ⟨δ, hδ⟩ : ∃ δ, δ = Real.pi / 2 - s * x := ⟨_, rfl⟩
  have hsx : x = s * (s * x) := by rw [← mul_assoc, hs2, one_mul]
  have habs : |s * x| ≤ Real.pi / 2 - 1 / 2 ^ 54 := by rw [abs_mul, hs1, one_mul]; exact hx
  have hδ0 : 1 / 2 ^ 54 ≤ δ := by have := (abs_le.1 habs).2; rw [hδ]; linarith
  have hδ1 : δ ≤ 1 / 10 ^ 15 := by
    have e : δ = -(s * (x - s * (Real.pi / 2))) := by rw [hδ]; linear_combination (Real.pi / 2 : ℝ) * (-hs2)
    rw [e]
    have : |s * (x - s * (Real.pi / 2))| ≤ 1 / 10 ^ 15 := by rw [abs_mul, hs1, one_mul]; exact he
    exact (neg_le_abs _).trans this
  have hδp : 0 < δ := lt_of_lt_of_le (by norm_num) hδ0
  have hsin : 0 < Real.sin δ := Real.sin_pos_of_pos_of_lt_pi hδp (by norm_num at hδ1 hpi ⊢; linarith)
  have hcos : 0.99 ≤ Real.cos δ := by
    have := Real.one_sub_sq_div_two_le_cos (x := δ)
    norm_num at hδ1 ⊢
    nlinarith
  have htx : Real.tan x = s * (Real.cos δ / Real.sin δ) := by
    have e : s * x = Real.pi / 2 - δ := by rw [hδ]; ring
    calc Real.tan x = Real.tan (s * (s * x)) := congrArg Real.tan hsx
      _ = s * Real.tan (Real.pi / 2 - δ) := by rw [htan, e]
      _ = _ := by rw [Real.tan_eq_sin_div_cos, Real.sin_pi_div_two_sub, Real.cos_pi_div_two_sub]
  have hbig : 9 * 10 ^ 14 ≤ Real.cos δ / Real.sin δ := by
    rw [le_div_iff₀ hsin]
    have := Real.sin_le hδp.le
    norm_num at hδ1 hcos ⊢
    linarith
  set r := Real.cos δ / Real.sin δ with hr
  have hz1 : 8 * 10 ^ 14 ≤ s * z := by
    rw [htx] at hrel
    have e1 : |0.99664719 * (s * r)| = 0.99664719 * r := by
      rw [abs_mul, abs_mul, hs1, one_mul, abs_of_pos (by norm_num : (0 : ℝ) < 0.99664719),
        abs_of_pos (lt_of_lt_of_le (by norm_num) hbig)]
    rw [e1] at hrel
    have h1 : |s * (z - 0.99664719 * (s * r))| ≤ 0.99664719 * r / 2 ^ 48 + 3 * tiny := by
      rw [abs_mul, hs1, one_mul]; exact hrel
    have h2 := (abs_le.1 h1).1
    have e2 : s * (z - 0.99664719 * (s * r)) = s * z - 0.99664719 * r := by
      linear_combination (-0.99664719 * r) * hs2
    rw [e2] at h2
    norm_num at h2 htiny hbig ⊢
    linarith
  refine flat_step F tp e0 hx (t := tp) ?_ ?_
  · simp only [mathB, if_pos hcy0]
  · have hsz : z = s * (s * z) := by rw [← mul_assoc, hs2, one_mul]
    have hst : 0.99664719 * tp = s * (0.99664719 * (s * tp)) := by linear_combination (-0.99664719 * tp) * hs2
    have hz0 : 0 < s * z := lt_of_lt_of_le (by norm_num) hz1
    have hk : 9 * 10 ^ 14 ≤ 0.99664719 * (s * tp) := by norm_num at ht ⊢; linarith
    have hk0 : 0 < 0.99664719 * (s * tp) := lt_of_lt_of_le (by norm_num) hk
    have h1 := arctan_large hz0
    have h2 := arctan_large hk0
    have h3 : 1 / (s * z) ≤ 1 / (8 * 10 ^ 14) := one_div_le_one_div_of_le (by norm_num) hz1
    have h4 : 1 / (0.99664719 * (s * tp)) ≤ 1 / (9 * 10 ^ 14) := one_div_le_one_div_of_le (by norm_num) hk
    have e3 : Real.arctan z = s * Real.arctan (s * z) := by rw [← harct, ← hsz]
    rw [← hzdef, e3, hst, harct (0.99664719 * (s * tp)), ← mul_sub, abs_mul, hs1, one_mul]
    have h5 : Real.arctan (s * z) - Real.arctan (0.99664719 * (s * tp))
        = (Real.arctan (s * z) - Real.pi / 2) - (Real.arctan (0.99664719 * (s * tp)) - Real.pi / 2) := by ring
    rw [h5]
    refine (abs_sub _ _).trans ?_
    norm_num at h1 h2 h3 h4 ⊢
    linarith

/-- The flattened latitude. -/
theorem flat_rel (F : F64) (tp : ℝ) {φ : ℝ} (h : LatOk F tp φ) :
    ∃ p, get_flattened_latitude (fxB F tp) (dup F tp φ) = .ok p ∧ flat.rel p := by
  obtain ⟨x, e0, he, hx⟩ := latRad_rel F tp h.le
  have hpi := Real.pi_gt_d20
  rcases h with h | ⟨⟨hp, hn⟩, h, h90, hm90⟩
  · refine flat_rel_lt F tp (lt_of_le_of_lt h (by norm_num)) e0 he ?_
    have hy1 : |φ * Real.pi / 180| ≤ Real.pi / 2 - 1 / 10 ^ 11 := by
      rw [abs_div, abs_mul, abs_of_pos Real.pi_pos, abs_of_pos (by norm_num : (0 : ℝ) < 180)]
      rw [div_le_iff₀ (by norm_num)]
      nlinarith
    calc |x| = |φ * Real.pi / 180 + (x - φ * Real.pi / 180)| := by ring_nf
      _ ≤ |φ * Real.pi / 180| + |x - φ * Real.pi / 180| := abs_add_le _ _
      _ ≤ _ := by norm_num at hy1 he ⊢; linarith
  · have hφ := abs_le.1 h
    have hc : 0 ≤ F.rnd (F.rnd Real.pi / 180) := by
      have e : F.rnd 0 = 0 := by simpa using F.rnd_int 0 (by norm_num)
      have h1 : 0 ≤ F.rnd Real.pi := by rw [← e]; exact F.rnd_mono Real.pi_pos.le
      have h2 := F.rnd_mono (show 0 ≤ F.rnd Real.pi / 180 by positivity)
      rwa [e] at h2
    have hxb : |x| ≤ Real.pi / 2 - 1 / 2 ^ 54 := by
      rw [hx, abs_le]
      exact ⟨hn.trans (F.rnd_mono (mul_le_mul_of_nonneg_right hφ.1 hc)),
        (F.rnd_mono (mul_le_mul_of_nonneg_right hφ.2 hc)).trans hp⟩
    rcases h.lt_or_eq with hlt | heq
    · exact flat_rel_lt F tp hlt e0 he hxb
    · rcases eq_or_eq_neg_of_abs_eq heq with e | e
      · exact flat_rel_pole F tp (s := 1) (.inl rfl) (by rw [e]; ring) e0 he hxb (by rw [one_mul]; exact h90 e)
      · exact flat_rel_pole F tp (s := -1) (.inr rfl) (by rw [e]; ring) e0 he hxb (by linarith [hm90 e])

/-! ## The observer's distances -/

def elevIn : Ball := .num (-50000) 50000 0
def prd : Ball := .num (-1) 2 (3 / 10 ^ 14)
def pad : Ball := .num (-2) 2 (3 / 10 ^ 14)

/-- `get_projected_radial_distance` after the flattened latitude. -/
def prdOf (B : Backend) (elevation latitude flattened : B.α) : Py B.α := do
  let flattened_latitude_rad := B.radians flattened
  let latitude_rad := B.radians latitude
  return (← B.cos flattened_latitude_rad) + (elevation * (← B.cos latitude_rad) /. earth_radius)

/-- `get_projected_axial_distance` after the flattened latitude. -/
def padOf (B : Backend) (elevation latitude flattened : B.α) : Py B.α := do
  let flattened_latitude_rad := B.radians flattened
  let latitude_rad := B.radians latitude
  return 0.99664719 * (← B.sin flattened_latitude_rad)
    + (elevation * (← B.sin latitude_rad) /. earth_radius)

theorem prdOf_sim {B B' : Backend} (S : Sim B B') {x x'} (hx : S.r x x') {y y'} (hy : S.r y y') {z z'} (hz : S.r z z') :
    RelM S.strict S.r (prdOf B x y z) (prdOf B' x' y' z') := by
  unfold prdOf
  sim

theorem padOf_sim {B B' : Backend} (S : Sim B B') {x x'} (hx : S.r x x') {y y'} (hy : S.r y y') {z z'} (hz : S.r z z') :
    RelM S.strict S.r (padOf B x y z) (padOf B' x' y' z') := by
  unfold padOf
  sim

theorem prd_ok : inside (prdOf B elevIn latIn flat) prd = true := by decide +kernel
theorem pad_ok : inside (padOf B elevIn latIn flat) pad = true := by decide +kernel

theorem prd_rel (F : F64) (tp : ℝ) {φ h : ℝ} (hφ : LatOk F tp φ) (hh : |h| ≤ 50000) :
    ∃ p, get_projected_radial_distance (fxB F tp) (dup F tp h) (dup F tp φ) = .ok p ∧ prd.rel p := by
  obtain ⟨f, hf, hfr⟩ := flat_rel F tp hφ
  have h1 := abs_le.1 hφ.le
  have h2 := abs_le.1 hh
  have a : latIn.rel (dup F tp φ) := dup_rel F tp (by push_cast; linarith) (by push_cast; linarith)
  have b : elevIn.rel (dup F tp h) := dup_rel F tp (by push_cast; linarith) (by push_cast; linarith)
  obtain ⟨p, hp, hr⟩ := ok_of_inside (prdOf_sim (x := elevIn) (y := latIn) (z := flat) (x' := dup F tp h) (y' := dup F tp φ) (ballSim F tp).toSim b a hfr) prd_ok
  refine ⟨p, ?_, hr⟩
  unfold get_projected_radial_distance
  rw [hf]
  exact hp

theorem pad_rel (F : F64) (tp : ℝ) {φ h : ℝ} (hφ : LatOk F tp φ) (hh : |h| ≤ 50000) :
    ∃ p, get_projected_axial_distance (fxB F tp) (dup F tp h) (dup F tp φ) = .ok p ∧ pad.rel p := by
  obtain ⟨f, hf, hfr⟩ := flat_rel F tp hφ
  have h1 := abs_le.1 hφ.le
  have h2 := abs_le.1 hh
  have a : latIn.rel (dup F tp φ) := dup_rel F tp (by push_cast; linarith) (by push_cast; linarith)
  have b : elevIn.rel (dup F tp h) := dup_rel F tp (by push_cast; linarith) (by push_cast; linarith)
  obtain ⟨p, hp, hr⟩ := ok_of_inside (padOf_sim (x := elevIn) (y := latIn) (z := flat) (x' := dup F tp h) (y' := dup F tp φ) (ballSim F tp).toSim b a hfr) pad_ok
  refine ⟨p, ?_, hr⟩
  unfold get_projected_axial_distance
  rw [hf]
  exact hp

/-! ## The right ascension -/

def raYb : Ball := .num (-11 / 10) (11 / 10) (5 / 10 ^ 10)
def raXb : Ball := .num (-1) 1 (5 / 10 ^ 10)
def raRad : Ball := .rad 4 (25 / 10 ^ 10)
def ra : Ball := .deg 361 (15 / 10 ^ 8)

/-- The first argument of `atan2` in `get_geocentric_sun_right_ascension`. -/
def raY (B : Backend) (apparent_sun_longitude true_ecliptic_obliquity geocentric_latitude : B.α) : Py B.α := do
  let apparent_sun_longitude_rad := B.radians apparent_sun_longitude
  let true_ecliptic_obliquity_rad := B.radians true_ecliptic_obliquity
  let geocentric_latitude_rad := B.radians geocentric_latitude
  let a := (← B.sin apparent_sun_longitude_rad) * (← B.cos true_ecliptic_obliquity_rad)
  let b := (← B.tan geocentric_latitude_rad) * (← B.sin true_ecliptic_obliquity_rad)
  return a - b

/-- The second one. -/
def raX (B : Backend) (apparent_sun_longitude : B.α) : Py B.α := B.cos (B.radians apparent_sun_longitude)

theorem raY_sim {B B' : Backend} (S : Sim B B') {x x'} (hx : S.r x x') {y y'} (hy : S.r y y') {z z'} (hz : S.r z z') :
    RelM S.strict S.r (raY B x y z) (raY B' x' y' z') := by
  unfold raY
  sim

theorem raX_sim {B B' : Backend} (S : Sim B B') {x x'} (hx : S.r x x') :
    RelM S.strict S.r (raX B x) (raX B' x') := by
  unfold raX
  sim

theorem ra_split (B : Backend) (x y z : B.α) :
    get_geocentric_sun_right_ascension B x y z
      = raY B x y z >>= fun a => raX B x >>= fun c => B.atan2 a c >>= fun t => .ok (B.degrees t %. 360) := by
  unfold get_geocentric_sun_right_ascension raY raX
  simp only []
  cases B.sin (B.radians x) with
  | error e => rfl
  | ok a =>
  cases B.cos (B.radians y) with
  | error e => rfl
  | ok b =>
  cases B.tan (B.radians z) with
  | error e => rfl
  | ok c =>
  cases B.sin (B.radians y) <;> rfl

theorem raY_ok : inside (raY B lam obl lat) raYb = true := by decide +kernel
theorem raX_ok : inside (raX B lam) raXb = true := by decide +kernel
theorem ra_ok : stronger (B.modq (B.degrees raRad) 360) ra = true := by decide +kernel

/-- The exact pair of arguments stays away from the origin. -/
theorem ra_radius {l o b : ℝ} (ho : 22 ≤ o) (ho' : o ≤ 24) (hb : |b| ≤ 1 / 2000) :
    (0.89 : ℝ) ^ 2 ≤ Real.cos (rad l) ^ 2
      + (Real.sin (rad l) * Real.cos (rad o) - Real.tan (rad b) * Real.sin (rad o)) ^ 2 := by
  have hp := pi180
  have h1 : rad o ≤ 0.419 := by unfold Spec.rad; rw [mul_div_assoc]; nlinarith
  have h0 : 0 ≤ rad o := by unfold Spec.rad; have := Real.pi_pos; positivity
  have hc : 0.91 ≤ Real.cos (rad o) := by
    have := Real.one_sub_sq_div_two_le_cos (x := rad o)
    nlinarith
  have hb1 : |rad b| ≤ 1 / 100000 := by
    unfold Spec.rad
    rw [mul_div_assoc, abs_mul, abs_of_pos (by linarith [hp.1] : 0 < Real.pi / 180)]
    have : |b| * (Real.pi / 180) ≤ 1 / 2000 * 0.0175 :=
      mul_le_mul hb (by linarith [hp.2]) (by linarith [hp.1]) (by norm_num)
    linarith
  have ht := abs_tan_le (hb1.trans (by norm_num))
  set t := Real.tan (rad b) * Real.sin (rad o) with htd
  have ht' : |t| ≤ 4 / 100000 := by
    rw [htd, abs_mul]
    have := Real.abs_sin_le_one (rad o)
    nlinarith [abs_nonneg (Real.tan (rad b)), abs_nonneg (Real.sin (rad o))]
  have hs := Real.sin_sq_add_cos_sq (rad l)
  have hc1 := Real.cos_le_one (rad o)
  have hs1 := Real.abs_sin_le_one (rad l)
  set sl := Real.sin (rad l)
  set cl := Real.cos (rad l)
  set co := Real.cos (rad o)
  have e1 : |sl * co * t| ≤ 4 / 100000 := by
    rw [abs_mul, abs_mul, abs_of_pos (by linarith : 0 < co)]
    have : |sl| * co ≤ 1 := by nlinarith [abs_nonneg sl]
    nlinarith [abs_nonneg t, abs_nonneg sl]
  have e2 := abs_le.1 e1
  have e3 : 0.82 ≤ co ^ 2 := by nlinarith
  have e4 : 0.82 * sl ^ 2 ≤ sl ^ 2 * co ^ 2 := by nlinarith [sq_nonneg sl]
  nlinarith [sq_nonneg t, sq_nonneg cl]

theorem ra_rel (F : F64) (tp : ℝ) {l o b : V × V} (hl : lam.rel l) (ho : obl.rel o) (hb : lat.rel b) :
    ∃ p, get_geocentric_sun_right_ascension (fxB F tp) l o b = .ok p ∧ ra.rel p := by
  obtain ⟨pY, hY, hYr⟩ := ok_of_inside (raY_sim (x := lam) (y := obl) (z := lat) (x' := l) (y' := o) (z' := b)
    (ballSim F tp).toSim hl ho hb) raY_ok
  obtain ⟨pX, hX, hXr⟩ := ok_of_inside (raX_sim (x := lam) (x' := l) (ballSim F tp).toSim hl) raX_ok
  obtain ⟨l1, l2, rfl, -⟩ := hl
  obtain ⟨o1, o2, rfl, ho1, ho2, -⟩ := ho
  obtain ⟨b1, b2, rfl, hb1, hb2, -⟩ := hb
  obtain ⟨Y, Y', rfl, -, -, hYe⟩ := hYr
  obtain ⟨X, X', rfl, -, -, hXe⟩ := hXr
  have hb : |b2| ≤ 1 / 2000 := by
    push_cast at hb1 hb2
    rw [abs_le]
    constructor <;> linarith
  have hcos : Real.cos (rad b2) ≠ 0 := by
    have hp := pi180
    have : |rad b2| ≤ 1 := by
      unfold Spec.rad
      rw [mul_div_assoc, abs_mul, abs_of_pos (by linarith [hp.1] : 0 < Real.pi / 180)]
      nlinarith [abs_nonneg b2]
    have := abs_le.1 this
    exact ne_of_gt (Real.cos_pos_of_mem_Ioo ⟨by linarith [Real.pi_gt_three], by linarith [Real.pi_gt_three]⟩)
  have hY' : Y' = Real.sin (rad l2) * Real.cos (rad o2) - Real.tan (rad b2) * Real.sin (rad o2) := by
    have h := RelM.of_ok (raY_sim (x := (V.fin l1, V.fin l2)) (y := (V.fin o1, V.fin o2))
      (z := (V.fin b1, V.fin b2)) (x' := V.fin l2) (y' := V.fin o2) (z' := V.fin b2) (pairSnd (rndB F) (mathB tp) rfl).toSim rfl rfl rfl) hY
    obtain ⟨y, hy, hyr⟩ := h
    have e : raY (mathB tp) (num l2) (num o2) (num b2)
        = .ok (num (Real.sin (rad l2) * Real.cos (rad o2) - tanP tp (rad b2) * Real.sin (rad o2))) := by
      simp [raY]
    rw [tanP, if_neg hcos] at e
    have h2 := Except.ok.inj (e.symm.trans hy)
    rw [← hyr] at h2
    exact (V.fin.inj h2).symm
  have hX' : X' = Real.cos (rad l2) := by
    obtain ⟨y, hy, hyr⟩ := RelM.of_ok (raX_sim (x := (V.fin l1, V.fin l2)) (x' := V.fin l2)
      (pairSnd (rndB F) (mathB tp) rfl).toSim rfl) hX
    have e : raX (mathB tp) (num l2) = .ok (num (Real.cos (rad l2))) := by
      simp [raX]
    have h2 := Except.ok.inj (e.symm.trans hy)
    rw [← hyr] at h2
    exact (V.fin.inj h2).symm
  push_cast at hYe hXe ho1 ho2
  have hrad := ra_radius (l := l2) ho1 ho2 hb
  rw [← hY', ← hX'] at hrad
  obtain ⟨k, hk⟩ := arg_close hXe hYe (by norm_num) hrad (by norm_num)
  have hat := F.atan2_err Y X
  have h4 : raRad.rel (V.fin (F.atan2 Y X), V.fin (Complex.arg ⟨X', Y'⟩)) := by
    refine ⟨_, _, rfl, ?_, k, ?_⟩
    · have h5 := Complex.abs_arg_le_pi ⟨X, Y⟩
      push_cast
      calc |F.atan2 Y X| = |(F.atan2 Y X - Complex.arg ⟨X, Y⟩) + Complex.arg ⟨X, Y⟩| := by ring_nf
        _ ≤ _ := abs_add_le _ _
        _ ≤ 4 := by
          have := Real.pi_lt_d2
          norm_num at hat this ⊢
          linarith
    · push_cast
      have e1 : F.atan2 Y X - Complex.arg ⟨X', Y'⟩ - 2 * Real.pi * k
          = (F.atan2 Y X - Complex.arg ⟨X, Y⟩) + (Complex.arg ⟨X, Y⟩ - Complex.arg ⟨X', Y'⟩ - 2 * Real.pi * k) := by
        ring
      rw [e1]
      refine (abs_add_le _ _).trans ?_
      norm_num at hk hat ⊢
      linarith
  have h6 := rel_of_stronger (modq_rel F tp 360 (degrees_rel F tp h4)) ra_ok
  exact ⟨_, (ra_split _ _ _ _).trans (bind_of_ok hY (bind_of_ok hX rfl)), h6⟩

/-! ## The time -/

theorem dT_range (Y M : ℤ) : 0 ≤ dtVal Y M ∧ dtVal Y M ≤ 70 := by
  have hall : ∀ x ∈ delta_t.flatten, 0 ≤ x ∧ x ≤ 70 := by decide +kernel
  unfold dtVal
  rw [List.getD_eq_getElem?_getD]
  rcases h : delta_t.flatten[dtClamp Y M]? with _ | x
  · simp
  · exact hall x (List.mem_of_getElem? h)

/-- A number of the program, rounded. -/
theorem lit_near (F : F64) (tp : ℝ) {q lo hi e : ℚ} (h1 : lo ≤ q) (h2 : q ≤ hi)
    (h3 : |(F.rnd q : ℝ) - q| ≤ e) : (Ball.num lo hi e).rel ((fxB F tp).lit q) :=
  ⟨_, _, rfl, by exact_mod_cast h1, by exact_mod_cast h2, h3⟩

theorem ts_rel (F : F64) (tp : ℝ) {c : Civil} (h : c.Valid) :
    ts.rel ((fxB F tp).lit (((c.micros - epochMicros : ℤ) : ℚ) / 1000000)) := by
  have hb := micros_bounds h
  have h1 : (-62135596800 : ℚ) ≤ ((c.micros - epochMicros : ℤ) : ℚ) / 1000000 := by
    rw [le_div_iff₀ (by norm_num)]
    have : (-62135596800 * 1000000 : ℤ) ≤ c.micros - epochMicros := by
      unfold epochMicros usPerDay; omega
    exact_mod_cast this
  have h2 : ((c.micros - epochMicros : ℤ) : ℚ) / 1000000 ≤ 253402300800 := by
    rw [div_le_iff₀ (by norm_num)]
    have : c.micros - epochMicros ≤ (253402300800 * 1000000 : ℤ) := by
      unfold epochMicros usPerDay; omega
    exact_mod_cast this
  refine lit_near F tp h1 h2 ((F.err _).trans ?_)
  set q := ((c.micros - epochMicros : ℤ) : ℚ) / 1000000
  have h3 : |(q : ℝ)| ≤ 253402300800 := by
    have : |q| ≤ 253402300800 := abs_le.2 ⟨by linarith, h2⟩
    exact_mod_cast this
  have := tiny_le
  have h4 : |(q : ℝ)| / 2 ^ 53 ≤ 253402300800 / 2 ^ 53 := by gcongr
  push_cast
  norm_num at this h4 ⊢
  linarith

theorem leap_rel (F : F64) (tp : ℝ) (Y M : ℤ) : leap.rel ((fxB F tp).lit (taiMinusUtc Y M)) := by
  have hb := taiMinusUtc_bounds Y M
  refine lit_near F tp (by exact_mod_cast hb.1) (by exact_mod_cast hb.2) ?_
  have h := F.rnd_int (taiMinusUtc Y M) (by rw [abs_le]; constructor <;> norm_num <;> omega)
  rw [show (((taiMinusUtc Y M : ℤ) : ℚ) : ℝ) = ((taiMinusUtc Y M : ℤ) : ℝ) by push_cast; rfl, h]
  simp

theorem dT_rel (F : F64) (tp : ℝ) (Y M : ℤ) : dT.rel ((fxB F tp).lit (dtVal Y M)) := by
  have hb := dT_range Y M
  refine lit_near F tp hb.1 hb.2 ((F.err _).trans ?_)
  have h3 : |((dtVal Y M : ℚ) : ℝ)| ≤ 70 := by
    have : |dtVal Y M| ≤ 70 := abs_le.2 ⟨by linarith, hb.2⟩
    exact_mod_cast this
  have := tiny_le
  have h4 : |((dtVal Y M : ℚ) : ℝ)| / 2 ^ 53 ≤ 70 / 2 ^ 53 := by gcongr
  push_cast
  norm_num at this h4 ⊢
  linarith

theorem jde_rel (F : F64) (tp : ℝ) {d : DateTime} {c : Civil} (h : UtcFields d c) :
    ∃ p, get_julian_ephemeris_day (fxB F tp) (.dt d) = .ok p ∧ jde.rel p := by
  refine ⟨_, ?_, rel_of_stronger (add_rel F tp (add_rel F tp (divq_rel F tp _ (add_rel F tp (add_rel F tp
    (ts_rel F tp h.1) (leap_rel F tp c.year c.month)) (lit_rel F tp tt_offset))) (lit_rel F tp gregorian_day_offset))
    (lit_rel F tp julian_day_offset)) jde_ok⟩
  unfold get_julian_ephemeris_day
  rw [guard_denotes h.2, timestamp_dt, timestamp_of_denotes h.2, get_leap_seconds_eq h]
  rfl

theorem jd_rel (F : F64) (tp : ℝ) {d : DateTime} {c : Civil} (h : UtcFields d c) :
    ∃ p, get_julian_solar_day (fxB F tp) (.dt d) = .ok p ∧ jd.rel p := by
  refine ⟨_, ?_, rel_of_stronger (add_rel F tp (add_rel F tp (divq_rel F tp _ (sub_rel F tp (add_rel F tp
    (add_rel F tp (ts_rel F tp h.1) (leap_rel F tp c.year c.month)) (lit_rel F tp tt_offset))
    (dT_rel F tp c.year c.month))) (lit_rel F tp gregorian_day_offset)) (lit_rel F tp julian_day_offset)) jd_ok⟩
  unfold get_julian_solar_day
  rw [guard_denotes h.2, timestamp_dt, timestamp_of_denotes h.2, get_leap_seconds_eq h, get_delta_t_eq h]
  rfl

/-! ## The whole pipeline -/

def lonIn : Ball := .num (-360) 360 0
def lha : Ball := .deg 361 (231 / 10 ^ 8)
def psra : Ball := .num (-9 / 1000) (9 / 1000) (4 / 10 ^ 10)
def tlha : Ball := .deg 362 (232 / 10 ^ 8)
def tdec : Ball := .num (-56) 56 (6 / 10 ^ 8)

theorem lha_ok : stronger (get_local_hour_angle B ast lonIn ra) lha = true := by decide +kernel
theorem psra_ok : inside (get_parallax_sun_right_ascension B prd par lha dec) psra = true := by decide +kernel
theorem tlha_ok : stronger (get_topocentric_local_hour_angle B lha psra) tlha = true := by decide +kernel
theorem tdec_ok : inside (get_topocentric_sun_declination B dec pad par psra lha) tdec = true := by decide +kernel

theorem nut_rel (F : F64) (tp : ℝ) {t : V × V} (ht : jce.rel t) :
    ∃ n, get_nutation (fxB F tp) t = .ok n ∧ psi.rel n.longitude ∧ eps.rel n.obliquity := by
  have hs := (ballSim F tp).toSim.get_nutation (x := jce) (x' := t) ht
  have h1 := psi_ok
  have h2 := eps_ok
  cases hn : get_nutation B jce with
  | error e => rw [hn] at h1; cases h1
  | ok n =>
    rw [hn] at h1 h2
    obtain ⟨n', hn', hr⟩ := RelM.of_ok hs hn
    exact ⟨n', hn', rel_of_stronger hr.1 h1, rel_of_stronger hr.2 h2⟩

/-- The topocentric position, computed and exact: the declinations agree within 6e-8 degrees and the hour angles
within 2.32e-6 degrees up to turns. -/
theorem topo_rel (F : F64) (tp : ℝ) {d : DateTime} {c : Civil} (h : UtcFields d c) {φ l z : ℝ}
    (hφ : LatOk F tp φ) (hl : |l| ≤ 360) (hz : |z| ≤ 50000) :
    ∃ p, get_topocentric_position (fxB F tp) (dup F tp φ) (dup F tp l) (.dt d) (dup F tp z) = .ok p ∧
      tdec.rel p.1 ∧ tlha.rel p.2 := by
  have S := (ballSim F tp).toSim
  have hl' := abs_le.1 hl
  have rlon : lonIn.rel (dup F tp l) := dup_rel F tp (by push_cast; linarith) (by push_cast; linarith)
  obtain ⟨prdP, hprd, rprd⟩ := prd_rel F tp hφ hz
  obtain ⟨padP, hpad, rpad⟩ := pad_rel F tp hφ hz
  obtain ⟨jdP, hjd, rjd⟩ := jd_rel F tp h
  obtain ⟨jdeP, hjde, rjde⟩ := jde_rel F tp h
  have rjce := rel_of_stronger ((ballSim F tp).toSim.get_julian_ephemeris_century (x := jde) (x' := jdeP) rjde) jce_ok
  set jceP := get_julian_ephemeris_century (fxB F tp) jdeP with hjce
  have rjme := rel_of_stronger ((ballSim F tp).toSim.get_julian_ephemeris_millennium (x := jce) (x' := jceP) rjce) jme_ok
  set jmeP := get_julian_ephemeris_millennium (fxB F tp) jceP with hjme
  obtain ⟨latP, hlat, rlat⟩ := ok_of_inside
    ((ballSim F tp).toSim.get_geocentric_latitude (x := jme) (x' := jmeP) rjme) lat_ok
  obtain ⟨lonP, hlon, rlon'⟩ := ok_of_inside
    ((ballSim F tp).toSim.get_geocentric_longitude (x := jme) (x' := jmeP) rjme) lon_ok
  obtain ⟨distP, hdist, rdist⟩ := ok_of_inside
    ((ballSim F tp).toSim.get_sun_earth_distance (x := jme) (x' := jmeP) rjme) dist_ok
  obtain ⟨aberrP, haberr, raberr⟩ := ok_of_inside
    ((ballSim F tp).toSim.get_aberration_correction (x := dist) (x' := distP) rdist) aberr_ok
  obtain ⟨parP, hpar, rpar⟩ := ok_of_inside
    ((ballSim F tp).toSim.get_equatorial_horizontal_parallax (x := dist) (x' := distP) rdist) par_ok
  obtain ⟨nutP, hnut, rpsi, reps⟩ := nut_rel F tp rjce
  have rnut : (ballSim F tp).toSim.rN ⟨psi, eps⟩ nutP := ⟨rpsi, reps⟩
  obtain ⟨astP, hast, rast⟩ := ok_of_inside
    ((ballSim F tp).toSim.get_apparent_sidereal_time (x := jd) (x' := jdP) rjd (y := jme) (y' := jmeP) rjme rnut) ast_ok
  have robl := rel_of_stronger
    ((ballSim F tp).toSim.get_true_ecliptic_obliquity (x := jme) (x' := jmeP) rjme rnut) obl_ok
  have rlam := rel_of_stronger ((ballSim F tp).toSim.get_apparent_sun_longitude (x := lon) (x' := lonP) rlon' rnut
    (y := aberr) (y' := aberrP) raberr) lam_ok
  obtain ⟨raP, hra, rra⟩ := ra_rel F tp rlam robl rlat
  obtain ⟨decP, hdec, rdec⟩ := ok_of_inside ((ballSim F tp).toSim.get_geocentric_sun_declination (x := lam)
    (x' := get_apparent_sun_longitude (fxB F tp) lonP nutP aberrP) rlam (y := obl)
    (y' := get_true_ecliptic_obliquity (fxB F tp) jmeP nutP) robl (z := lat) (z' := latP) rlat) dec_ok
  have rlha := rel_of_stronger ((ballSim F tp).toSim.get_local_hour_angle (x := ast) (x' := astP) rast (y := lonIn)
    (y' := dup F tp l) rlon (z := ra) (z' := raP) rra) lha_ok
  set lhaP := get_local_hour_angle (fxB F tp) astP (dup F tp l) raP with hlha
  obtain ⟨psraP, hpsra, rpsra⟩ := ok_of_inside ((ballSim F tp).toSim.get_parallax_sun_right_ascension (x := prd)
    (x' := prdP) rprd (y := par) (y' := parP) rpar (z := lha) (z' := lhaP) rlha (u := dec) (u' := decP) rdec) psra_ok
  have rtlha := rel_of_stronger ((ballSim F tp).toSim.get_topocentric_local_hour_angle (x := lha) (x' := lhaP) rlha
    (y := psra) (y' := psraP) rpsra) tlha_ok
  obtain ⟨tdecP, htdec, rtdec⟩ := ok_of_inside ((ballSim F tp).toSim.get_topocentric_sun_declination (x := dec)
    (x' := decP) rdec (y := pad) (y' := padP) rpad (z := par) (z' := parP) rpar (u := psra) (u' := psraP) rpsra
    (v := lha) (v' := lhaP) rlha) tdec_ok
  refine ⟨(tdecP, get_topocentric_local_hour_angle (fxB F tp) lhaP psraP), ?_, rtdec, rtlha⟩
  unfold get_topocentric_position
  refine bind_of_ok (guard_denotes h.2) (bind_of_ok hprd (bind_of_ok hpad (bind_of_ok hjd (bind_of_ok hjde ?_))))
  exact bind_of_ok hlat (bind_of_ok hlon (bind_of_ok hdist (bind_of_ok haberr (bind_of_ok hpar (bind_of_ok hnut
    (bind_of_ok hast (bind_of_ok hra (bind_of_ok hdec (bind_of_ok hpsra (bind_of_ok htdec rfl))))))))))

end Chain

end Verif
