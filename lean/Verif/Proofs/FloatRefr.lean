import Verif.Proofs.FloatDir
import Verif.Props.Refraction

/-!
# The refraction correction in floating-point arithmetic
-/

namespace Verif

open Verif.Spec Verif.Props Pysolar Pysolar.Solar Pysolar.Constants Pysolar.Solartime

namespace Chain

open Ball hiding deg rad num

/-- The argument of `tan` in `get_refraction_correction`, in radians. -/
def refrX (B : Backend) (tea : B.α) : Py B.α := do
  return B.radians (tea + (← B.div 10.3 (tea + 5.11)))

def refrA (B : Backend) (P : B.α) : Py B.α := do return P * 2.830 * 1.02

def refrC (B : Backend) (T : B.α) : Py B.α := do return 1010.0 * T * 60.0

def refrQ (B : Backend) (a c t : B.α) : Py B.α := B.div a (c * t)

def refrThr (B : Backend) : Py B.α := do
  let sun_radius : B.α := 0.26667
  let atmos_refract : B.α := 0.5667
  return -1.0 * (sun_radius + atmos_refract)

theorem refr_split (B : Backend) (P T tea : B.α) :
    get_refraction_correction B P T tea = (do
      let x ← refrX B tea
      let t ← B.tan x
      let a ← refrA B P
      let c ← refrC B T
      let r ← refrQ B a c t
      let thr ← refrThr B
      return B.where_ (B.le thr tea) r 0.0) := by
  unfold get_refraction_correction refrX refrA refrC refrQ refrThr
  simp only []
  cases B.div 10.3 (tea + 5.11) with
  | error e => rfl
  | ok q =>
    simp only [ok_bind, pure_eq_ok]

theorem refrX_sim {B B' : Backend} (S : Sim B B') {x x'} (hx : S.r x x') :
    RelM S.strict S.r (refrX B x) (refrX B' x') := by
  unfold refrX
  sim

theorem refrA_sim {B B' : Backend} (S : Sim B B') {x x'} (hx : S.r x x') :
    RelM S.strict S.r (refrA B x) (refrA B' x') := by
  unfold refrA
  sim

theorem refrC_sim {B B' : Backend} (S : Sim B B') {x x'} (hx : S.r x x') :
    RelM S.strict S.r (refrC B x) (refrC B' x') := by
  unfold refrC
  sim

theorem refrQ_sim {B B' : Backend} (S : Sim B B') {x x'} (hx : S.r x x') {y y'} (hy : S.r y y') {z z'} (hz : S.r z z') :
    RelM S.strict S.r (refrQ B x y z) (refrQ B' x' y' z') := by
  unfold refrQ
  sim

theorem refrThr_sim {B B' : Backend} (S : Sim B B') :
    RelM S.strict S.r (refrThr B) (refrThr B') := by
  unfold refrThr
  sim

def teaHi : Ball := .num (-4.9) 90.1 0
def teaLo : Ball := .num (-90.1) (-5.3) 0
def refrXb : Ball := .num (-3) 3 (1 / 10 ^ 13)
def refrPb : Ball := .num 1 120000 (1 / 10 ^ 9)
def refrTb : Ball := .num 180 340 (1 / 10 ^ 13)
def refrAb : Ball := .num 2.88 346400 (1 / 10 ^ 8)
def refrCb : Ball := .num 10900000 20700000 (3 / 10 ^ 8)
def tanPos : Ball := .num 0.02 (10 ^ 6) (1 / 10 ^ 9)
def tanNeg : Ball := .num (-10 ^ 6) (-0.02) (1 / 10 ^ 9)
def refrQb : Ball := .num (-2) 2 (6 / 10 ^ 7)
def refrThrb : Ball := .num (-0.83338) (-0.83336) (1 / 10 ^ 15)

theorem refrXHi_ok : inside (refrX B teaHi) refrXb = true := by decide +kernel
theorem refrXLo_ok : inside (refrX B teaLo) refrXb = true := by decide +kernel
theorem refrA_ok : inside (refrA B refrPb) refrAb = true := by decide +kernel
theorem refrC_ok : inside (refrC B refrTb) refrCb = true := by decide +kernel
theorem refrQPos_ok : inside (refrQ B refrAb refrCb tanPos) refrQb = true := by decide +kernel
theorem refrQNeg_ok : inside (refrQ B refrAb refrCb tanNeg) refrQb = true := by decide +kernel
theorem refrThr_ok : inside (refrThr B) refrThrb = true := by decide +kernel

theorem bennett_range {e : ℝ} (h : (-4.9 ≤ e ∧ e ≤ 90.1) ∨ (-90.1 ≤ e ∧ e ≤ -5.3)) :
    1.3 ≤ |bennett e| ∧ |bennett e| ≤ 91.2 := by
  -- `u + 10.3 / u` for `u > 0`
  have key : ∀ u : ℝ, 0.19 ≤ u → u ≤ 95.21 → 6.41 ≤ u + 10.3 / u ∧ u + 10.3 / u ≤ max 65 (u + 1) := by
    intro u h1 h2
    have hu : 0 < u := lt_of_lt_of_le (by norm_num) h1
    constructor
    · have e1 : u + 10.3 / u - 6.41 = ((u - 3.205) ^ 2 + (10.3 - 3.205 ^ 2)) / u := by
        field_simp
        ring
      have : 0 ≤ ((u - 3.205) ^ 2 + (10.3 - 3.205 ^ 2)) / u :=
        div_nonneg (add_nonneg (sq_nonneg _) (by norm_num)) hu.le
      linarith
    · rcases le_total u 10.3 with h3 | h3
      · refine le_trans ?_ (le_max_left _ _)
        have : 10.3 / u ≤ 10.3 / 0.19 := div_le_div_of_nonneg_left (by norm_num) (by norm_num) h1
        norm_num at *
        linarith
      · refine le_trans ?_ (le_max_right _ _)
        have : 10.3 / u ≤ 1 := (div_le_one hu).2 h3
        linarith
  rcases h with ⟨h1, h2⟩ | ⟨h1, h2⟩
  · obtain ⟨k1, k2⟩ := key (e + 5.11) (by norm_num at *; linarith) (by norm_num at *; linarith)
    have k3 : max 65 (e + 5.11 + 1) ≤ (96.3 : ℝ) := max_le (by norm_num) (by norm_num at *; linarith)
    replace k2 := k2.trans k3
    have e1 : bennett e = e + 5.11 + 10.3 / (e + 5.11) - 5.11 := by unfold bennett; ring
    have k4 : 0 ≤ bennett e := by rw [e1]; norm_num at *; linarith
    rw [abs_of_nonneg k4, e1]
    constructor <;> norm_num at * <;> linarith
  · obtain ⟨k1, k2⟩ := key (-(e + 5.11)) (by norm_num at *; linarith) (by norm_num at *; linarith)
    have k3 : max 65 (-(e + 5.11) + 1) ≤ (86 : ℝ) := max_le (by norm_num) (by norm_num at *; linarith)
    replace k2 := k2.trans k3
    have e1 : -bennett e = -(e + 5.11) + 10.3 / (-(e + 5.11)) + 5.11 := by unfold bennett; rw [div_neg]; ring
    have k4 : 0 ≤ -bennett e := by rw [e1]; norm_num at *; linarith
    rw [abs_of_nonpos (by linarith), e1]
    constructor <;> norm_num at * <;> linarith

theorem sin_range {b : ℝ} (h1 : 1.3 ≤ |b|) (h2 : |b| ≤ 91.2) : 0.0226 ≤ |Real.sin (rad b)| := by
  have p1 := Real.pi_gt_d4
  have p2 := Real.pi_lt_d4
  have hs : (0.0226 : ℝ) < Real.sin (rad 1.3) := by
    have e : rad 1.3 = 1.3 / 180 * Real.pi := by unfold rad; ring
    rw [e]
    have hx0 : 0 < 1.3 / 180 * Real.pi := by positivity
    have := Real.sin_gt_sub_cube hx0
    refine lt_of_lt_of_le ?_ this.le
    have hx1 : 0.02268 < 1.3 / 180 * Real.pi := by norm_num at *; linarith
    have hx2 : 1.3 / 180 * Real.pi < 0.0227 := by norm_num at *; linarith
    generalize 1.3 / 180 * Real.pi = x at *
    have : x ^ 3 ≤ 0.0227 ^ 3 := pow_le_pow_left₀ hx0.le hx2.le 3
    norm_num at *
    linarith
  have e : |Real.sin (rad b)| = |Real.sin (rad |b|)| := by
    rcases abs_choice b with h | h <;> rw [h]
    rw [rad_neg, Real.sin_neg, abs_neg]
  rw [e]
  generalize |b| = a at *
  refine (hs.le.trans ?_).trans (le_abs_self _)
  by_cases h90 : a ≤ 90
  · apply Real.sin_le_sin_of_le_of_le_pi_div_two
    · rw [← rad_90, ← rad_neg, rad_le_rad]; norm_num
    · rw [← rad_90, rad_le_rad]; exact h90
    · rw [rad_le_rad]; exact h1
  · rw [← Real.sin_pi_sub (rad a), ← rad_180, ← rad_sub]
    apply Real.sin_le_sin_of_le_of_le_pi_div_two
    · rw [← rad_90, ← rad_neg, rad_le_rad]; norm_num
    · rw [← rad_90, rad_le_rad]; linarith
    · rw [rad_le_rad]; norm_num at *; linarith

theorem cot_lip {x y s : ℝ} (hs : 0 < s) (hx : s ≤ |Real.sin x|) (hy : s ≤ |Real.sin y|) :
    |Real.cos x / Real.sin x - Real.cos y / Real.sin y| ≤ |x - y| / s ^ 2 := by
  have hx0 : Real.sin x ≠ 0 := abs_pos.1 (hs.trans_le hx)
  have hy0 : Real.sin y ≠ 0 := abs_pos.1 (hs.trans_le hy)
  have e : Real.cos x / Real.sin x - Real.cos y / Real.sin y = Real.sin (y - x) / (Real.sin x * Real.sin y) := by
    rw [Real.sin_sub]
    field_simp
  rw [e, abs_div, abs_mul, sq]
  have h1 : |Real.sin (y - x)| ≤ |x - y| := by rw [abs_sub_comm]; exact Real.abs_sin_le_abs
  exact div_le_div₀ (abs_nonneg _) h1 (mul_pos hs hs) (mul_le_mul hx hy hs.le (abs_nonneg _))

/-- The refraction correction above the horizon, in degrees. -/
noncomputable def refrOf (P T e : ℝ) : ℝ :=
  P * 2.830 * 1.02 / (1010 * T * 60) * (Real.cos (refrArg e) / Real.sin (refrArg e))

/-- The computed argument of the tangent. -/
theorem refrX_float (F : F64) {e : ℝ} (h : (-4.9 ≤ e ∧ e ≤ 90.1) ∨ (-90.1 ≤ e ∧ e ≤ -5.3)) :
    ∃ X, refrX (rndB F) (V.fin e) = .ok (V.fin X) ∧ |X - refrArg e| ≤ 1 / 10 ^ 13 := by
  have h' : ∃ p, refrX (fxB F 0) (dup F 0 e) = .ok p ∧ refrXb.rel p := by
    rcases h with ⟨h1, h2⟩ | ⟨h1, h2⟩
    · exact ok_of_inside (refrX_sim (x := teaHi) (x' := dup F 0 e) (ballSim F 0).toSim
        (dup_rel F 0 (by push_cast; linarith) (by push_cast; linarith))) refrXHi_ok
    · exact ok_of_inside (refrX_sim (x := teaLo) (x' := dup F 0 e) (ballSim F 0).toSim
        (dup_rel F 0 (by push_cast; linarith) (by push_cast; linarith))) refrXLo_ok
  obtain ⟨p, hp, X, y, rfl, -, -, he⟩ := h'
  obtain ⟨y1, hy1, hy2⟩ := RelM.of_ok (refrX_sim (x := dup F 0 e) (x' := V.fin e)
    (pairSnd (rndB F) (mathB 0) rfl).toSim rfl) hp
  obtain ⟨x1, hx1, hx2⟩ := RelM.of_ok (refrX_sim (x := dup F 0 e) (x' := V.fin e)
    (pairFst (rndB F) (mathB 0) rfl).toSim rfl) hp
  have hne : e + 5.11 ≠ 0 := by
    rcases h with ⟨h1, h2⟩ | ⟨h1, h2⟩
    · exact ne_of_gt (by norm_num at *; linarith)
    · exact ne_of_lt (by norm_num at *; linarith)
  have e1 : refrX (mathB 0) (num e) = .ok (num (refrArg e)) := by
    simp only [refrX, m_sci, m_add, m_div _ hne, ok_bind, m_radians, pure_eq_ok]
    rfl
  have e2 := Except.ok.inj (e1.symm.trans hy1)
  rw [← hy2] at e2
  have e3 : refrArg e = y := V.fin.inj e2
  refine ⟨X, ?_, ?_⟩
  · rw [hx1, ← hx2]
  · rw [e3]
    refine he.trans (le_of_eq ?_)
    push_cast
    rfl

theorem refrA_float (F : F64) {P P' : ℝ} (h1 : 1 ≤ P) (h2 : P ≤ 120000) (h3 : |P' - P| ≤ 1 / 10 ^ 9) :
    ∃ a, refrA (rndB F) (V.fin P') = .ok (V.fin a) ∧ refrAb.rel (V.fin a, V.fin (P * 2.830 * 1.02)) := by
  obtain ⟨p, hp, hr⟩ := ok_of_inside (refrA_sim (x := refrPb) (x' := ((V.fin P', V.fin P) : V × V)) (ballSim F 0).toSim
    ⟨P', P, rfl, by push_cast; linarith, by push_cast; linarith, by push_cast; exact h3⟩) refrA_ok
  obtain ⟨a, y, rfl, -⟩ := id hr
  obtain ⟨y1, hy1, hy2⟩ := RelM.of_ok (refrA_sim (x := ((V.fin P', V.fin P) : V × V)) (x' := V.fin P)
    (pairSnd (rndB F) (mathB 0) rfl).toSim rfl) hp
  obtain ⟨x1, hx1, hx2⟩ := RelM.of_ok (refrA_sim (x := ((V.fin P', V.fin P) : V × V)) (x' := V.fin P')
    (pairFst (rndB F) (mathB 0) rfl).toSim rfl) hp
  have e1 : refrA (mathB 0) (num P) = .ok (num (P * 2.830 * 1.02)) := by
    simp only [refrA, m_sci, m_mul, pure_eq_ok]
  have e2 := Except.ok.inj (e1.symm.trans hy1)
  rw [← hy2] at e2
  have e3 : P * 2.830 * 1.02 = y := V.fin.inj e2
  refine ⟨a, ?_, ?_⟩
  · rw [hx1, ← hx2]
  · rw [e3]; exact hr

theorem refrC_float (F : F64) {T T' : ℝ} (h1 : 180 ≤ T) (h2 : T ≤ 340) (h3 : |T' - T| ≤ 1 / 10 ^ 13) :
    ∃ c, refrC (rndB F) (V.fin T') = .ok (V.fin c) ∧ refrCb.rel (V.fin c, V.fin (1010 * T * 60)) := by
  obtain ⟨p, hp, hr⟩ := ok_of_inside (refrC_sim (x := refrTb) (x' := ((V.fin T', V.fin T) : V × V)) (ballSim F 0).toSim
    ⟨T', T, rfl, by push_cast; linarith, by push_cast; linarith, by push_cast; exact h3⟩) refrC_ok
  obtain ⟨c, y, rfl, -⟩ := id hr
  obtain ⟨y1, hy1, hy2⟩ := RelM.of_ok (refrC_sim (x := ((V.fin T', V.fin T) : V × V)) (x' := V.fin T)
    (pairSnd (rndB F) (mathB 0) rfl).toSim rfl) hp
  obtain ⟨x1, hx1, hx2⟩ := RelM.of_ok (refrC_sim (x := ((V.fin T', V.fin T) : V × V)) (x' := V.fin T')
    (pairFst (rndB F) (mathB 0) rfl).toSim rfl) hp
  have e1 : refrC (mathB 0) (num T) = .ok (num (1010.0 * T * 60.0)) := by
    simp only [refrC, m_sci, m_mul, pure_eq_ok]
  have e2 := Except.ok.inj (e1.symm.trans hy1)
  rw [← hy2] at e2
  have e3 : 1010.0 * T * 60.0 = y := V.fin.inj e2
  refine ⟨c, ?_, ?_⟩
  · rw [hx1, ← hx2]
  · rw [show 1010 * T * 60 = y by rw [← e3]; norm_num]; exact hr

/-- The quotient for a tangent of moderate size. -/
theorem refrQ_small (F : F64) {a a' c c' t t' : ℝ} (ha : refrAb.rel (V.fin a', V.fin a))
    (hc : refrCb.rel (V.fin c', V.fin c)) (h1 : 0.02 ≤ |t|) (h2 : |t| ≤ 10 ^ 6) (h3 : |t' - t| ≤ 1 / 10 ^ 9) :
    ∃ r, refrQ (rndB F) (V.fin a') (V.fin c') (V.fin t') = .ok (V.fin r) ∧ |r - a / (c * t)| ≤ 6 / 10 ^ 7 := by
  have hct : c * t ≠ 0 := by
    obtain ⟨x, y, hxy, k1, -⟩ := hc
    have hy : c = y := V.fin.inj (congrArg Prod.snd hxy)
    refine mul_ne_zero ?_ ?_
    · rw [hy]; push_cast at k1; exact ne_of_gt (by linarith)
    · exact abs_pos.1 (lt_of_lt_of_le (by norm_num) h1)
  have h' : ∃ p, refrQ (fxB F 0) ((V.fin a', V.fin a) : V × V) ((V.fin c', V.fin c) : V × V)
      ((V.fin t', V.fin t) : V × V) = .ok p ∧ refrQb.rel p := by
    rcases le_total 0 t with ht | ht
    · rw [abs_of_nonneg ht] at h1 h2
      exact ok_of_inside (refrQ_sim (x := refrAb) (x' := ((V.fin a', V.fin a) : V × V)) (y := refrCb)
        (y' := ((V.fin c', V.fin c) : V × V)) (z := tanPos) (z' := ((V.fin t', V.fin t) : V × V)) (ballSim F 0).toSim
        ha hc ⟨t', t, rfl, by push_cast; linarith, by push_cast; linarith, by push_cast; exact h3⟩) refrQPos_ok
    · rw [abs_of_nonpos ht] at h1 h2
      exact ok_of_inside (refrQ_sim (x := refrAb) (x' := ((V.fin a', V.fin a) : V × V)) (y := refrCb)
        (y' := ((V.fin c', V.fin c) : V × V)) (z := tanNeg) (z' := ((V.fin t', V.fin t) : V × V)) (ballSim F 0).toSim
        ha hc ⟨t', t, rfl, by push_cast; linarith, by push_cast; linarith, by push_cast; exact h3⟩) refrQNeg_ok
  obtain ⟨p, hp, r, y, rfl, -, -, he⟩ := h'
  obtain ⟨y1, hy1, hy2⟩ := RelM.of_ok (refrQ_sim (x := ((V.fin a', V.fin a) : V × V)) (x' := V.fin a)
    (y := ((V.fin c', V.fin c) : V × V)) (y' := V.fin c) (z := ((V.fin t', V.fin t) : V × V)) (z' := V.fin t)
    (pairSnd (rndB F) (mathB 0) rfl).toSim rfl rfl rfl) hp
  obtain ⟨x1, hx1, hx2⟩ := RelM.of_ok (refrQ_sim (x := ((V.fin a', V.fin a) : V × V)) (x' := V.fin a')
    (y := ((V.fin c', V.fin c) : V × V)) (y' := V.fin c') (z := ((V.fin t', V.fin t) : V × V)) (z' := V.fin t')
    (pairFst (rndB F) (mathB 0) rfl).toSim rfl rfl rfl) hp
  have e1 : refrQ (mathB 0) (num a) (num c) (num t) = .ok (num (a / (c * t))) := by
    simp only [refrQ, m_mul, m_div _ hct]
  have e2 := Except.ok.inj (e1.symm.trans hy1)
  rw [← hy2] at e2
  have e3 : a / (c * t) = y := V.fin.inj e2
  refine ⟨r, ?_, ?_⟩
  · rw [hx1, ← hx2]
  · rw [e3]
    refine he.trans (le_of_eq ?_)
    push_cast
    rfl

/-- The quotient next to a pole of the tangent. -/
theorem refrQ_large (F : F64) {a a' c c' t' : ℝ} (ha : refrAb.rel (V.fin a', V.fin a))
    (hc : refrCb.rel (V.fin c', V.fin c)) (h1 : 990000 ≤ |t'|) :
    ∃ r, refrQ (rndB F) (V.fin a') (V.fin c') (V.fin t') = .ok (V.fin r) ∧ |r| ≤ 1 / 10 ^ 7 := by
  obtain ⟨x, y, hxy, k1, k2, k3⟩ := ha
  obtain rfl : a' = x := V.fin.inj (congrArg Prod.fst hxy)
  obtain rfl : a = y := V.fin.inj (congrArg Prod.snd hxy)
  obtain ⟨x', y', hxy', k1', k2', k3'⟩ := hc
  obtain rfl : c' = x' := V.fin.inj (congrArg Prod.fst hxy')
  obtain rfl : c = y' := V.fin.inj (congrArg Prod.snd hxy')
  push_cast at k1 k2 k3 k1' k2' k3'
  have j3 := abs_le.1 k3
  have j3' := abs_le.1 k3'
  have hc' : 10000000 ≤ |c'| := le_trans (by norm_num at *; linarith) (le_abs_self c')
  have ha' : |a'| ≤ 346401 := by rw [abs_le]; constructor <;> norm_num at * <;> linarith
  have hct : 10 ^ 12 * 9 ≤ |c' * t'| := by
    rw [abs_mul]
    calc (10 : ℝ) ^ 12 * 9 ≤ 10000000 * 990000 := by norm_num
      _ ≤ _ := mul_le_mul hc' h1 (by norm_num) (by linarith)
  -- the rounded product
  have hrnd : 10 ^ 12 * 8 ≤ |F.rnd (c' * t')| := by
    have h2 := F.err (c' * t')
    have h3 := abs_sub_abs_le_abs_sub (c' * t') (F.rnd (c' * t'))
    rw [abs_sub_comm] at h3
    have h4 := tiny_le
    norm_num at *
    linarith
  have hz : F.rnd 0 = 0 := by simpa using F.rnd_int 0 (by norm_num)
  have hr0 : V.rnd F (V.fin 0) = V.fin 0 := by
    rw [V.rnd_fin F (by rw [abs_zero]; positivity), hz]
  have hmul : (V.rnd F (V.mul (V.fin c') (V.fin t')) = V.pinf ∨ V.rnd F (V.mul (V.fin c') (V.fin t')) = V.ninf) ∨
      V.rnd F (V.mul (V.fin c') (V.fin t')) = V.fin (F.rnd (c' * t')) := by
    show (V.rnd F (V.fin (c' * t')) = _ ∨ V.rnd F (V.fin (c' * t')) = _) ∨ V.rnd F (V.fin (c' * t')) = _
    unfold V.rnd
    dsimp only
    split_ifs <;> simp
  have hQ : refrQ (rndB F) (V.fin a') (V.fin c') (V.fin t') =
    (rndB F).div (V.fin a') (V.rnd F (V.mul (V.fin c') (V.fin t'))) := rfl
  rcases hmul with (h | h) | h
  · refine ⟨0, ?_, by norm_num⟩
    rw [hQ, h]
    exact congrArg Except.ok hr0
  · refine ⟨0, ?_, by norm_num⟩
    rw [hQ, h]
    exact congrArg Except.ok hr0
  · have hne : F.rnd (c' * t') ≠ 0 := abs_pos.1 (lt_of_lt_of_le (by norm_num) hrnd)
    have hq : |a' / F.rnd (c' * t')| ≤ 5 / 10 ^ 8 := by
      rw [abs_div]
      calc |a'| / |F.rnd (c' * t')| ≤ 346401 / (10 ^ 12 * 8) := div_le_div₀ (by norm_num) ha' (by norm_num) hrnd
        _ ≤ _ := by norm_num
    have hq1 : |a' / F.rnd (c' * t')| ≤ 2 ^ 100 := hq.trans (by norm_num)
    refine ⟨F.rnd (a' / F.rnd (c' * t')), ?_, ?_⟩
    · rw [hQ, h]
      exact (if_neg hne).trans (congrArg Except.ok (V.rnd_fin F hq1))
    · refine (F.rnd_abs _ hq).trans ?_
      have := tiny_le
      norm_num at *
      linarith

/-- The refraction correction for a computed elevation angle `e`, outside the neighbourhood of its poles. -/
theorem refr_float (F : F64) {P P' T T' e : ℝ} (hP1 : 1 ≤ P) (hP2 : P ≤ 120000) (hP3 : |P' - P| ≤ 1 / 10 ^ 9)
    (hT1 : 180 ≤ T) (hT2 : T ≤ 340) (hT3 : |T' - T| ≤ 1 / 10 ^ 13)
    (h : (-4.9 ≤ e ∧ e ≤ 90.1) ∨ (-90.1 ≤ e ∧ e ≤ -5.3)) :
    ∃ r, get_refraction_correction (rndB F) (V.fin P') (V.fin T') (V.fin e) = .ok (V.fin r) ∧
      (e ≤ -0.83339 → r = 0) ∧ (-0.83335 ≤ e → |r - refrOf P T e| ≤ 7 / 10 ^ 7) := by
  obtain ⟨X, hX, hXe⟩ := refrX_float F h
  obtain ⟨a', ha, hra⟩ := refrA_float F hP1 hP2 hP3
  obtain ⟨c', hc, hrc⟩ := refrC_float F hT1 hT2 hT3
  obtain ⟨b1, b2⟩ := bennett_range h
  have hs := sin_range b1 b2
  rw [← refrArg_eq] at hs
  have hsX : 0.0225 ≤ |Real.sin X| := by
    have h1 := lip_sin X (refrArg e)
    have h2 := abs_sub_abs_le_abs_sub (Real.sin (refrArg e)) (Real.sin X)
    rw [abs_sub_comm] at h2
    norm_num at *
    linarith
  have hsX0 : Real.sin X ≠ 0 := abs_pos.1 (lt_of_lt_of_le (by norm_num) hsX)
  set K : ℝ := P * 2.830 * 1.02 / (1010 * T * 60) with hKd
  have hTpos : 0 < 1010 * T * 60 := by linarith
  have hK0 : 0 ≤ K := by rw [hKd]; positivity
  have hK : K ≤ 0.032 := by
    rw [hKd, div_le_iff₀ hTpos]
    norm_num
    linarith
  -- the quotient
  have hq : ∃ r, refrQ (rndB F) (V.fin a') (V.fin c') (V.fin (F.tan X)) = .ok (V.fin r) ∧
      |r - K * (Real.cos X / Real.sin X)| ≤ 65 / 10 ^ 8 := by
    by_cases hcos : Real.cos X = 0
    · obtain ⟨r, hr, hr1⟩ := refrQ_large F hra hrc (t' := F.tan X) (le_trans (by norm_num) (F.tan_pole X hcos))
      refine ⟨r, hr, ?_⟩
      rw [hcos, zero_div, mul_zero, sub_zero]
      exact hr1.trans (by norm_num)
    · have htan : Real.tan X ≠ 0 := by
        rw [Real.tan_eq_sin_div_cos]; exact div_ne_zero hsX0 hcos
      have hcot : Real.cos X / Real.sin X = 1 / Real.tan X := by
        rw [Real.tan_eq_sin_div_cos, one_div_div]
      have hterr := (F.tan_err X hcos).trans (add_le_add le_rfl two_1074)
      have htiny := tiny_le
      rcases le_total |Real.tan X| (10 ^ 6) with ht | ht
      · have h002 : 0.02 ≤ |Real.tan X| := by
          rw [Real.tan_eq_sin_div_cos, abs_div, le_div_iff₀ (abs_pos.2 hcos)]
          have := Real.abs_cos_le_one X
          norm_num at *
          linarith
        obtain ⟨r, hr, hr1⟩ := refrQ_small F hra hrc h002 ht (t' := F.tan X) (by norm_num at *; linarith)
        refine ⟨r, hr, ?_⟩
        have e1 : K * (Real.cos X / Real.sin X) = P * 2.830 * 1.02 / (1010 * T * 60 * Real.tan X) := by
          rw [hcot, hKd]
          field_simp
        rw [e1]
        exact hr1.trans (by norm_num)
      · have h3 := abs_sub_abs_le_abs_sub (Real.tan X) (F.tan X)
        rw [abs_sub_comm] at h3
        obtain ⟨r, hr, hr1⟩ := refrQ_large F hra hrc (t' := F.tan X) (by norm_num at *; linarith)
        refine ⟨r, hr, ?_⟩
        have h4 : |K * (Real.cos X / Real.sin X)| ≤ 0.032 * (1 / 10 ^ 6) := by
          rw [abs_mul, abs_of_nonneg hK0, hcot, abs_div, abs_one]
          exact mul_le_mul hK (one_div_le_one_div_of_le (by norm_num) ht) (by positivity) (by norm_num)
        have h5 := abs_sub r (K * (Real.cos X / Real.sin X))
        norm_num at *
        linarith
  obtain ⟨q, hq, hqe⟩ := hq
  -- the threshold
  obtain ⟨p, hp, hpr⟩ := ok_of_inside (refrThr_sim (ballSim F 0).toSim) refrThr_ok
  obtain ⟨θ, y, rfl, t1, t2, t3⟩ := hpr
  obtain ⟨θ1, hθ, hθ2⟩ := RelM.of_ok (refrThr_sim (pairFst (rndB F) (mathB 0) rfl).toSim) hp
  have hθ' : refrThr (rndB F) = .ok (V.fin θ) := by rw [hθ, ← hθ2]
  push_cast at t1 t2 t3
  have t4 := abs_le.1 t3
  have hθlo : -0.83339 < θ := by norm_num at *; linarith
  have hθhi : θ < -0.83335 := by norm_num at *; linarith
  have hz0 : F.rnd 0 = 0 := by simpa using F.rnd_int 0 (by norm_num)
  have hval : ∀ w : V, (if θ ≤ e then V.fin q else V.fin 0) = w →
      get_refraction_correction (rndB F) (V.fin P') (V.fin T') (V.fin e) = .ok w := by
    intro w hw
    refine (refr_split _ _ _ _).trans (bind_of_ok hX (bind_of_ok (a := V.fin (F.tan X)) rfl (bind_of_ok ha
      (bind_of_ok hc (bind_of_ok hq (bind_of_ok hθ' ?_))))))
    have hh : (if decide (θ ≤ e) = true then V.fin q else V.fin (F.rnd ((0.0 : ℚ) : ℝ))) = w := by
      rw [show ((0.0 : ℚ) : ℝ) = 0 by norm_num, hz0, ← hw]
      simp only [decide_eq_true_eq]
    exact congrArg Except.ok hh
  by_cases hcase : θ ≤ e
  · refine ⟨q, ?_, fun h1 => absurd h1 (not_le.2 (hθlo.trans_le hcase)), fun _ => ?_⟩
    · exact hval _ (if_pos hcase)
    · have hlip := cot_lip (x := X) (y := refrArg e) (s := 0.0225) (by norm_num) hsX (by norm_num at *; linarith)
      have h6 : |K * (Real.cos X / Real.sin X) - refrOf P T e| ≤ 0.032 * (1 / 10 ^ 13 / 0.0225 ^ 2) := by
        unfold refrOf
        rw [← hKd, ← mul_sub, abs_mul, abs_of_nonneg hK0]
        refine mul_le_mul hK (hlip.trans ?_) (abs_nonneg _) (by norm_num)
        gcongr
      have h7 := abs_add_le (q - K * (Real.cos X / Real.sin X)) (K * (Real.cos X / Real.sin X) - refrOf P T e)
      rw [sub_add_sub_cancel] at h7
      norm_num at *
      linarith
  · refine ⟨0, ?_, fun _ => rfl, fun h1 => absurd (hθhi.le.trans h1) hcase⟩
    exact hval _ (if_neg hcase)

end Chain
end Verif
