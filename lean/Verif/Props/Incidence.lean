import Verif.Props.Direction
import Verif.Proofs.FloatSunrise
import Verif.Proofs.Binary64
import Verif.Proofs.Interval
import Verif.Proofs.FloatNumpy

/-!
# C162: the incidence angle in double precision

`get_incidence_angle` passes a sum of products of sines and cosines to `math.acos`. In exact arithmetic the sum is a dot
product of unit vectors and never leaves [-1, 1] (C34). In double precision it can round to a number above 1, and
`math.acos` raises ValueError: the sun at a zenith angle of 8°, straight above a panel inclined by 8°, is a case. Away from
that the result is close to the exact angle.
-/

namespace Verif.Props

open Verif Verif.Spec Pysolar Pysolar.Solar Chain

/-! ## Rounding of single numbers -/

theorem roundEven_near {y : ℝ} {m : ℤ} (h : |y - m| < 1 / 2) : roundEven y = m := by
  have h1 := abs_le.1 (roundEven_err y)
  have h2 := abs_lt.1 h
  have a : ((roundEven y - m : ℤ) : ℝ) < 1 := by push_cast; linarith
  have b : (-1 : ℝ) < ((roundEven y - m : ℤ) : ℝ) := by push_cast; linarith
  have a' : roundEven y - m < 1 := by exact_mod_cast a
  have b' : -1 < roundEven y - m := by exact_mod_cast b
  omega

/-- The double nearest to `x`. -/
theorem b64_near' {x : ℝ} (m : ℤ) (k : ℕ) (hk : k ≤ 1074) (h0 : 2 ^ 52 ≤ x * 2 ^ k) (h1 : x * 2 ^ k < 2 ^ 53)
    (h : |x * 2 ^ k - m| < 1 / 2) : b64 x = m / 2 ^ k := by
  have hp : (0 : ℝ) < 2 ^ k := by positivity
  have hx : 0 < x := by
    by_contra hc
    push Not at hc
    have := mul_nonpos_of_nonpos_of_nonneg hc hp.le
    norm_num at h0
    linarith
  have hlog : Int.log 2 x = 52 - k := by
    have a : ((52 - k : ℤ)) ≤ Int.log 2 x := by
      rw [← Int.zpow_le_iff_le_log (by norm_num) hx]
      push_cast
      rw [zpow_sub₀ (by norm_num), zpow_natCast, div_le_iff₀ hp]
      exact_mod_cast h0
    have b : Int.log 2 x < 53 - k := by
      rw [← Int.lt_zpow_iff_log_lt (by norm_num) hx]
      push_cast
      rw [zpow_sub₀ (by norm_num), zpow_natCast, lt_div_iff₀ hp]
      exact_mod_cast h1
    omega
  have hl : lastPlace x = -k := by
    unfold lastPlace
    rw [hlog]
    omega
  have e : (2 : ℝ) ^ lastPlace x = 1 / 2 ^ k := by rw [hl, zpow_neg, zpow_natCast, one_div]
  unfold b64
  rw [if_neg hx.le.not_gt]
  unfold b64pos
  rw [e, div_div_eq_mul_div, div_one, roundEven_near h]
  ring

theorem b64_near {x : ℝ} (m : ℤ) (k : ℕ) (hk : k ≤ 1074) (h0 : 2 ^ 52 ≤ x * 2 ^ k) (hm : m < 2 ^ 53)
    (h : |x * 2 ^ k - m| < 1 / 2) : b64 x = m / 2 ^ k := by
  have hm' : (m : ℝ) + 1 ≤ 2 ^ 53 := by exact_mod_cast hm
  exact b64_near' m k hk h0 (by linarith [(abs_lt.1 h).2]) h

/-! ## The witness -/

theorem b64_pi : b64 Real.pi = 7074237752028440 / 2 ^ 51 := by
  have h1 := Real.pi_gt_d20
  have h2 := Real.pi_lt_d20
  have := b64_near (x := Real.pi) 7074237752028440 51 (by norm_num) (by norm_num at *; linarith) (by norm_num)
    (by rw [abs_lt]; constructor <;> norm_num at * <;> linarith)
  push_cast at this
  exact this

theorem b64_factor : b64 (b64 Real.pi / 180) = 5030569068109113 / 2 ^ 58 := by
  rw [b64_pi]
  have := b64_near (x := 7074237752028440 / 2 ^ 51 / 180) 5030569068109113 58 (by norm_num) (by norm_num) (by norm_num)
    (by rw [abs_lt]; constructor <;> norm_num)
  push_cast at this
  exact this

theorem b64_zero : b64 0 = 0 := by simpa using b64_int 0 (by norm_num)
theorem b64_one : b64 1 = 1 := by simpa using b64_int 1 (by norm_num)

theorem rad_8 : b64 (8 * (5030569068109113 / 2 ^ 58)) = 5030569068109113 / 2 ^ 55 := by
  have := b64_near (x := 8 * (5030569068109113 / 2 ^ 58)) 5030569068109113 55 (by norm_num) (by norm_num) (by norm_num)
    (by rw [abs_lt]; constructor <;> norm_num)
  push_cast at this
  exact this

theorem rad_180_b64 : b64 (180 * (5030569068109113 / 2 ^ 58)) = 7074237752028440 / 2 ^ 51 := by
  have := b64_near (x := 180 * (5030569068109113 / 2 ^ 58)) 7074237752028440 51 (by norm_num) (by norm_num) (by norm_num)
    (by rw [abs_lt]; constructor <;> norm_num)
  push_cast at this
  exact this

theorem trig_8 : Iv.trig (.mk 2575651362871865856 2575651362871865856)
    = some (.mk 18267221628442364966 18267221628442365222, .mk 2567290575354868168 2567290575354868424) := by decide +kernel

theorem cos_sin_8 : b64 (Real.cos (5030569068109113 / 2 ^ 55)) = 8919541810762874 / 2 ^ 53 ∧
    b64 (Real.sin (5030569068109113 / 2 ^ 55)) = 5014239404989977 / 2 ^ 55 := by
  obtain ⟨x, hx, hc, hs⟩ := Iv.trig_ok trig_8 (v := .fin (5030569068109113 / 2 ^ 55))
    ⟨_, rfl, by norm_num [Iv.one], by norm_num [Iv.one]⟩
  cases hx
  obtain ⟨c, hc0, hc1, hc2⟩ := hc
  obtain ⟨s, hs0, hs1, hs2⟩ := hs
  cases hc0
  cases hs0
  generalize Real.cos (5030569068109113 / 2 ^ 55) = c at *
  generalize Real.sin (5030569068109113 / 2 ^ 55) = s at *
  norm_num [Iv.one] at hc1 hc2 hs1 hs2
  constructor
  · have := b64_near (x := c) 8919541810762874 53 (by norm_num) (by norm_num; linarith) (by norm_num)
      (by rw [abs_lt]; constructor <;> norm_num <;> linarith)
    push_cast at this
    exact this
  · have := b64_near (x := s) 5014239404989977 55 (by norm_num) (by norm_num; linarith) (by norm_num)
      (by rw [abs_lt]; constructor <;> norm_num <;> linarith)
    push_cast at this
    exact this

theorem cc_8 : b64 (8919541810762874 / 2 ^ 53 * (8919541810762874 / 2 ^ 53)) = 8832737443003841 / 2 ^ 53 := by
  have := b64_near (x := 8919541810762874 / 2 ^ 53 * (8919541810762874 / 2 ^ 53)) 8832737443003841 53 (by norm_num)
    (by norm_num) (by norm_num) (by rw [abs_lt]; constructor <;> norm_num)
  push_cast at this
  exact this

theorem ss_8 : b64 (5014239404989977 / 2 ^ 55 * (5014239404989977 / 2 ^ 55)) = 5582777975588868 / 2 ^ 58 := by
  have := b64_near (x := 5014239404989977 / 2 ^ 55 * (5014239404989977 / 2 ^ 55)) 5582777975588868 58 (by norm_num)
    (by norm_num) (by norm_num) (by rw [abs_lt]; constructor <;> norm_num)
  push_cast at this
  exact this

theorem ss1_8 : b64 (5582777975588868 / 2 ^ 58 * 1) = 5582777975588868 / 2 ^ 58 := by
  have := b64_near (x := 5582777975588868 / 2 ^ 58 * 1) 5582777975588868 58 (by norm_num)
    (by norm_num) (by norm_num) (by rw [abs_lt]; constructor <;> norm_num)
  push_cast at this
  exact this

theorem sum_8 : b64 (8832737443003841 / 2 ^ 53 + 5582777975588868 / 2 ^ 58) = 4503599627370497 / 2 ^ 52 := by
  have := b64_near (x := 8832737443003841 / 2 ^ 53 + 5582777975588868 / 2 ^ 58) 4503599627370497 52 (by norm_num)
    (by norm_num) (by norm_num) (by rw [abs_lt]; constructor <;> norm_num)
  push_cast at this
  exact this

/-- Rounding of a small number in double precision. -/
theorem vrnd64 {z w : ℝ} (h : |z| ≤ 2 ^ 100) (e : b64 z = w) : V.rnd binary64 (.fin z) = .fin w :=
  (V.rnd_fin binary64 h).trans (congrArg V.fin e)

theorem rad64 {x w : ℝ} (h : |x| ≤ 1000) (e : b64 (x * (5030569068109113 / 2 ^ 58)) = w) :
    (rndB binary64).radians (V.fin x) = V.fin w := by
  show V.rnd binary64 (.fin (x * b64 (b64 Real.pi / 180))) = _
  rw [b64_factor]
  refine vrnd64 ?_ e
  rw [abs_mul]
  calc |x| * _ ≤ 1000 * 1 := by
        refine mul_le_mul h ?_ (abs_nonneg _) (by norm_num)
        rw [abs_of_nonneg (by positivity)]
        norm_num
    _ ≤ _ := by norm_num

theorem cos64 (x w : ℝ) (e : b64 (Real.cos x) = w) : (rndB binary64).cos (V.fin x) = .ok (V.fin w) :=
  congrArg (fun t => Except.ok (V.fin t)) e

theorem sin64 (x w : ℝ) (e : b64 (Real.sin x) = w) : (rndB binary64).sin (V.fin x) = .ok (V.fin w) :=
  congrArg (fun t => Except.ok (V.fin t)) e

theorem inc_split (B : Backend) (z s o a : B.α) :
    get_incidence_angle B z s o a = B.cos (B.radians z) >>= fun cz => B.cos (B.radians s) >>= fun cs =>
      B.sin (B.radians s) >>= fun ss => B.sin (B.radians z) >>= fun sz => B.cos (B.radians a - B.pi - B.radians o) >>= fun ca =>
        B.acos (cz * cs + ss * sz * ca) >>= fun A => .ok (B.degrees A) := by
  rfl


/-- The argument of `acos`. -/
def incArg (B : Backend) (z s o a : B.α) : Py B.α := do
  return (← B.cos (B.radians z)) * (← B.cos (B.radians s))
    + (← B.sin (B.radians s)) * (← B.sin (B.radians z)) * (← B.cos (B.radians a - B.pi - B.radians o))

def incDeg (B : Backend) (A : B.α) : Py B.α := do
  return B.degrees A

theorem incArg_sim {B B' : Backend} (S : Sim B B') {x x'} (hx : S.r x x') {y y'} (hy : S.r y y') {z z'} (hz : S.r z z')
    {u u'} (hu : S.r u u') : RelM S.strict S.r (incArg B x y z u) (incArg B' x' y' z' u') := by
  unfold incArg
  sim

theorem incDeg_sim {B B' : Backend} (S : Sim B B') {x x'} (hx : S.r x x') :
    RelM S.strict S.r (incDeg B x) (incDeg B' x') := by
  unfold incDeg
  sim

theorem inc_split2 (B : Backend) (z s o a : B.α) :
    get_incidence_angle B z s o a = incArg B z s o a >>= fun q => B.acos q >>= fun A => incDeg B A := by
  rw [inc_split]
  unfold incArg
  cases B.cos (B.radians z) <;> cases B.cos (B.radians s) <;> cases B.sin (B.radians s) <;> cases B.sin (B.radians z) <;>
    cases B.cos (B.radians a - B.pi - B.radians o) <;> rfl

theorem incArg_8 : incArg (rndB binary64) (V.fin 8) (V.fin 8) (V.fin 0) (V.fin 180) = .ok (V.fin (4503599627370497 / 2 ^ 52)) := by
  have r8 := rad64 (x := 8) (by norm_num) rad_8
  have r0 := rad64 (x := 0) (w := 0) (by norm_num) (by rw [zero_mul]; exact b64_zero)
  have r180 := rad64 (x := 180) (by norm_num) rad_180_b64
  unfold incArg
  rw [r8, r0, r180]
  refine bind_of_ok (cos64 _ _ cos_sin_8.1) (bind_of_ok (cos64 _ _ cos_sin_8.1) (bind_of_ok (sin64 _ _ cos_sin_8.2)
    (bind_of_ok (sin64 _ _ cos_sin_8.2) ?_)))
  have e1 : (rndB binary64).sub ((rndB binary64).sub (V.fin (7074237752028440 / 2 ^ 51)) (rndB binary64).pi) (V.fin 0)
      = V.fin 0 := by
    have : (rndB binary64).sub (V.fin (7074237752028440 / 2 ^ 51)) (rndB binary64).pi = V.fin 0 := by
      show V.rnd binary64 (V.sub (.fin (7074237752028440 / 2 ^ 51)) (.fin (b64 Real.pi))) = _
      rw [b64_pi]
      refine vrnd64 (z := 7074237752028440 / 2 ^ 51 + -(7074237752028440 / 2 ^ 51)) ?_ ?_
      · norm_num
      · rw [add_neg_cancel]; exact b64_zero
    rw [this]
    refine vrnd64 (z := 0 + -0) (by norm_num) ?_
    rw [neg_zero, add_zero]; exact b64_zero
  refine bind_of_ok (a := V.fin 1) ?_ ?_
  · exact (congrArg (rndB binary64).cos e1).trans (cos64 _ 1 (by rw [Real.cos_zero]; exact b64_one))
  · have m1 : (rndB binary64).mul (V.fin (8919541810762874 / 2 ^ 53)) (V.fin (8919541810762874 / 2 ^ 53))
        = V.fin (8832737443003841 / 2 ^ 53) := vrnd64 (by norm_num) cc_8
    have m2 : (rndB binary64).mul (V.fin (5014239404989977 / 2 ^ 55)) (V.fin (5014239404989977 / 2 ^ 55))
        = V.fin (5582777975588868 / 2 ^ 58) := vrnd64 (by norm_num) ss_8
    have m3 : (rndB binary64).mul (V.fin (5582777975588868 / 2 ^ 58)) (V.fin 1)
        = V.fin (5582777975588868 / 2 ^ 58) := vrnd64 (by norm_num) ss1_8
    have m4 : (rndB binary64).add (V.fin (8832737443003841 / 2 ^ 53)) (V.fin (5582777975588868 / 2 ^ 58))
        = V.fin (4503599627370497 / 2 ^ 52) := vrnd64 (by norm_num) sum_8
    have e : (rndB binary64).add ((rndB binary64).mul (V.fin (8919541810762874 / 2 ^ 53)) (V.fin (8919541810762874 / 2 ^ 53)))
        ((rndB binary64).mul ((rndB binary64).mul (V.fin (5014239404989977 / 2 ^ 55)) (V.fin (5014239404989977 / 2 ^ 55)))
          (V.fin 1)) = V.fin (4503599627370497 / 2 ^ 52) := by
      rw [m1, m2, m3, m4]
    exact congrArg Except.ok e

/-- C162 is false: a panel inclined by 8° towards the south, the sun due south at a zenith angle of 8°. The computed cosine of
the incidence angle is 1.0000000000000002. The exact angle is 0. -/
theorem C162_refuted (tp : ℝ) :
    get_incidence_angle (rndB binary64) (V.fin 8) (V.fin 8) (V.fin 0) (V.fin 180) = .error .valueError ∧
    get_incidence_angle (mathB tp) (num 8) (num 8) (num 0) (num 180) = .ok (num 0) := by
  constructor
  · refine (inc_split2 _ _ _ _ _).trans (bind_of_ok incArg_8 (bind_of_error ?_))
    exact if_neg (by norm_num)
  · have e : Real.cos (rad 8) * Real.cos (rad 8) + Real.sin (rad 8) * Real.sin (rad 8) * Real.cos (rad 180 - Real.pi - rad 0) = 1 := by
      rw [rad_180, rad_zero, sub_self, sub_zero, Real.cos_zero]
      linarith [Real.sin_sq_add_cos_sq (rad 8)]
    refine (inc_eval 8 8 0 180 (by rw [e]; norm_num)).trans ?_
    rw [e, Real.arccos_one]
    simp [deg]

/-- The same with numpy: the angle is not a number. -/
theorem C162_numpy : get_incidence_angle (nprB binary64) (V.fin 8) (V.fin 8) (V.fin 0) (V.fin 180) = .ok V.nan := by
  obtain ⟨q, hq, he⟩ := RelM.of_ok (incArg_sim (rndNp binary64).toSim (x := V.fin 8) (x' := V.fin 8) rfl
    (y := V.fin 8) (y' := V.fin 8) rfl (z := V.fin 0) (z' := V.fin 0) rfl (u := V.fin 180) (u' := V.fin 180) rfl) incArg_8
  refine (inc_split2 _ _ _ _ _).trans (bind_of_ok hq (bind_of_ok (a := V.nan) ?_ rfl))
  have he' : V.fin (4503599627370497 / 2 ^ 52) = q := he
  rw [← he']
  exact if_neg (by norm_num)

/-! ## All other angles -/

def incZ : Ball := .num (-360) 360 0
def incA : Ball := .num (-720) 720 0

theorem incArg_ok : Ball.inside (incArg B incZ incZ incA incA) (.num (-3) 3 (33 / 10 ^ 15)) = true := by decide +kernel
theorem incWide_ok : Ball.inside (incDeg B (.num 0 (16 / 5) (265 / 10 ^ 9))) (.num (-1) 184 (16 / 10 ^ 6)) = true := by
  decide +kernel
theorem incNarrow_ok : Ball.inside (incDeg B (.num 0 (16 / 5) (4 / 10 ^ 12))) (.num (-1) 184 (25 / 10 ^ 11)) = true := by
  decide +kernel

/-- Cosine of the exact incidence angle. -/
noncomputable def incCos (z s o a : ℝ) : ℝ := (horizontal (90 - z) a).dot (panelNormal s o)

theorem incCos_bounds (z s o a : ℝ) : |incCos z s o a| ≤ 1 :=
  abs_le.2 (dot_unit_bounds (horizontal_unit (90 - z) a) (horizontal_unit (90 - s) (180 + o)))

theorem incArg_float (F : F64) {z s o a : ℝ} (hz : |z| ≤ 360) (hs : |s| ≤ 360) (ho : |o| ≤ 720) (ha : |a| ≤ 720) :
    ∃ q : ℝ, incArg (rndB F) (V.fin z) (V.fin s) (V.fin o) (V.fin a) = .ok (V.fin q) ∧
      |q - incCos z s o a| ≤ 33 / 10 ^ 15 := by
  have dz := abs_le.1 hz
  have ds := abs_le.1 hs
  have d1 := abs_le.1 ho
  have d2 := abs_le.1 ha
  have R1 : incZ.rel (V.fin z, V.fin z) := dup_rel F 0 (by push_cast; linarith) (by push_cast; linarith)
  have R2 : incZ.rel (V.fin s, V.fin s) := dup_rel F 0 (by push_cast; linarith) (by push_cast; linarith)
  have R3 : incA.rel (V.fin o, V.fin o) := dup_rel F 0 (by push_cast; linarith) (by push_cast; linarith)
  have R4 : incA.rel (V.fin a, V.fin a) := dup_rel F 0 (by push_cast; linarith) (by push_cast; linarith)
  obtain ⟨p, hp, hr⟩ := Ball.ok_of_inside (incArg_sim (ballSim F 0).toSim (x := incZ) (x' := (V.fin z, V.fin z)) R1
    (y := incZ) (y' := (V.fin s, V.fin s)) R2 (z := incA) (z' := (V.fin o, V.fin o)) R3
    (u := incA) (u' := (V.fin a, V.fin a)) R4) incArg_ok
  obtain ⟨u, hu, hur⟩ := RelM.of_ok (incArg_sim (pairFst (rndB F) (mathB 0) rfl).toSim
    (x := (V.fin z, V.fin z)) (x' := V.fin z) rfl (y := (V.fin s, V.fin s)) (y' := V.fin s) rfl
    (z := (V.fin o, V.fin o)) (z' := V.fin o) rfl (u := (V.fin a, V.fin a)) (u' := V.fin a) rfl) hp
  obtain ⟨v, hv, hvr⟩ := RelM.of_ok (incArg_sim (pairSnd (rndB F) (mathB 0) rfl).toSim
    (x := (V.fin z, V.fin z)) (x' := num z) rfl (y := (V.fin s, V.fin s)) (y' := num s) rfl
    (z := (V.fin o, V.fin o)) (z' := num o) rfl (u := (V.fin a, V.fin a)) (u' := num a) rfl) hp
  obtain ⟨q, q', rfl, -, -, he⟩ := hr
  have e : incArg (mathB 0) (num z) (num s) (num o) (num a) = .ok (num (incCos z s o a)) := by
    unfold incCos
    rw [← incidence_dot]
    simp only [incArg, m_radians, m_cos, m_sin, ok_bind, m_mul, m_pi, m_sub, m_add, pure_eq_ok]
  have e2 := num_injective (Except.ok.inj (e.symm.trans (hv.trans (congrArg Except.ok hvr.symm))))
  refine ⟨q, hu.trans (congrArg Except.ok hur.symm), ?_⟩
  rw [e2]
  refine he.trans (le_of_eq ?_)
  push_cast
  rfl

/-- Degrees of an angle that is known up to an error. -/
theorem incDeg_float (F : F64) {x A : ℝ} {b e : ℚ} (h0 : 0 ≤ A) (h1 : A ≤ 16 / 5) (h : |x - A| ≤ b)
    (hok : Ball.inside (incDeg B (.num 0 (16 / 5) b)) (.num (-1) 184 e) = true) :
    ∃ j : ℝ, incDeg (rndB F) (V.fin x) = .ok (V.fin j) ∧ |j - deg A| ≤ e := by
  obtain ⟨p, hp, hr⟩ := Ball.ok_of_inside (incDeg_sim (ballSim F 0).toSim (x := .num 0 (16 / 5) b)
    (x' := (V.fin x, V.fin A)) ⟨_, _, rfl, by push_cast; exact h0, by push_cast; exact h1, h⟩) hok
  obtain ⟨u, hu, hur⟩ := RelM.of_ok (incDeg_sim (pairFst (rndB F) (mathB 0) rfl).toSim
    (x := (V.fin x, V.fin A)) (x' := V.fin x) rfl) hp
  obtain ⟨v, hv, hvr⟩ := RelM.of_ok (incDeg_sim (pairSnd (rndB F) (mathB 0) rfl).toSim
    (x := (V.fin x, V.fin A)) (x' := num A) rfl) hp
  obtain ⟨y, y', rfl, -, -, he⟩ := hr
  have e1 : incDeg (mathB 0) (num A) = .ok (num (deg A)) := by
    simp only [incDeg, m_degrees, pure_eq_ok]
  have e2 := num_injective (Except.ok.inj (e1.symm.trans (hv.trans (congrArg Except.ok hvr.symm))))
  refine ⟨y, hu.trans (congrArg Except.ok hur.symm), ?_⟩
  rw [e2]
  exact he

theorem arccos_close {q D : ℝ} (hq : |q| ≤ 1) (hD : |D| ≤ 1) (h : |q - D| ≤ 33 / 10 ^ 15) :
    |Real.arccos q - Real.arccos D| ≤ 2645 / 10 ^ 10 ∧
      Real.sin (Real.arccos D) * |Real.arccos q - Real.arccos D| ≤ 681 / 10 ^ 16 := by
  have w := arcsin_close_wide hq hD h (by norm_num) (η := 2633 / 10 ^ 10) (by norm_num) (by norm_num)
  have w2 := arcsin_weighted hq hD h w (by norm_num)
  have e : Real.arccos q - Real.arccos D = -(Real.arcsin q - Real.arcsin D) := by rw [Real.arccos, Real.arccos]; ring
  rw [e, abs_neg, Real.sin_arccos, ← Real.cos_arcsin]
  exact ⟨w.trans (by norm_num), w2.trans (by norm_num)⟩

theorem sin_between {i : ℝ} (h1 : 1 ≤ i) (h2 : i ≤ 179) : 0.0174 ≤ Real.sin (rad i) := by
  have key : ∀ x : ℝ, 1 ≤ x → x ≤ 90 → 0.0174 ≤ Real.sin (rad x) := by
    intro x hx1 hx2
    have p1 := Real.pi_gt_d2
    have p2 := Real.pi_lt_d2
    have e1 : rad 1 = Real.pi / 180 := by unfold rad; ring
    have m := Real.sin_le_sin_of_le_of_le_pi_div_two (x := rad 1) (y := rad x) (by rw [e1]; linarith)
      (by rw [← rad_90, rad_le_rad]; exact hx2) (by rw [rad_le_rad]; exact hx1)
    refine le_trans ?_ m
    have g := Real.sin_gt_sub_cube (x := rad 1) (by rw [e1]; linarith)
    rw [e1] at g ⊢
    have hc : (Real.pi / 180) ^ 3 ≤ 0.0176 ^ 3 := by
      refine pow_le_pow_left₀ (by linarith) ?_ 3
      norm_num at *
      linarith
    norm_num at *
    linarith
  rcases le_total i 90 with h | h
  · exact key i h1 h
  · have := key (180 - i) (by linarith) (by linarith)
    rwa [rad_sub, rad_180, Real.sin_pi_sub] at this

/-- C162, what holds for every floating-point arithmetic: for a sun and a panel in any position, `get_incidence_angle` returns an
angle within 0.000016° of the exact one, or raises ValueError. It raises only if the sun stands within 0.000016° of the normal of
the panel or of the opposite direction. If the exact angle lies between 1° and 179°, the result is within 2.5e-10°.
Missing: the success of the call within 0.000016° of the normal, which `C162_refuted` shows to be false. -/
theorem C162_double_partial (F : F64) (tp : ℝ) {z s o a : ℝ} (hz : |z| ≤ 360) (hs : |s| ≤ 360) (ho : |o| ≤ 720)
    (ha : |a| ≤ 720) :
    ∃ i : ℝ, get_incidence_angle (mathB tp) (num z) (num s) (num o) (num a) = .ok (num i) ∧
      ((get_incidence_angle (rndB F) (V.fin z) (V.fin s) (V.fin o) (V.fin a) = .error .valueError ∧
          (i ≤ 16 / 10 ^ 6 ∨ 180 - 16 / 10 ^ 6 ≤ i)) ∨
        ∃ j : ℝ, get_incidence_angle (rndB F) (V.fin z) (V.fin s) (V.fin o) (V.fin a) = .ok (V.fin j) ∧
          |j - i| ≤ 16 / 10 ^ 6 ∧ (1 ≤ i → i ≤ 179 → |j - i| ≤ 25 / 10 ^ 11)) := by
  have hD := incCos_bounds z s o a
  have hD' := abs_le.1 hD
  have hex : get_incidence_angle (mathB tp) (num z) (num s) (num o) (num a) = .ok (num (deg (Real.arccos (incCos z s o a)))) := by
    have he := incidence_dot z s o a
    unfold incCos at hD' ⊢
    rw [← he] at hD' ⊢
    exact inc_eval z s o a hD'
  obtain ⟨q, hq, hqD⟩ := incArg_float F hz hs ho ha
  set D := incCos z s o a with hDdef
  have hq' := abs_le.1 hqD
  have hpi : Real.arccos D ≤ 16 / 5 := by
    have := Real.arccos_le_pi D
    have := Real.pi_lt_d2
    norm_num at *
    linarith
  refine ⟨_, hex, ?_⟩
  by_cases hc : -1 ≤ q ∧ q ≤ 1
  · right
    have hac : (rndB F).acos (V.fin q) = .ok (V.fin (F.acos q)) := if_pos hc
    have herr := F.acos_err q (abs_le.2 hc)
    obtain ⟨w1, w2⟩ := arccos_close (abs_le.2 hc) hD hqD
    have tri : ∀ δ : ℝ, |Real.arccos q - Real.arccos D| ≤ δ → |F.acos q - Real.arccos D| ≤ 1 / 2 ^ 50 + δ := fun δ h => by
      calc |F.acos q - Real.arccos D| = |(F.acos q - Real.arccos q) + (Real.arccos q - Real.arccos D)| := by ring_nf
        _ ≤ |F.acos q - Real.arccos q| + |Real.arccos q - Real.arccos D| := abs_add_le _ _
        _ ≤ _ := add_le_add herr h
    obtain ⟨j, hj, hj2⟩ := incDeg_float F (x := F.acos q) (Real.arccos_nonneg D) hpi (b := 265 / 10 ^ 9) (e := 16 / 10 ^ 6)
      ((tri _ w1).trans (by push_cast; norm_num)) incWide_ok
    refine ⟨j, (inc_split2 _ _ _ _ _).trans (bind_of_ok hq (bind_of_ok hac hj)), by push_cast at hj2; exact hj2, ?_⟩
    intro i1 i2
    have hsin : 0.0174 ≤ Real.sin (Real.arccos D) := by
      have e : Real.arccos D = rad (deg (Real.arccos D)) := (rad_deg _).symm
      rw [e]
      exact sin_between i1 i2
    have w3 : |Real.arccos q - Real.arccos D| ≤ 393 / 10 ^ 14 := by
      have h9 := mul_le_mul_of_nonneg_right hsin (abs_nonneg (Real.arccos q - Real.arccos D))
      norm_num at *
      linarith
    obtain ⟨j', hj', hj2'⟩ := incDeg_float F (x := F.acos q) (Real.arccos_nonneg D) hpi (b := 4 / 10 ^ 12) (e := 25 / 10 ^ 11)
      ((tri _ w3).trans (by push_cast; norm_num)) incNarrow_ok
    have e : j' = j := V.fin.inj (Except.ok.inj (hj'.symm.trans hj))
    rw [← e]
    push_cast at hj2'
    exact hj2'
  · left
    have hac : (rndB F).acos (V.fin q) = .error .valueError := if_neg hc
    refine ⟨(inc_split2 _ _ _ _ _).trans (bind_of_ok hq (bind_of_error hac)), ?_⟩
    have hdeg : ∀ x, x ≤ 2645 / 10 ^ 10 → deg x ≤ 16 / 10 ^ 6 := fun x hx => by
      have h57 := pi57.2
      have e : deg x = x * (180 / Real.pi) := by unfold deg; ring
      rw [e]
      have h0 : 0 < 180 / Real.pi := by positivity
      nlinarith
    rcases not_and_or.1 hc with h | h
    · right
      have hm : |-1 - D| ≤ 33 / 10 ^ 15 := by rw [abs_le]; constructor <;> linarith
      have := (arccos_close (by norm_num) hD hm).1
      rw [Real.arccos_neg_one] at this
      have h2 := hdeg _ ((le_abs_self _).trans this)
      rw [deg_sub, show deg Real.pi = 180 by unfold deg; field_simp] at h2
      linarith
    · left
      have hm : |1 - D| ≤ 33 / 10 ^ 15 := by rw [abs_le]; constructor <;> linarith
      have := (arccos_close (by norm_num) hD hm).1
      rw [Real.arccos_one, zero_sub, abs_neg, abs_of_nonneg (Real.arccos_nonneg _)] at this
      exact hdeg _ this

/-- For a horizontal panel the computed cosine stays in [-1, 1]. -/
theorem incArg_horizontal {z o a : ℝ} (hz : |z| ≤ 1000) (ho : |o| ≤ 1000) (ha : |a| ≤ 1000) :
    ∃ q : ℝ, incArg (rndB binary64) (V.fin z) (V.fin 0) (V.fin o) (V.fin a) = .ok (V.fin q) ∧ |q| ≤ 1 := by
  have small : ∀ x : ℝ, |x| ≤ 1000 → |b64 (x * (5030569068109113 / 2 ^ 58))| ≤ 2000 := fun x hx => by
    have h1 : |x * (5030569068109113 / 2 ^ 58)| ≤ 1000 := by
      rw [abs_mul]
      calc |x| * _ ≤ 1000 * 1 := by
            refine mul_le_mul hx ?_ (abs_nonneg _) (by norm_num)
            rw [abs_of_nonneg (by positivity)]
            norm_num
        _ = 1000 := by norm_num
    refine (F64.rnd_abs binary64 _ h1).trans ?_
    have := tiny_le
    norm_num at *
    linarith
  have rz := rad64 hz rfl
  have ra := rad64 ha rfl
  have ro := rad64 ho rfl
  have r0 := rad64 (x := 0) (w := 0) (by norm_num) (by rw [zero_mul]; exact b64_zero)
  have sa := abs_le.1 (small a ha)
  have so := abs_le.1 (small o ho)
  set w := b64 (z * (5030569068109113 / 2 ^ 58))
  set u := b64 (a * (5030569068109113 / 2 ^ 58))
  set t := b64 (o * (5030569068109113 / 2 ^ 58))
  have hp : b64 Real.pi ≤ 4 ∧ 0 ≤ b64 Real.pi := by rw [b64_pi]; norm_num
  have u1 : |u + -b64 Real.pi| ≤ 2004 := by rw [abs_le]; constructor <;> linarith
  have s1 : (rndB binary64).sub (V.fin u) (rndB binary64).pi = V.fin (b64 (u + -b64 Real.pi)) :=
    vrnd64 (z := u + -b64 Real.pi) (u1.trans (by norm_num)) rfl
  have u2 := abs_le.1 (F64.rnd_abs binary64 _ u1)
  have ht := tiny_le
  have s2 : (rndB binary64).sub (V.fin (b64 (u + -b64 Real.pi))) (V.fin t) = V.fin (b64 (b64 (u + -b64 Real.pi) + -t)) := by
    refine vrnd64 (z := b64 (u + -b64 Real.pi) + -t) ?_ rfl
    have u2' : -4000 ≤ b64 (u + -b64 Real.pi) ∧ b64 (u + -b64 Real.pi) ≤ 4000 := by
      change -_ ≤ b64 (u + -b64 Real.pi) ∧ b64 (u + -b64 Real.pi) ≤ _ at u2
      norm_num at *
      constructor <;> linarith
    rw [abs_le]
    norm_num
    constructor <;> linarith
  have hc : |b64 (Real.cos w)| ≤ 1 := b64_abs_le_one (Real.abs_cos_le_one w)
  have hc1 : |b64 (Real.cos w) * 1| ≤ 1 := by rwa [mul_one]
  have m1 : (rndB binary64).mul (V.fin (b64 (Real.cos w))) (V.fin 1) = V.fin (b64 (b64 (Real.cos w) * 1)) :=
    vrnd64 (hc1.trans (by norm_num)) rfl
  have m2 : ∀ y : ℝ, (rndB binary64).mul (V.fin 0) (V.fin y) = V.fin 0 := fun y =>
    vrnd64 (z := 0 * y) (by rw [zero_mul]; norm_num) (by rw [zero_mul]; exact b64_zero)
  have hc2 : |b64 (b64 (Real.cos w) * 1)| ≤ 1 := b64_abs_le_one hc1
  have m3 : (rndB binary64).add (V.fin (b64 (b64 (Real.cos w) * 1))) (V.fin 0) = V.fin (b64 (b64 (b64 (Real.cos w) * 1))) := by
    refine vrnd64 (z := b64 (b64 (Real.cos w) * 1) + 0) ?_ (by rw [add_zero])
    rw [add_zero]
    exact hc2.trans (by norm_num)
  refine ⟨b64 (b64 (b64 (Real.cos w) * 1)), ?_, b64_abs_le_one hc2⟩
  unfold incArg
  rw [rz, r0, ra, ro]
  refine bind_of_ok (cos64 _ _ rfl) (bind_of_ok (cos64 _ 1 (by rw [Real.cos_zero]; exact b64_one))
    (bind_of_ok (sin64 _ 0 (by rw [Real.sin_zero]; exact b64_zero)) (bind_of_ok (sin64 _ _ rfl) ?_)))
  have e1 : (rndB binary64).sub ((rndB binary64).sub (V.fin u) (rndB binary64).pi) (V.fin t)
      = V.fin (b64 (b64 (u + -b64 Real.pi) + -t)) := by rw [s1, s2]
  refine bind_of_ok ((congrArg (rndB binary64).cos e1).trans (cos64 _ _ rfl)) ?_
  have e : ∀ y v : ℝ, (rndB binary64).add ((rndB binary64).mul (V.fin (b64 (Real.cos w))) (V.fin 1))
      ((rndB binary64).mul ((rndB binary64).mul (V.fin 0) (V.fin y)) (V.fin v))
        = V.fin (b64 (b64 (b64 (Real.cos w) * 1))) := fun y v => by rw [m1, m2, m2, m3]
  exact congrArg Except.ok (e _ _)

/-- C162: a horizontal panel is no problem: the call always returns an angle, whatever the sun. -/
theorem C162_horizontal {z o a : ℝ} (hz : |z| ≤ 360) (ho : |o| ≤ 720) (ha : |a| ≤ 720) (z0 : 0 ≤ z) (z1 : z ≤ 180) :
    ∃ j : ℝ, get_incidence_angle (rndB binary64) (V.fin z) (V.fin 0) (V.fin o) (V.fin a) = .ok (V.fin j) ∧
      |j - z| ≤ 16 / 10 ^ 6 := by
  obtain ⟨i, hi, h⟩ := C162_double_partial binary64 0 hz (s := 0) (by norm_num) ho ha
  have e := num_injective (Except.ok.inj (hi.symm.trans (C34_horizontal_panel 0 z o a z0 z1)))
  subst e
  rcases h with ⟨h, -⟩ | ⟨j, h1, h2, -⟩
  · exfalso
    obtain ⟨q, hq, hq1⟩ := incArg_horizontal (hz.trans (by norm_num)) (ho.trans (by norm_num)) (ha.trans (by norm_num))
    have := (inc_split2 (rndB binary64) (V.fin i) (V.fin 0) (V.fin o) (V.fin a)).trans
      (bind_of_ok hq (bind_of_ok (show (rndB binary64).acos (V.fin q) = .ok _ from if_pos (abs_le.1 hq1)) rfl))
    rw [h] at this
    cases this
  · exact ⟨j, h1, h2⟩

/-- The sun at the horizon in the south-west, a wall facing west: the angle is 45°, and double precision agrees to 2.5e-10°. -/
example (F : F64) : ∃ j : ℝ, get_incidence_angle (rndB F) (V.fin 90) (V.fin 90) (V.fin 90) (V.fin 225) = .ok (V.fin j) ∧
    |j - 45| ≤ 25 / 10 ^ 11 := by
  obtain ⟨i, hi, h⟩ := C162_double_partial F 0 (z := 90) (s := 90) (o := 90) (a := 225) (by norm_num) (by norm_num)
    (by norm_num) (by norm_num)
  have e : Real.cos (rad 90) * Real.cos (rad 90) + Real.sin (rad 90) * Real.sin (rad 90) * Real.cos (rad 225 - Real.pi - rad 90)
      = Real.cos (Real.pi / 4) := by
    rw [rad_90, Real.cos_pi_div_two, Real.sin_pi_div_two, ← Real.cos_neg (Real.pi / 4)]
    rw [show rad 225 - Real.pi - Real.pi / 2 = -(Real.pi / 4) by unfold rad; ring]
    ring
  have hb : -1 ≤ Real.cos (Real.pi / 4) ∧ Real.cos (Real.pi / 4) ≤ 1 := ⟨Real.neg_one_le_cos _, Real.cos_le_one _⟩
  have he := inc_eval (tp := 0) 90 90 90 225 (by rw [e]; exact hb)
  rw [e, Real.arccos_cos (by positivity) (by linarith [Real.pi_pos])] at he
  have h45 : i = 45 := by
    have := num_injective (Except.ok.inj (hi.symm.trans he))
    rw [this]; unfold deg; field_simp; norm_num
  subst h45
  rcases h with ⟨-, h | h⟩ | ⟨j, h1, -, h2⟩
  · norm_num at h
  · norm_num at h
  · exact ⟨j, h1, h2 (by norm_num) (by norm_num)⟩

end Verif.Props
