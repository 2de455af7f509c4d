import Verif.Proofs.FloatFast
import Verif.Props.Radiation
import Mathlib.Analysis.Calculus.MeanValue

/-!
# Direct radiation in floating-point arithmetic
-/

namespace Verif

open Verif.Spec Verif.Props Pysolar Pysolar.Radiation Pysolar.Numeric

namespace Chain

open Ball hiding deg rad num

/-! ## Attenuation is a gentle function of the sine of the altitude -/

/-- `y ≤ exp (y - 1)`, squared. -/
theorem sq_mul_exp_neg_le {x : ℝ} (hx : 0 ≤ x) : x ^ 2 * Real.exp (-x) ≤ 0.55 := by
  have h1 : x / 2 ≤ Real.exp (x / 2 - 1) := by linarith [Real.add_one_le_exp (x / 2 - 1)]
  have h2 : (x / 2) ^ 2 ≤ Real.exp (x / 2 - 1) ^ 2 := pow_le_pow_left₀ (by linarith) h1 2
  have h3 : Real.exp (x / 2 - 1) ^ 2 = Real.exp x * Real.exp (-2) := by
    rw [← Real.exp_nat_mul, ← Real.exp_add]
    congr 1
    push_cast
    ring
  have h4 : Real.exp (-2) ≤ 0.1354 := by
    have h5 : Real.exp (-2) = (Real.exp (-1)) ^ 2 := by rw [← Real.exp_nat_mul]; norm_num
    have h6 := Real.exp_neg_one_lt_d9
    have h7 := Real.exp_pos (-1)
    rw [h5]
    calc Real.exp (-1) ^ 2 ≤ 0.3678794412 ^ 2 := pow_le_pow_left₀ h7.le h6.le 2
      _ ≤ _ := by norm_num
  have h8 : x ^ 2 ≤ 4 * (Real.exp x * 0.1354) := by
    have := mul_le_mul_of_nonneg_left h4 (Real.exp_pos x).le
    nlinarith
  rw [Real.exp_neg, ← div_eq_mul_inv, div_le_iff₀ (Real.exp_pos x)]
  linarith [Real.exp_pos x]

theorem mul_exp_neg_le {x : ℝ} : x * Real.exp (-x) ≤ 0.37 := by
  have h1 : x ≤ Real.exp (x - 1) := by linarith [Real.add_one_le_exp (x - 1)]
  have h2 : Real.exp (x - 1) = Real.exp x * Real.exp (-1) := by rw [← Real.exp_add]; ring_nf
  have h3 := Real.exp_neg_one_lt_d9
  rw [Real.exp_neg, ← div_eq_mul_inv, div_le_iff₀ (Real.exp_pos x)]
  have := mul_le_mul_of_nonneg_left h3.le (Real.exp_pos x).le
  norm_num at this ⊢
  linarith [Real.exp_pos x]

theorem attenuation_lip {k s s' : ℝ} (hk : 0.1389 ≤ k) (hs : 0 < s) (hs' : 0 < s') :
    |Real.exp (-(k / s')) - Real.exp (-(k / s))| ≤ 4 * |s' - s| := by
  have hd : ∀ x ∈ Set.Ioi (0 : ℝ), HasDerivWithinAt (fun s => Real.exp (-(k / s)))
      (Real.exp (-(k / x)) * (k / x ^ 2)) (Set.Ioi 0) x := by
    intro x hx
    have hx0 : x ≠ 0 := ne_of_gt hx
    have h1 : HasDerivAt (fun s : ℝ => k / s) (-(k / x ^ 2)) x := by
      have := (hasDerivAt_inv hx0).const_mul k
      refine (this.congr_deriv ?_).congr_of_eventuallyEq ?_
      · field_simp
      · exact Filter.Eventually.of_forall fun s => by simp [div_eq_mul_inv]
    have h2 := h1.neg.exp
    rw [neg_neg] at h2
    exact h2.hasDerivWithinAt
  have hb : ∀ x ∈ Set.Ioi (0 : ℝ), ‖Real.exp (-(k / x)) * (k / x ^ 2)‖ ≤ 4 := by
    intro x hx
    have hx0 : 0 < x := hx
    have hk0 : 0 < k := by linarith
    rw [Real.norm_of_nonneg (by positivity)]
    have h1 := sq_mul_exp_neg_le (x := k / x) (by positivity)
    have h2 : Real.exp (-(k / x)) * (k / x ^ 2) = (k / x) ^ 2 * Real.exp (-(k / x)) / k := by
      field_simp
    rw [h2, div_le_iff₀ hk0]
    norm_num at *
    linarith
  have := (convex_Ioi (0 : ℝ)).norm_image_sub_le_of_norm_hasDerivWithin_le hd hb (x := s) (y := s') hs hs'
  simpa [Real.norm_eq_abs] using this

/-- A relative change of the exponent. -/
theorem exp_neg_rel {x y r : ℝ} (hx : 0 < x) (hr : r ≤ 1 / 100) (h : |y - x| ≤ r * x) :
    |Real.exp (-y) - Real.exp (-x)| ≤ 0.38 * r := by
  have h' := abs_le.1 h
  have hr0 : 0 ≤ r := nonneg_of_mul_nonneg_left ((abs_nonneg _).trans h) hx
  have key : ∀ a b : ℝ, a ≤ b → x * (1 - r) ≤ a → b - a ≤ r * x → |Real.exp (-b) - Real.exp (-a)| ≤ 0.38 * r := by
    intro a b hab ha hba
    have h1 : Real.exp (-b) ≤ Real.exp (-a) := Real.exp_le_exp.2 (by linarith)
    rw [abs_of_nonpos (by linarith)]
    have h2 : Real.exp (-b) = Real.exp (-a) * Real.exp (-(b - a)) := by rw [← Real.exp_add]; ring_nf
    have h3 := Real.add_one_le_exp (-(b - a))
    have h4 := mul_le_mul_of_nonneg_left h3 (Real.exp_pos (-a)).le
    have h5 := mul_exp_neg_le (x := a)
    have h6 : (b - a) * 0.99 ≤ r * a := by nlinarith
    have h7 := mul_le_mul_of_nonneg_right h6 (Real.exp_pos (-a)).le
    have h8 := mul_le_mul_of_nonneg_left h5 hr0
    rw [h2]
    nlinarith
  rcases le_total x y with hxy | hxy
  · exact key x y hxy (by nlinarith) (by linarith)
  · rw [abs_sub_comm]
    exact key y x hxy (by nlinarith) (by linarith)

/-! ## The steps of `get_radiation_direct` -/

/-- Rounding of a number that is not tiny, as a relative error. -/
theorem rnd_relative (F : F64) {z : ℝ} (hz : 1 / 100 ≤ |z|) : ∃ e, |e| ≤ 1.2 / 10 ^ 16 ∧ F.rnd z = z * (1 + e) := by
  have hz0 : z ≠ 0 := by intro h; rw [h, abs_zero] at hz; norm_num at hz
  have h1 := F.rnd_err z
  have h2 : (1 : ℝ) / 2 ^ 1075 ≤ 1 / 2 ^ 110 := by gcongr <;> norm_num
  refine ⟨(F.rnd z - z) / z, ?_, by field_simp; ring⟩
  rw [abs_div, div_le_iff₀ (abs_pos.2 hz0)]
  refine h1.trans ((add_le_add le_rfl h2).trans ?_)
  have h3 : (1 : ℝ) / 2 ^ 110 ≤ |z| / 10 ^ 20 := by
    calc (1 : ℝ) / 2 ^ 110 ≤ 1 / 100 / 10 ^ 20 := by norm_num
      _ ≤ _ := div_le_div_of_nonneg_right hz (by norm_num)
  norm_num at *
  linarith

theorem one_add_mul {a b A B : ℝ} (ha : |a| ≤ A) (hb : |b| ≤ B) : ∃ e, |e| ≤ A + B + A * B ∧ (1 + a) * (1 + b) = 1 + e := by
  refine ⟨a + b + a * b, ?_, by ring⟩
  refine (abs_add_le _ _).trans (add_le_add ((abs_add_le _ _).trans (add_le_add ha hb)) ?_)
  rw [abs_mul]
  exact mul_le_mul ha hb (abs_nonneg _) ((abs_nonneg _).trans ha)

def fluxFb : Ball := .num 1084 1236 (54 / 10 ^ 14)
def depthFb : Ball := .num (0.138) (0.21) (3 / 10 ^ 16)
def sinAltb : Ball := .num (-2) 2 (11 / 10 ^ 16)

/-- The sine of an angle in degrees. -/
def sinD (B : Backend) (x : B.α) : Py B.α := B.sin (B.radians x)

theorem sinD_sim {B B' : Backend} (S : Sim B B') {x x'} (hx : S.r x x') :
    RelM S.strict S.r (sinD B x) (sinD B' x') := by
  unfold sinD
  sim

theorem flux_ok : inside (get_apparent_extraterrestrial_flux B ydayB) fluxFb = true := by decide +kernel
theorem depth_ok : inside (get_optical_depth B ydayB) depthFb = true := by decide +kernel
theorem sinAlt_ok : inside (sinD B altIn) sinAltb = true := by decide +kernel

theorem flux_float (F : F64) {c : Civil} (h : c.Valid) :
    ∃ x, get_apparent_extraterrestrial_flux (rndB F) ((rndB F).lit (yday c.date)) = .ok (V.fin x) ∧
      |x - fluxF (yday c.date)| ≤ 54 / 10 ^ 14 := by
  have a := yday_rel F 0 h
  obtain ⟨p, hp, hr⟩ := ok_of_inside ((ballSim F 0).toSim.get_apparent_extraterrestrial_flux (x := ydayB)
    (x' := (fxB F 0).lit (yday c.date)) a) flux_ok
  obtain ⟨s, s', rfl, -, -, he⟩ := hr
  obtain ⟨v, hv, hvr⟩ := RelM.of_ok ((pairSnd (rndB F) (mathB 0) rfl).toSim.get_apparent_extraterrestrial_flux
    (x := (fxB F 0).lit (yday c.date)) (x' := (mathB 0).lit (yday c.date)) rfl) hp
  obtain ⟨u, hu, hur⟩ := RelM.of_ok ((pairFst (rndB F) (mathB 0) rfl).toSim.get_apparent_extraterrestrial_flux
    (x := (fxB F 0).lit (yday c.date)) (x' := (rndB F).lit (yday c.date)) rfl) hp
  have e0 : (mathB 0).lit (yday c.date) = num (yday c.date) := by
    show V.fin _ = V.fin _
    congr 1
  rw [e0] at hv
  have e2 := num_injective (Except.ok.inj ((flux_eval _).symm.trans (hv.trans (congrArg Except.ok hvr.symm))))
  refine ⟨s, hu.trans (congrArg Except.ok hur.symm), ?_⟩
  rw [e2]
  refine he.trans (le_of_eq ?_)
  push_cast
  rfl

theorem depth_float (F : F64) {c : Civil} (h : c.Valid) :
    ∃ x, get_optical_depth (rndB F) ((rndB F).lit (yday c.date)) = .ok (V.fin x) ∧
      |x - depthF (yday c.date)| ≤ 3 / 10 ^ 16 := by
  have a := yday_rel F 0 h
  obtain ⟨p, hp, hr⟩ := ok_of_inside ((ballSim F 0).toSim.get_optical_depth (x := ydayB)
    (x' := (fxB F 0).lit (yday c.date)) a) depth_ok
  obtain ⟨s, s', rfl, -, -, he⟩ := hr
  obtain ⟨v, hv, hvr⟩ := RelM.of_ok ((pairSnd (rndB F) (mathB 0) rfl).toSim.get_optical_depth
    (x := (fxB F 0).lit (yday c.date)) (x' := (mathB 0).lit (yday c.date)) rfl) hp
  obtain ⟨u, hu, hur⟩ := RelM.of_ok ((pairFst (rndB F) (mathB 0) rfl).toSim.get_optical_depth
    (x := (fxB F 0).lit (yday c.date)) (x' := (rndB F).lit (yday c.date)) rfl) hp
  have e0 : (mathB 0).lit (yday c.date) = num (yday c.date) := by
    show V.fin _ = V.fin _
    congr 1
  rw [e0] at hv
  have e2 := num_injective (Except.ok.inj ((depth_eval _).symm.trans (hv.trans (congrArg Except.ok hvr.symm))))
  refine ⟨s, hu.trans (congrArg Except.ok hur.symm), ?_⟩
  rw [e2]
  refine he.trans (le_of_eq ?_)
  push_cast
  rfl

theorem sinAlt_float (F : F64) {alt : ℝ} (ha : |alt| ≤ 91) :
    ∃ s, sinD (rndB F) (V.fin alt) = .ok (V.fin s) ∧ |s - Real.sin (Spec.rad alt)| ≤ 11 / 10 ^ 16 := by
  have ha' := abs_le.1 ha
  obtain ⟨p, hp, hr⟩ := ok_of_inside (sinD_sim (ballSim F 0).toSim (x := altIn) (x' := (V.fin alt, V.fin alt))
    (dup_rel F 0 (by push_cast; linarith) (by push_cast; linarith))) sinAlt_ok
  obtain ⟨s, s', rfl, -, -, he⟩ := hr
  obtain ⟨v, hv, hvr⟩ := RelM.of_ok (sinD_sim (x := (V.fin alt, V.fin alt)) (x' := num alt)
    (pairSnd (rndB F) (mathB 0) rfl).toSim rfl) hp
  obtain ⟨u, hu, hur⟩ := RelM.of_ok (sinD_sim (x := (V.fin alt, V.fin alt)) (x' := V.fin alt)
    (pairFst (rndB F) (mathB 0) rfl).toSim rfl) hp
  have e' : sinD (mathB 0) (num alt) = .ok (num (Real.sin (Spec.rad alt))) := by simp [sinD]
  have e2 := num_injective (Except.ok.inj (e'.symm.trans (hv.trans (congrArg Except.ok hvr.symm))))
  refine ⟨s, hu.trans (congrArg Except.ok hur.symm), ?_⟩
  rw [e2]
  refine he.trans (le_of_eq ?_)
  push_cast
  rfl

theorem direct_split_of (B : Backend) {d : DateTime} {c : Civil}
    (hy : tm_yday B (.dt d) = .ok (B.lit (yday c.date))) (x : B.α) :
    get_radiation_direct B (.dt d) x
      = get_apparent_extraterrestrial_flux B (B.lit (yday c.date)) >>= fun fl =>
        get_optical_depth B (B.lit (yday c.date)) >>= fun k => get_air_mass_ratio B x >>= fun m =>
        B.exp (B.mul (B.mul (B.neg (B.lit 1)) k) m) >>= fun e =>
        .ok (B.mul (B.mul fl e) (B.ofC (B.lt (B.lit 0) x))) := by
  unfold get_radiation_direct
  rw [hy]
  rfl

theorem direct_split (B : Backend) (hB : B.npTime = false) {d : DateTime} {c : Civil} (h : UtcFields d c) (x : B.α) :
    get_radiation_direct B (.dt d) x
      = get_apparent_extraterrestrial_flux B (B.lit (yday c.date)) >>= fun fl =>
        get_optical_depth B (B.lit (yday c.date)) >>= fun k => get_air_mass_ratio B x >>= fun m =>
        B.exp (B.mul (B.mul (B.neg (B.lit 1)) k) m) >>= fun e =>
        .ok (B.mul (B.mul fl e) (B.ofC (B.lt (B.lit 0) x))) :=
  direct_split_of B (tm_yday_eq B hB h) x

/-- The exponent, computed: `k / s'` up to a relative error of 3e-15, for the computed sine `s'`. -/
theorem exponent_float (F : F64) {c : Civil} (h : c.Valid) {alt : ℝ} (ha : |alt| ≤ 91)
    (hs : 1 / 10 ^ 8 ≤ |Real.sin (Spec.rad alt)|) :
    ∃ k' m s' p, get_optical_depth (rndB F) ((rndB F).lit (yday c.date)) = .ok (V.fin k') ∧
      get_air_mass_ratio (rndB F) (V.fin alt) = .ok (V.fin m) ∧
      (rndB F).mul ((rndB F).mul ((rndB F).neg ((rndB F).lit 1)) (V.fin k')) (V.fin m) = V.fin (-p) ∧
      |s' - Real.sin (Spec.rad alt)| ≤ 11 / 10 ^ 16 ∧
      ∃ e, |e| ≤ 3 / 10 ^ 15 ∧ p = depthF (yday c.date) / s' * (1 + e) := by
  obtain ⟨k', hk', hk⟩ := depth_float F h
  obtain ⟨s', hs', hss⟩ := sinAlt_float F ha
  have hkb := depthF_bounds (yday c.date)
  set k := depthF (yday c.date) with hkd
  set s := Real.sin (Spec.rad alt) with hsd
  have hs'a : 1 / 10 ^ 8 - 11 / 10 ^ 16 ≤ |s'| := by
    have := abs_sub_abs_le_abs_sub s s'
    rw [abs_sub_comm] at this
    linarith
  have hs'0 : s' ≠ 0 := by
    intro h0
    rw [h0, abs_zero] at hs'a
    norm_num at hs'a
  have hs'1 : |s'| ≤ 1.01 := by
    have h1 := abs_sub_abs_le_abs_sub s' s
    have h2 : |s| ≤ 1 := Real.abs_sin_le_one _
    norm_num at *
    linarith
  have hone : F.rnd ((1 : ℚ) : ℝ) = 1 := by
    have := F.rnd_int 1 (by norm_num)
    push_cast at this ⊢
    exact this
  have hinv : |1 / s'| ≤ 2 ^ 100 := by
    rw [abs_div, abs_one, div_le_iff₀ (abs_pos.2 hs'0)]
    norm_num at *
    linarith
  have hinv1 : 1 / 2 ≤ |1 / s'| := by
    rw [abs_div, abs_one, le_div_iff₀ (abs_pos.2 hs'0)]
    norm_num at *
    linarith
  have hm : get_air_mass_ratio (rndB F) (V.fin alt) = .ok (V.fin (F.rnd (1 / s'))) := by
    have h1 : ((rndB F).sin ((rndB F).radians (V.fin alt)) >>= fun y => (rndB F).div ((rndB F).lit 1) y)
        = .ok (V.fin (F.rnd (1 / s'))) := by
      refine bind_of_ok hs' ?_
      refine (if_neg hs'0).trans (congrArg Except.ok ?_)
      show V.rnd F (V.fin (F.rnd ((1 : ℚ) : ℝ) / s')) = _
      rw [hone]
      exact V.rnd_fin F hinv
    unfold get_air_mass_ratio
    have h2 : (do (rndB F).div 1 (← (rndB F).sin ((rndB F).radians (V.fin alt))) : Py (rndB F).α)
        = .ok (V.fin (F.rnd (1 / s'))) := h1
    rw [h2]
  have hk'0 : 0.1389 ≤ k' ∧ k' ≤ 0.2091 := by
    have := abs_le.1 hk
    norm_num at *
    constructor <;> linarith
  obtain ⟨e2, he2, hm2⟩ := rnd_relative F (z := 1 / s') (by linarith)
  obtain ⟨e1, he1, hk2⟩ := rnd_relative F (z := -1 * k') (by
    rw [abs_mul, abs_neg, abs_one, one_mul, abs_of_nonneg (by linarith)]
    norm_num at *
    linarith)
  have hkn : (rndB F).mul ((rndB F).neg ((rndB F).lit 1)) (V.fin k') = V.fin (F.rnd (-1 * k')) := by
    show V.rnd F (V.fin (-F.rnd ((1 : ℚ) : ℝ) * k')) = _
    rw [hone]
    refine V.rnd_fin F ?_
    rw [abs_mul, abs_neg, abs_one, one_mul, abs_of_nonneg (by linarith)]
    norm_num at *
    linarith
  have e1b := abs_le.1 he1
  have e2b := abs_le.1 he2
  have hz : F.rnd (-1 * k') * F.rnd (1 / s') = -(k' / s') * ((1 + e1) * (1 + e2)) := by
    rw [hk2, hm2]
    ring
  obtain ⟨e3, he3, h3⟩ := one_add_mul he1 he2
  have e3b : |e3| ≤ 1 / 10 ^ 10 := he3.trans (by norm_num)
  have e3b' := abs_le.1 e3b
  rw [h3] at hz
  have hks : |k' / s'| = k' * |1 / s'| := by
    rw [div_eq_mul_one_div k', abs_mul, abs_of_nonneg (by linarith)]
  have hzabs : |F.rnd (-1 * k') * F.rnd (1 / s')| = k' * |1 / s'| * (1 + e3) := by
    rw [hz, abs_mul, abs_neg, hks, abs_of_nonneg (a := 1 + e3) (by norm_num at *; linarith)]
  have hlow : 0.06 ≤ k' * |1 / s'| := by
    calc (0.06 : ℝ) ≤ 0.1389 * (1 / 2) := by norm_num
      _ ≤ _ := mul_le_mul hk'0.1 hinv1 (by norm_num) (by linarith)
  have hup : k' * |1 / s'| ≤ 0.21 * (2 / 10 ^ (-8 : ℤ)) := by
    refine mul_le_mul (by linarith) ?_ (abs_nonneg _) (by norm_num)
    rw [abs_div, abs_one, div_le_iff₀ (abs_pos.2 hs'0)]
    norm_num at *
    linarith
  obtain ⟨e4, he4, h4⟩ := rnd_relative F (z := F.rnd (-1 * k') * F.rnd (1 / s')) (by
    rw [hzabs]
    norm_num at *
    nlinarith)
  have hmul : (rndB F).mul (V.fin (F.rnd (-1 * k'))) (V.fin (F.rnd (1 / s')))
      = V.fin (F.rnd (F.rnd (-1 * k') * F.rnd (1 / s'))) := by
    refine V.rnd_fin F ?_
    rw [hzabs]
    norm_num at *
    nlinarith
  obtain ⟨e5, he5, h5⟩ := one_add_mul he3 he4
  have hk0 : k ≠ 0 := by linarith [hkb.1]
  have he0 : |(k' - k) / k| ≤ 2.2 / 10 ^ 15 := by
    rw [abs_div, abs_of_pos (by linarith [hkb.1] : 0 < k), div_le_iff₀ (by linarith [hkb.1])]
    refine hk.trans ?_
    have := hkb.1
    norm_num at this ⊢
    linarith
  obtain ⟨e6, he6, h6⟩ := one_add_mul he0 he5
  refine ⟨k', F.rnd (1 / s'), s', -F.rnd (F.rnd (-1 * k') * F.rnd (1 / s')), hk', hm, ?_, hss, e6,
    he6.trans (by norm_num), ?_⟩
  · rw [hkn, hmul, neg_neg]
  · rw [h4, hz, ← h6, ← h5, show 1 + (k' - k) / k = k' / k by field_simp; ring]
    field_simp

theorem lit_zero (F : F64) : F.rnd ((0 : ℚ) : ℝ) = 0 := by
  have := F.rnd_int 0 (by norm_num)
  push_cast at this ⊢
  exact this

theorem rnd_zero (F : F64) : F.rnd 0 = 0 := by
  have := F.rnd_int 0 (by norm_num)
  push_cast at this
  exact this

/-- `get_radiation_direct` with the sun up. -/
theorem direct_day (F : F64) (tp : ℝ) {d : DateTime} {c : Civil} (h : UtcFields d c) {alt : ℝ}
    (h1 : 1 / 10 ^ 6 ≤ alt) (h2 : alt ≤ 90) :
    ∃ r r', get_radiation_direct (mathB tp) (.dt d) (num alt) = .ok (num r) ∧
      get_radiation_direct (rndB F) (.dt d) (V.fin alt) = .ok (V.fin r') ∧ |r' - r| ≤ 1 / 10 ^ 11 := by
  set s := Real.sin (Spec.rad alt) with hsd
  have hs8 : 1 / 10 ^ 8 ≤ s := by
    have h3 := Real.mul_le_sin (x := Spec.rad alt) (by unfold Spec.rad; have := Real.pi_pos; positivity)
      (by rw [← rad_90]; exact rad_le_rad.2 h2)
    have h4 : 2 / Real.pi * Spec.rad alt = alt / 90 := by
      unfold Spec.rad
      have := Real.pi_pos
      field_simp
      norm_num
    rw [h4] at h3
    refine le_trans ?_ h3
    rw [le_div_iff₀ (by norm_num)]
    refine le_trans (by norm_num) h1
  have hs0 : 0 < s := lt_of_lt_of_le (by norm_num) hs8
  have ha : |alt| ≤ 91 := by rw [abs_le]; constructor <;> linarith
  obtain ⟨k', m, s', p, hk', hm, hp, hss, e, he, hpe⟩ := exponent_float F h.1 ha (hs8.trans (le_abs_self _))
  obtain ⟨fl', hfl', hfl⟩ := flux_float F h.1
  have hkb := depthF_bounds (yday c.date)
  have hfb := fluxF_bounds (yday c.date)
  set k := depthF (yday c.date) with hkd
  set fl := fluxF (yday c.date) with hfld
  have hs'0 : 0 < s' := by
    have := abs_le.1 hss
    norm_num at *
    linarith
  have hk1 : 0.1389 ≤ k := by have := hkb.1; norm_num at *; linarith
  have hk0 : 0 < k := by linarith
  have hx0 : 0 < k / s' := by positivity
  have hexp : |Real.exp (-p) - Real.exp (-(k / s))| ≤ 5.6 / 10 ^ 15 := by
    have g1 := exp_neg_rel (x := k / s') (y := p) (r := 3 / 10 ^ 15) hx0 (by norm_num) (by
      rw [hpe, show k / s' * (1 + e) - k / s' = e * (k / s') by ring, abs_mul, abs_of_pos hx0]
      exact mul_le_mul_of_nonneg_right he hx0.le)
    have g2 := attenuation_lip (k := k) hk1 hs0 hs'0
    have g3 : Real.exp (-p) - Real.exp (-(k / s))
        = (Real.exp (-p) - Real.exp (-(k / s'))) + (Real.exp (-(k / s')) - Real.exp (-(k / s))) := by ring
    rw [g3]
    refine (abs_add_le _ _).trans ?_
    norm_num at *
    linarith
  have hp0 : 0 < p := by
    rw [hpe]
    have := abs_le.1 he
    have : 0 < 1 + e := by norm_num at *; linarith
    positivity
  have hexp1 : Real.exp (-p) ≤ 1 := Real.exp_le_one_iff.2 (by linarith)
  have hexp2 : Real.exp (-(k / s)) ≤ 1 := by
    have : 0 < k / s := by positivity
    exact Real.exp_le_one_iff.2 (by linarith)
  have hFe := F.exp_err (-p)
  have ht : (1 : ℝ) / 2 ^ 1074 ≤ 1 / 2 ^ 110 := by gcongr <;> norm_num
  have ht5 : (1 : ℝ) / 2 ^ 1075 ≤ 1 / 2 ^ 110 := by gcongr <;> norm_num
  have hex : |F.exp (-p) - Real.exp (-(k / s))| ≤ 6.1 / 10 ^ 15 := by
    have g3 : F.exp (-p) - Real.exp (-(k / s))
        = (F.exp (-p) - Real.exp (-p)) + (Real.exp (-p) - Real.exp (-(k / s))) := by ring
    rw [g3]
    refine (abs_add_le _ _).trans ?_
    have g4 : |F.exp (-p) - Real.exp (-p)| ≤ 1 / 2 ^ 51 + 1 / 2 ^ 110 :=
      hFe.trans (add_le_add (div_le_div_of_nonneg_right hexp1 (by norm_num)) ht)
    norm_num at g4 hexp ⊢
    linarith
  have hexb : |F.exp (-p)| ≤ 1.01 := by
    have g1 := abs_sub_abs_le_abs_sub (F.exp (-p)) (Real.exp (-(k / s)))
    rw [abs_of_pos (Real.exp_pos _)] at g1
    norm_num at hex ⊢
    linarith only [g1, hex, hexp2]
  have hflb : |fl'| ≤ 1236 := by
    have g1 := abs_sub_abs_le_abs_sub fl' fl
    rw [abs_of_nonneg (by linarith [hfb.1] : 0 ≤ fl)] at g1
    have := hfb.2
    norm_num at *
    linarith
  have hE : (rndB F).exp (V.fin (-p)) = .ok (V.fin (F.exp (-p))) := by
    refine if_neg ?_
    rw [not_le]
    refine lt_of_le_of_lt ((le_abs_self _).trans hexb) ?_
    calc (1.01 : ℝ) < 2 ^ 1 := by norm_num
      _ ≤ 2 ^ 1024 := pow_le_pow_right₀ (by norm_num) (by norm_num)
  have hprodb : |fl' * F.exp (-p)| ≤ 1249 := by
    rw [abs_mul]
    calc |fl'| * |F.exp (-p)| ≤ 1236 * 1.01 := mul_le_mul hflb hexb (abs_nonneg _) (by norm_num)
      _ ≤ _ := by norm_num
  have hprod : |fl' * F.exp (-p) - fl * Real.exp (-(k / s))| ≤ 8.2 / 10 ^ 12 := by
    have := mul_err hfl hex (by rw [abs_of_nonneg (by linarith [hfb.1])]; exact hfb.2 : |fl| ≤ 1235)
      (by rw [abs_of_pos (Real.exp_pos _)]; exact hexp2 : |Real.exp (-(k / s))| ≤ 1)
    refine this.trans ?_
    norm_num
  have hr1 : |F.rnd (fl' * F.exp (-p)) - fl' * F.exp (-p)| ≤ 2 / 10 ^ 13 := by
    refine (F.rnd_err _).trans ((add_le_add (div_le_div_of_nonneg_right hprodb (by norm_num)) ht5).trans (by norm_num))
  have hr1b : |F.rnd (fl' * F.exp (-p))| ≤ 1250 := by
    have g1 := abs_sub_abs_le_abs_sub (F.rnd (fl' * F.exp (-p))) (fl' * F.exp (-p))
    norm_num at *
    linarith
  have hr2 : |F.rnd (F.rnd (fl' * F.exp (-p)) * 1) - F.rnd (fl' * F.exp (-p)) * 1| ≤ 2 / 10 ^ 13 := by
    have g := (le_of_eq (congrArg abs (mul_one (F.rnd (fl' * F.exp (-p)))))).trans hr1b
    exact (F.rnd_err _).trans ((add_le_add (div_le_div_of_nonneg_right g (by norm_num)) ht5).trans (by norm_num))
  refine ⟨_, F.rnd (F.rnd (fl' * F.exp (-p)) * 1), direct_eval (tp := tp) h hs0.ne' ?_, ?_, ?_⟩
  · rw [← hkd]
    refine lt_of_le_of_lt hexp2 ?_
    calc (1 : ℝ) < 2 ^ 1 := by norm_num
      _ ≤ 2 ^ 1024 := pow_le_pow_right₀ (by norm_num) (by norm_num)
  · refine (direct_split (rndB F) rfl h _).trans (bind_of_ok hfl' (bind_of_ok hk' (bind_of_ok hm ?_)))
    have hE' : (rndB F).exp ((rndB F).mul ((rndB F).mul ((rndB F).neg ((rndB F).lit 1)) (V.fin k')) (V.fin m))
        = .ok (V.fin (F.exp (-p))) := (congrArg (rndB F).exp hp).trans hE
    refine bind_of_ok hE' (congrArg Except.ok ?_)
    have hlt : (rndB F).ofC ((rndB F).lt ((rndB F).lit 0) (V.fin alt)) = V.fin 1 := by
      show (if decide (F.rnd ((0 : ℚ) : ℝ) < alt) = true then V.fin 1 else V.fin 0) = _
      rw [lit_zero, if_pos]
      exact decide_eq_true (lt_of_lt_of_le (by norm_num) h1)
    have hm1 : (rndB F).mul (V.fin fl') (V.fin (F.exp (-p))) = V.fin (F.rnd (fl' * F.exp (-p))) :=
      V.rnd_fin F (hprodb.trans (by norm_num))
    refine (congrArg₂ (rndB F).mul hm1 hlt).trans ?_
    exact V.rnd_fin F (by rw [mul_one]; exact hr1b.trans (by norm_num))
  · rw [if_pos (lt_of_lt_of_le (by norm_num) h1), ← hkd, ← hfld, ← hsd]
    have g : F.rnd (F.rnd (fl' * F.exp (-p)) * 1) - fl * Real.exp (-(k / s))
        = (F.rnd (F.rnd (fl' * F.exp (-p)) * 1) - F.rnd (fl' * F.exp (-p)) * 1)
          + ((F.rnd (fl' * F.exp (-p)) - fl' * F.exp (-p)) + (fl' * F.exp (-p) - fl * Real.exp (-(k / s)))) := by ring
    rw [g]
    refine (abs_add_le _ _).trans ((add_le_add hr2 ((abs_add_le _ _).trans (add_le_add hr1 hprod))).trans ?_)
    norm_num

/-! ## Below the horizon -/

/-- Below the horizon: the computed exponent. -/
theorem exponent_night (F : F64) {c : Civil} (h : c.Valid) {alt : ℝ} (ha1 : -90 ≤ alt) (ha2 : alt ≤ 0)
    (hs : 1 / 10 ^ 8 ≤ -Real.sin (Spec.rad alt)) :
    ∃ k' m q, get_optical_depth (rndB F) ((rndB F).lit (yday c.date)) = .ok (V.fin k') ∧
      get_air_mass_ratio (rndB F) (V.fin alt) = .ok (V.fin m) ∧
      (rndB F).mul ((rndB F).mul ((rndB F).neg ((rndB F).lit 1)) (V.fin k')) (V.fin m) = V.fin q ∧
      |q - depthF (yday c.date) / -Real.sin (Spec.rad alt)|
        ≤ 2 / 10 ^ 7 * (depthF (yday c.date) / -Real.sin (Spec.rad alt)) := by
  set S := -Real.sin (Spec.rad alt) with hS
  have ha : |alt| ≤ 91 := by rw [abs_le]; constructor <;> linarith
  obtain ⟨k', m, s', p, hk', hm, hp, hss, e, he, hpe⟩ := exponent_float F h ha
    (by rw [← abs_neg, ← hS]; exact hs.trans (le_abs_self _))
  have hkb := depthF_bounds (yday c.date)
  set k := depthF (yday c.date) with hkd
  have hS0 : 0 < S := lt_of_lt_of_le (by norm_num) hs
  have hd : |(-s') - S| ≤ 11 / 10 ^ 16 := by
    rw [hS, show -s' - -Real.sin (Spec.rad alt) = -(s' - Real.sin (Spec.rad alt)) by ring, abs_neg]
    exact hss
  set S' := -s' with hS'
  have hd' := abs_le.1 hd
  have hS'0 : 0 < S' := by norm_num at *; linarith
  have he' := abs_le.1 he
  have hk0 : 0 < k := by linarith [hkb.1]
  refine ⟨k', m, -p, hk', hm, hp, ?_⟩
  have e1 : -p - k / S = (k / S) * ((S * (1 + e) - S') / S') := by
    rw [hpe, show s' = -S' by rw [hS']; ring]
    field_simp
  rw [e1, abs_mul, abs_of_pos (by positivity), mul_comm (2 / 10 ^ 7 : ℝ)]
  refine mul_le_mul_of_nonneg_left ?_ (by positivity)
  rw [abs_div, abs_of_pos hS'0, div_le_iff₀ hS'0]
  have e2 : S * (1 + e) - S' = -(S' - S) + S * e := by ring
  rw [e2]
  refine (abs_add_le _ _).trans ?_
  rw [abs_neg, abs_mul, abs_of_pos hS0]
  have := mul_le_mul_of_nonneg_left he hS0.le
  norm_num at *
  linarith

theorem pow2_exp (n : ℕ) : (2 : ℝ) ^ n = Real.exp (n * Real.log 2) := by
  rw [Real.exp_nat_mul, Real.exp_log (by norm_num)]

theorem ofC_night (F : F64) {alt : ℝ} (h : alt ≤ 0) :
    (rndB F).ofC ((rndB F).lt ((rndB F).lit 0) (V.fin alt)) = V.fin 0 := by
  show (if decide (F.rnd ((0 : ℚ) : ℝ) < alt) = true then V.fin 1 else V.fin 0) = _
  rw [lit_zero, if_neg]
  simpa using h

theorem tiny1074 : (1 : ℝ) / 2 ^ 1074 ≤ 1 := by
  rw [div_le_one (by positivity)]
  exact one_le_pow₀ (by norm_num)

theorem tiny1075 : (1 : ℝ) / 2 ^ 1075 ≤ 1 := by
  rw [div_le_one (by positivity)]
  exact one_le_pow₀ (by norm_num)

/-- Well below the horizon the result is zero. -/
theorem direct_night_zero (F : F64) {d : DateTime} {c : Civil} (h : UtcFields d c) {alt : ℝ} (h1 : -90 ≤ alt)
    (h2 : alt ≤ 0) (hx : depthF (yday c.date) / -Real.sin (Spec.rad alt) ≤ 701.4)
    (hs : 1 / 10 ^ 8 ≤ -Real.sin (Spec.rad alt)) :
    get_radiation_direct (rndB F) (.dt d) (V.fin alt) = .ok (V.fin 0) := by
  obtain ⟨k', m, q, hk', hm, hq, hqe⟩ := exponent_night F h.1 h1 h2 hs
  obtain ⟨fl', hfl', hfl⟩ := flux_float F h.1
  have hfb := fluxF_bounds (yday c.date)
  have hq1 : q ≤ 701.41 := by
    have := abs_le.1 hqe
    norm_num at *
    linarith
  have hE : Real.exp q ≤ 2 ^ 1012 := by
    rw [pow2_exp]
    refine Real.exp_le_exp.2 ?_
    have := Real.log_two_gt_d9
    push_cast
    norm_num at *
    linarith
  have hFe := F.exp_err q
  have ht := tiny1074
  have ht5 := tiny1075
  have hP : (0 : ℝ) < 2 ^ 1012 := by positivity
  have hP1 : (100 : ℝ) ≤ 2 ^ 1012 := by
    calc (100 : ℝ) ≤ 2 ^ 7 := by norm_num
      _ ≤ _ := pow_le_pow_right₀ (by norm_num) (by norm_num)
  have h24 : (2 : ℝ) ^ 1024 = 4096 * 2 ^ 1012 := by
    rw [show (1024 : ℕ) = 12 + 1012 by norm_num, pow_add]
    norm_num
  have hex : |F.exp q| ≤ 1.1 * 2 ^ 1012 := by
    have g := abs_sub_abs_le_abs_sub (F.exp q) (Real.exp q)
    rw [abs_of_pos (Real.exp_pos q)] at g
    have g2 : Real.exp q / 2 ^ 51 ≤ 2 ^ 1012 / 2 ^ 51 := div_le_div_of_nonneg_right hE (by norm_num)
    clear h24
    generalize (2 : ℝ) ^ 1012 = P at *
    generalize (1 : ℝ) / 2 ^ 1074 = t at *
    norm_num at g2 hFe ⊢
    linarith only [g, g2, hFe, ht, hP1, hE]
  have hflb : |fl'| ≤ 1236 := by
    have g1 := abs_sub_abs_le_abs_sub fl' (fluxF (yday c.date))
    rw [abs_of_nonneg (by linarith [hfb.1] : 0 ≤ fluxF (yday c.date))] at g1
    have := hfb.2
    norm_num at *
    linarith
  have hprod : |fl' * F.exp q| ≤ 1400 * 2 ^ 1012 := by
    rw [abs_mul]
    calc |fl'| * |F.exp q| ≤ 1236 * (1.1 * 2 ^ 1012) := mul_le_mul hflb hex (abs_nonneg _) (by norm_num)
      _ ≤ _ := by
        clear h24
        generalize (2 : ℝ) ^ 1012 = P at *
        norm_num
        linarith only [hP]
  have hrnd : |F.rnd (fl' * F.exp q)| ≤ 1500 * 2 ^ 1012 := by
    have g := abs_sub_abs_le_abs_sub (F.rnd (fl' * F.exp q)) (fl' * F.exp q)
    have g2 := F.rnd_err (fl' * F.exp q)
    have g3 : |fl' * F.exp q| / 2 ^ 53 ≤ 1400 * 2 ^ 1012 / 2 ^ 53 := div_le_div_of_nonneg_right hprod (by norm_num)
    clear h24
    generalize (2 : ℝ) ^ 1012 = P at *
    generalize (1 : ℝ) / 2 ^ 1075 = t at *
    norm_num at g2 g3 ⊢
    linarith only [g, g2, g3, ht5, hP1, hprod]
  have hrnd' := abs_le.1 hrnd
  have hfin : (rndB F).mul (V.fin fl') (V.fin (F.exp q)) = V.fin (F.rnd (fl' * F.exp q)) := by
    show (if 2 ^ 1024 ≤ F.rnd (fl' * F.exp q) then V.pinf else
      if F.rnd (fl' * F.exp q) ≤ -2 ^ 1024 then V.ninf else V.fin (F.rnd (fl' * F.exp q))) = _
    rw [if_neg, if_neg]
    · rw [h24, not_le]
      clear h24
      generalize (2 : ℝ) ^ 1012 = P at *
      linarith only [hrnd'.1, hP]
    · rw [h24, not_le]
      clear h24
      generalize (2 : ℝ) ^ 1012 = P at *
      linarith only [hrnd'.2, hP]
  have hEx : (rndB F).exp (V.fin q) = .ok (V.fin (F.exp q)) := by
    refine if_neg ?_
    rw [h24, not_le]
    have := (le_abs_self _).trans hex
    clear h24
    generalize (2 : ℝ) ^ 1012 = P at *
    norm_num at this
    linarith only [this, hP]
  refine (direct_split (rndB F) rfl h _).trans (bind_of_ok hfl' (bind_of_ok hk' (bind_of_ok hm
    (bind_of_ok ((congrArg (rndB F).exp hq).trans hEx) (congrArg Except.ok ?_)))))
  refine (congrArg₂ (rndB F).mul hfin (ofC_night F h2)).trans ?_
  show V.rnd F (V.fin (F.rnd (fl' * F.exp q) * 0)) = _
  rw [mul_zero, V.rnd_fin F (by rw [abs_zero]; positivity), rnd_zero]

/-- Just below the horizon the exponential overflows. -/
theorem direct_night_overflow (F : F64) {d : DateTime} {c : Civil} (h : UtcFields d c) {alt : ℝ} (h1 : -90 ≤ alt)
    (h2 : alt ≤ 0) (hx : 710.6 ≤ depthF (yday c.date) / -Real.sin (Spec.rad alt))
    (hs : 1 / 10 ^ 8 ≤ -Real.sin (Spec.rad alt)) :
    get_radiation_direct (rndB F) (.dt d) (V.fin alt) = .error .overflow := by
  obtain ⟨k', m, q, hk', hm, hq, hqe⟩ := exponent_night F h.1 h1 h2 hs
  obtain ⟨fl', hfl', hfl⟩ := flux_float F h.1
  have hq1 : 710.5 ≤ q := by
    have := abs_le.1 hqe
    norm_num at *
    linarith
  have hE : 2 ^ 1025 ≤ Real.exp q := by
    rw [pow2_exp]
    refine Real.exp_le_exp.2 ?_
    have := Real.log_two_lt_d9
    push_cast
    norm_num at *
    linarith
  have hFe := abs_le.1 (F.exp_err q)
  have ht := tiny1074
  have h25 : (2 : ℝ) ^ 1025 = 2 * 2 ^ 1024 := by
    rw [show (1025 : ℕ) = 1 + 1024 by norm_num, pow_add]
    norm_num
  have hP1 : (100 : ℝ) ≤ 2 ^ 1024 := by
    calc (100 : ℝ) ≤ 2 ^ 7 := by norm_num
      _ ≤ _ := pow_le_pow_right₀ (by norm_num) (by norm_num)
  have hEx : (rndB F).exp (V.fin q) = .error .overflow := by
    refine if_pos ?_
    rw [h25] at hE
    have g := hFe.1
    clear h25 hFe
    generalize (2 : ℝ) ^ 1024 = P at *
    generalize (1 : ℝ) / 2 ^ 1074 = t at *
    norm_num at g
    linarith only [g, hE, ht, hP1]
  exact (direct_split (rndB F) rfl h _).trans (bind_of_ok hfl' (bind_of_ok hk' (bind_of_ok hm
    (bind_of_error ((congrArg (rndB F).exp hq).trans hEx)))))

/-- In between, the product with the flux overflows to infinity, and infinity times `False` is not a number. -/
theorem direct_night_nan (F : F64) {d : DateTime} {c : Civil} (h : UtcFields d c) {alt : ℝ} (h1 : -90 ≤ alt)
    (h2 : alt ≤ 0) (hx1 : 703.6 ≤ depthF (yday c.date) / -Real.sin (Spec.rad alt))
    (hx2 : depthF (yday c.date) / -Real.sin (Spec.rad alt) ≤ 709)
    (hs : 1 / 10 ^ 8 ≤ -Real.sin (Spec.rad alt)) :
    get_radiation_direct (rndB F) (.dt d) (V.fin alt) = .ok V.nan := by
  obtain ⟨k', m, q, hk', hm, hq, hqe⟩ := exponent_night F h.1 h1 h2 hs
  obtain ⟨fl', hfl', hfl⟩ := flux_float F h.1
  have hfb := fluxF_bounds (yday c.date)
  have hq' := abs_le.1 hqe
  have hq1 : 703.5 ≤ q := by
    norm_num at *
    linarith
  have hq2 : q ≤ 709.01 := by
    norm_num at *
    linarith
  have hE1 : 2 ^ 1014 ≤ Real.exp q := by
    rw [pow2_exp]
    refine Real.exp_le_exp.2 ?_
    have := Real.log_two_lt_d9
    push_cast
    norm_num at *
    linarith
  have hE2 : Real.exp q ≤ 2 ^ 1023 := by
    rw [pow2_exp]
    refine Real.exp_le_exp.2 ?_
    have := Real.log_two_gt_d9
    push_cast
    norm_num at *
    linarith
  have hFe := abs_le.1 (F.exp_err q)
  have ht := tiny1074
  have ht5 := tiny1075
  have hP1 : (2 : ℝ) ^ 100 ≤ 2 ^ 1014 := pow_le_pow_right₀ (by norm_num) (by norm_num)
  have h24 : (2 : ℝ) ^ 1024 = 1024 * 2 ^ 1014 := by
    rw [show (1024 : ℕ) = 10 + 1014 by norm_num, pow_add]
    norm_num
  have h23 : (2 : ℝ) ^ 1023 = 512 * 2 ^ 1014 := by
    rw [show (1023 : ℕ) = 9 + 1014 by norm_num, pow_add]
    norm_num
  have hflb : 1084 ≤ fl' := by
    have := abs_le.1 hfl
    have := hfb.1
    norm_num at *
    linarith
  have hex1 : 0.999 * 2 ^ 1014 ≤ F.exp q := by
    have g := hFe.1
    clear h24 h23 hFe
    generalize (2 : ℝ) ^ 1014 = P at *
    generalize (1 : ℝ) / 2 ^ 1074 = t at *
    norm_num at g hP1 ⊢
    linarith only [g, hE1, ht, hP1]
  have hex2 : F.exp q < 2 ^ 1024 := by
    have g := hFe.2
    rw [h24]
    rw [h23] at hE2
    clear h24 h23 hFe
    generalize (2 : ℝ) ^ 1014 = P at *
    generalize (1 : ℝ) / 2 ^ 1074 = t at *
    norm_num at g hP1 ⊢
    linarith only [g, hE2, ht, hP1]
  have hEx : (rndB F).exp (V.fin q) = .ok (V.fin (F.exp q)) := if_neg (not_le.2 hex2)
  have hprod : 1082 * 2 ^ 1014 ≤ fl' * F.exp q := by
    calc (1082 : ℝ) * 2 ^ 1014 ≤ 1084 * (0.999 * 2 ^ 1014) := by
          clear h24 h23 hex2
          generalize (2 : ℝ) ^ 1014 = P at *
          norm_num at hP1 ⊢
          linarith only [hP1]
      _ ≤ _ := mul_le_mul hflb hex1 (by positivity) (by linarith)
  have hrnd : 2 ^ 1024 ≤ F.rnd (fl' * F.exp q) := by
    have g := (abs_le.1 (F.rnd_err (fl' * F.exp q))).1
    have hpos : 0 ≤ fl' * F.exp q := le_trans (by positivity) hprod
    rw [abs_of_nonneg hpos] at g
    rw [h24]
    clear h24 h23 hex2
    generalize (2 : ℝ) ^ 1014 = P at *
    generalize (1 : ℝ) / 2 ^ 1075 = t at *
    norm_num at g hP1 ⊢
    linarith only [g, hprod, ht5, hP1]
  have hinf : (rndB F).mul (V.fin fl') (V.fin (F.exp q)) = V.pinf := if_pos hrnd
  refine (direct_split (rndB F) rfl h _).trans (bind_of_ok hfl' (bind_of_ok hk' (bind_of_ok hm
    (bind_of_ok ((congrArg (rndB F).exp hq).trans hEx) (congrArg Except.ok ?_)))))
  refine (congrArg₂ (rndB F).mul hinf (ofC_night F h2)).trans ?_
  show V.rnd F (V.infMul 0 V.pinf) = _
  simp [V.infMul, V.rnd]

end Chain

end Verif
