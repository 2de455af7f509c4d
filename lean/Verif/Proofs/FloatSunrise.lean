import Verif.Proofs.FloatFast
import Verif.Proofs.SunriseEval

/-!
# Sunrise, transit and sunset in floating-point arithmetic
-/

namespace Verif

open Verif.Spec Verif.Props Pysolar Pysolar.Solar Pysolar.Util Pysolar.Constants Pysolar.Numeric

namespace Chain

open Ball hiding deg rad num

/-- Clock hour of solar noon from the UTC offset, the longitude and the equation of time. -/
def srNoon (B : Backend) (off lon e : B.α) : Py B.α := do
  return 12 + (off /. 3600 * 15.0 - lon) /. 15.0 - e

/-- The argument of `acos`. -/
def srArg (B : Backend) (c1 cl cd tl td : B.α) : Py B.α := do
  return (← B.div c1 (cl * cd)) - tl * td

/-- An angle in hours. -/
def srHours (B : Backend) (A : B.α) : Py B.α := do
  return A * (← B.div 12 B.pi)

theorem srNoon_sim {B B' : Backend} (S : Sim B B') {x x'} (hx : S.r x x') {y y'} (hy : S.r y y') {z z'} (hz : S.r z z') :
    RelM S.strict S.r (srNoon B x y z) (srNoon B' x' y' z') := by
  unfold srNoon
  sim

theorem srArg_sim {B B' : Backend} (S : Sim B B') {x x'} (hx : S.r x x') {y y'} (hy : S.r y y') {z z'} (hz : S.r z z')
    {u u'} (hu : S.r u u') {v v'} (hv : S.r v v') :
    RelM S.strict S.r (srArg B x y z u v) (srArg B' x' y' z' u' v') := by
  unfold srArg
  sim

theorem srHours_sim {B B' : Backend} (S : Sim B B') {x x'} (hx : S.r x x') :
    RelM S.strict S.r (srHours B x) (srHours B' x') := by
  unfold srHours
  sim

def srOffB : Ball := .num (-86400) 86400 (1 / 10 ^ 11)
def srDecB : Ball := .num (-28) 28 (20 / 10 ^ 14)
def srEotB : Ball := .num (-1) 1 (12 / 10 ^ 15)
def srNoonB : Ball := .num (-62) 62 (8 / 10 ^ 14)
def srLatB : Ball := .num (-89) 89 0
def srC1B : Ball := .num (-146 / 10000) 0 (13 / 10 ^ 16)
def srClB : Ball := .num (174 / 10000) 1 (12 / 10 ^ 16)
def srCdB : Ball := .num (88 / 100) 1 (5 / 10 ^ 15)
def srTlB : Ball := .num (-575 / 10) (575 / 10) (32 / 10 ^ 13)
def srTdB : Ball := .num (-56 / 100) (56 / 100) (18 / 10 ^ 15)
def srArgB : Ball := .num (-40) 40 (35 / 10 ^ 13)

theorem srDec_ok : inside (sunriseDecl B ydayB) (.num (-60) 60 (20 / 10 ^ 14)) = true := by decide +kernel
theorem srEot_ok : inside (timeAdst B ydayB) srEotB = true := by decide +kernel
theorem srNoon_ok : inside (srNoon B srOffB lonIn srEotB) srNoonB = true := by decide +kernel
theorem srC1_ok : inside (cosD B (B.lit 90.833)) (.num (-2) 2 (13 / 10 ^ 16)) = true := by decide +kernel
theorem srCl_ok : inside (cosD B srLatB) (.num (-2) 2 (12 / 10 ^ 16)) = true := by decide +kernel
theorem srCd_ok : inside (cosD B srDecB) (.num (-2) 2 (5 / 10 ^ 15)) = true := by decide +kernel
theorem srTd_ok : inside (tanD B srDecB) (.num (-2) 2 (18 / 10 ^ 15)) = true := by decide +kernel
theorem srLat_ok : stronger (B.radians srLatB) (.num (-2) 2 (9 / 10 ^ 16)) = true := by decide +kernel
theorem srArg_ok : inside (srArg B srC1B srClB srCdB srTlB srTdB) srArgB = true := by decide +kernel
theorem srWide_ok : inside (srHours B (.num 0 (16 / 5) (28 / 10 ^ 7))) (.num 0 13 (11 / 10 ^ 6)) = true := by decide +kernel
theorem srNarrow_ok : inside (srHours B (.num 0 (16 / 5) (53 / 10 ^ 12))) (.num 0 13 (204 / 10 ^ 12)) = true := by
  decide +kernel

/-- Sunrise, sunset and transit from the noon and half the day arc. -/
def srTimes (B : Backend) (d : DateTime) (TON ha : B.α) : Py (DateTime × DateTime × DateTime) := do
  let a ← (sameDay d).add (← B.tdHours (TON - ha))
  let b ← (sameDay d).add (← B.tdHours (TON + ha))
  let c ← (sameDay d).add (← B.tdHours TON)
  return (a, b, c)

theorem srHa_split (B : Backend) (x y : B.α) :
    sunriseHa B x y = cosD B (B.lit 90.833) >>= fun c1 => cosD B x >>= fun cl => cosD B y >>= fun cd =>
      B.div c1 (cl * cd) >>= fun q => tanD B x >>= fun tl => tanD B y >>= fun td =>
        B.acos (q - tl * td) >>= fun A => srHours B A := by
  rfl

theorem sr_split (B : Backend) {d : DateTime} (hd : d.tz.isSome) (x y : B.α) :
    get_sunrise_sunset_transit B x y (.dt d)
      = sunriseDecl B (B.lit (yday d.civil.date)) >>= fun dec => timeAdst B (B.lit (yday d.civil.date)) >>= fun e =>
        sunriseHa B x dec >>= fun ha => srNoon B (B.lit (utcOffsetSeconds d)) y e >>= fun TON => srTimes B d TON ha := by
  have hg : TzCheck.guard (B := B) (.dt d) = .ok () := by
    simp [TzCheck.guard, TzCheck.checkValue, TzCheck.whenView, Option.isSome_iff_ne_none.mp hd]
  unfold get_sunrise_sunset_transit
  rw [hg]
  simp only [asDatetime, ok_bind, srNoon, srTimes, pure_eq_ok]

theorem tighten {lo hi e lo' hi' : ℚ} {x y : ℝ} (h : (Ball.num lo hi e).rel (V.fin x, V.fin y)) (h1 : (lo' : ℝ) ≤ y)
    (h2 : y ≤ hi') : (Ball.num lo' hi' e).rel (V.fin x, V.fin y) := by
  obtain ⟨a, b, hab, -, -, h3⟩ := h
  cases hab
  exact ⟨x, y, rfl, h1, h2, h3⟩

theorem srDec_rel (F : F64) {c : Civil} (h : c.Valid) :
    ∃ x : ℝ, sunriseDecl (rndB F) ((rndB F).lit (yday c.date)) = .ok (V.fin x) ∧
      srDecB.rel (V.fin x, V.fin (sunriseDeclination (yday c.date))) := by
  obtain ⟨p, hp, hr⟩ := ok_of_inside ((ballSim F 0).toSim.sunriseDecl (x := ydayB)
    (x' := (fxB F 0).lit (yday c.date)) (yday_rel F 0 h)) srDec_ok
  obtain ⟨u, hu, hur⟩ := RelM.of_ok ((pairFst (rndB F) (mathB 0) rfl).toSim.sunriseDecl
    (x := (fxB F 0).lit (yday c.date)) (x' := (rndB F).lit (yday c.date)) rfl) hp
  obtain ⟨v, hv, hvr⟩ := RelM.of_ok ((pairSnd (rndB F) (mathB 0) rfl).toSim.sunriseDecl
    (x := (fxB F 0).lit (yday c.date)) (x' := (mathB 0).lit (yday c.date)) rfl) hp
  obtain ⟨x, y, rfl, h1, h2, h3⟩ := hr
  have e : (mathB 0).lit (yday c.date) = num (yday c.date) := by
    rw [m_lit]; push_cast; rfl
  rw [e] at hv
  have hy := num_injective (Except.ok.inj ((sunriseDecl_eval (tp := 0) (yday c.date)).symm.trans
    (hv.trans (congrArg Except.ok hvr.symm))))
  have hb := abs_le.1 (sunriseDeclination_abs (yday c.date))
  refine ⟨x, hu.trans (congrArg Except.ok hur.symm), x, _, rfl, ?_, ?_, ?_⟩
  · push_cast; exact hb.1
  · push_cast; exact hb.2
  · rw [hy]; exact h3

theorem srEot_rel (F : F64) {c : Civil} (h : c.Valid) :
    ∃ x : ℝ, timeAdst (rndB F) ((rndB F).lit (yday c.date)) = .ok (V.fin x) ∧
      srEotB.rel (V.fin x, V.fin (equationOfTime (yday c.date))) := by
  obtain ⟨p, hp, hr⟩ := ok_of_inside ((ballSim F 0).toSim.timeAdst (x := ydayB)
    (x' := (fxB F 0).lit (yday c.date)) (yday_rel F 0 h)) srEot_ok
  obtain ⟨u, hu, hur⟩ := RelM.of_ok ((pairFst (rndB F) (mathB 0) rfl).toSim.timeAdst
    (x := (fxB F 0).lit (yday c.date)) (x' := (rndB F).lit (yday c.date)) rfl) hp
  obtain ⟨v, hv, hvr⟩ := RelM.of_ok ((pairSnd (rndB F) (mathB 0) rfl).toSim.timeAdst
    (x := (fxB F 0).lit (yday c.date)) (x' := (mathB 0).lit (yday c.date)) rfl) hp
  obtain ⟨x, y, rfl, h1, h2, h3⟩ := hr
  have e : (mathB 0).lit (yday c.date) = num (yday c.date) := by
    rw [m_lit]; push_cast; rfl
  rw [e] at hv
  have hy := num_injective (Except.ok.inj ((timeAdst_eval (tp := 0) (yday c.date)).symm.trans
    (hv.trans (congrArg Except.ok hvr.symm))))
  refine ⟨x, hu.trans (congrArg Except.ok hur.symm), x, y, ?_, h1, h2, h3⟩
  rw [hy]

theorem srOff_abs {d : DateTime} (hv : d.Valid) : |(utcOffsetSeconds d : ℝ)| ≤ 86400 := by
  unfold utcOffsetSeconds
  cases h : d.utcoffset with
  | none => norm_num
  | some o =>
    have := hv.2 o h
    simp only [usPerDay] at this
    have h1 : ((o : ℤ) : ℝ) ≤ 86400000000 := by exact_mod_cast (by omega : o ≤ 86400000000)
    have h2 : (-86400000000 : ℝ) ≤ ((o : ℤ) : ℝ) := by exact_mod_cast (by omega : -86400000000 ≤ o)
    push_cast
    rw [abs_le]
    constructor <;> linarith

theorem srNoon_rel (F : F64) {d : DateTime} (hv : d.Valid) {lon x y : ℝ} (hl : |lon| ≤ 360)
    (he : srEotB.rel (V.fin x, V.fin y)) :
    ∃ t : ℝ, srNoon (rndB F) ((rndB F).lit (utcOffsetSeconds d)) (V.fin lon) (V.fin x) = .ok (V.fin t) ∧
      srNoonB.rel (V.fin t, V.fin (12 + utcOffsetSeconds d / 3600 - lon / 15 - y)) := by
  have ho := srOff_abs hv
  have ho' := abs_le.1 ho
  have hl' := abs_le.1 hl
  have rlon : lonIn.rel (dup F 0 lon) := dup_rel F 0 (by push_cast; linarith) (by push_cast; linarith)
  have roff : srOffB.rel ((fxB F 0).lit (utcOffsetSeconds d)) := by
    refine lit_near F 0 ?_ ?_ ?_
    · exact_mod_cast ho'.1
    · exact_mod_cast ho'.2
    · refine (F.err _).trans ?_
      have h1 := tiny_le
      push_cast
      have h2 : |(utcOffsetSeconds d : ℝ)| / 2 ^ 53 ≤ 86400 / 2 ^ 53 := by gcongr
      norm_num at *
      linarith
  obtain ⟨p, hp, hr⟩ := ok_of_inside (srNoon_sim (ballSim F 0).toSim (x := srOffB) (x' := (fxB F 0).lit (utcOffsetSeconds d))
    roff (y := lonIn) (y' := dup F 0 lon) rlon (z := srEotB) (z' := (V.fin x, V.fin y)) he) srNoon_ok
  obtain ⟨u, hu, hur⟩ := RelM.of_ok (srNoon_sim (pairFst (rndB F) (mathB 0) rfl).toSim
    (x := (fxB F 0).lit (utcOffsetSeconds d)) (x' := (rndB F).lit (utcOffsetSeconds d)) rfl
    (y := dup F 0 lon) (y' := V.fin lon) rfl (z := (V.fin x, V.fin y)) (z' := V.fin x) rfl) hp
  obtain ⟨v, hv, hvr⟩ := RelM.of_ok (srNoon_sim (pairSnd (rndB F) (mathB 0) rfl).toSim
    (x := (fxB F 0).lit (utcOffsetSeconds d)) (x' := (mathB 0).lit (utcOffsetSeconds d)) rfl
    (y := dup F 0 lon) (y' := num lon) rfl (z := (V.fin x, V.fin y)) (z' := num y) rfl) hp
  obtain ⟨a, b, rfl, h1, h2, h3⟩ := hr
  have e : srNoon (mathB 0) ((mathB 0).lit (utcOffsetSeconds d)) (num lon) (num y)
      = .ok (num (12 + utcOffsetSeconds d / 3600 - lon / 15 - y)) := by
    have e1 : ((3600 : ℚ) : ℝ) = 3600 := by norm_num
    have e2 : ((15.0 : ℚ) : ℝ) = 15 := by norm_num
    simp -implicitDefEqProofs only [srNoon, m_lit, m_divq, e1, e2, m_sci, m_ofNat, m_mul, m_sub, m_add, pure_eq_ok]
    congr 2
    norm_num
    ring
  have hy := num_injective (Except.ok.inj (e.symm.trans (hv.trans (congrArg Except.ok hvr.symm))))
  refine ⟨a, hu.trans (congrArg Except.ok hur.symm), a, b, ?_, h1, h2, h3⟩
  rw [hy]

theorem cos89 : (0.01745 : ℝ) ≤ Real.cos (Spec.rad 89) := by
  rw [show (89 : ℝ) = 90 - 1 by norm_num, rad_sub, rad_90, Real.cos_pi_div_two_sub]
  have hp1 := Real.pi_gt_d6
  have hp2 := Real.pi_lt_d6
  have h3 : (0.017453 : ℝ) ≤ Spec.rad 1 := by unfold Spec.rad; norm_num at *; linarith
  have h4 : Spec.rad 1 ≤ 0.017454 := by unfold Spec.rad; norm_num at *; linarith
  have h5 := Real.sin_gt_sub_cube (x := Spec.rad 1) (by linarith)
  have h6 : (Spec.rad 1) ^ 3 ≤ 0.017454 ^ 3 := pow_le_pow_left₀ (by linarith) h4 3
  norm_num at *
  linarith

theorem cos_lat89 {lat : ℝ} (hl : |lat| ≤ 89) : 0.01745 ≤ Real.cos (Spec.rad lat) :=
  cos89.trans ((cos_rad_le_iff (by linarith) (by norm_num) (by norm_num)).mpr hl)

/-- The tangent of the latitude up to 89 degrees. -/
theorem srTl_rel (F : F64) {lat : ℝ} (hl : |lat| ≤ 89) :
    ∃ s : ℝ, tanD (rndB F) (V.fin lat) = .ok (V.fin s) ∧ srTlB.rel (V.fin s, V.fin (Real.tan (Spec.rad lat))) := by
  have hl' := abs_le.1 hl
  have a : srLatB.rel (dup F 0 lat) := dup_rel F 0 (by push_cast; linarith) (by push_cast; linarith)
  obtain ⟨r', r, hrr, -, -, hr⟩ := rel_of_stronger (radians_rel F 0 a) srLat_ok
  have e1 : r = Spec.rad lat := (V.fin.inj (congrArg Prod.snd hrr)).symm
  have e2 : (rndB F).radians (V.fin lat) = V.fin r' := congrArg Prod.fst hrr
  rw [e1] at hr
  push_cast at hr
  set C := Real.cos (Spec.rad lat) with hC
  have hC0 : 0.01745 ≤ C := cos_lat89 hl
  set C' := Real.cos r' with hC'
  have hd : |C' - C| ≤ 9 / 10 ^ 16 := (lip_cos _ _).trans hr
  have hd' := abs_le.1 hd
  have hC'0 : 0.017449 ≤ C' := by norm_num at *; linarith
  have ht : Real.tan r' - Real.tan (Spec.rad lat) = Real.sin (r' - Spec.rad lat) / (C * C') := by
    rw [Real.tan_eq_sin_div_cos, Real.tan_eq_sin_div_cos, Real.sin_sub, ← hC, ← hC']
    have : C ≠ 0 := by linarith
    have : C' ≠ 0 := by linarith
    field_simp
  have hCC : 0.0003044 ≤ C * C' := by
    have := mul_le_mul hC0 hC'0 (by norm_num) (by linarith)
    norm_num at *
    linarith
  have h1 : |Real.tan r' - Real.tan (Spec.rad lat)| ≤ 9 / 10 ^ 16 / 0.0003044 := by
    rw [ht, abs_div, abs_of_pos (by linarith : 0 < C * C')]
    exact div_le_div₀ (by norm_num) ((abs_sin_le _).trans hr) (by norm_num) hCC
  have hb : ∀ x : ℝ, 0.017449 ≤ Real.cos x → |Real.tan x| ≤ 57.4 := by
    intro x hx
    rw [Real.tan_eq_sin_div_cos, abs_div, abs_of_pos (by linarith : 0 < Real.cos x), div_le_iff₀ (by linarith)]
    have := Real.abs_sin_le_one x
    norm_num at *
    linarith
  have h2 := hb r' hC'0
  have h2' := abs_le.1 (hb (Spec.rad lat) (by rw [← hC]; linarith))
  have h3 := (F.tan_err r' (by rw [← hC']; linarith)).trans (add_le_add le_rfl two_1074)
  have ht0 := tiny_le
  have h4 : |F.tan r' - Real.tan r'| ≤ 57.4 / 2 ^ 51 + 1 / 2 ^ 110 :=
    h3.trans (add_le_add (by gcongr) ht0)
  refine ⟨F.tan r', ?_, F.tan r', _, rfl, ?_, ?_, ?_⟩
  · unfold tanD
    rw [e2]
    rfl
  · push_cast; norm_num at *; linarith
  · push_cast; norm_num at *; linarith
  · push_cast
    calc |F.tan r' - Real.tan (Spec.rad lat)|
        = |(F.tan r' - Real.tan r') + (Real.tan r' - Real.tan (Spec.rad lat))| := by ring_nf
      _ ≤ |F.tan r' - Real.tan r'| + |Real.tan r' - Real.tan (Spec.rad lat)| := abs_add_le _ _
      _ ≤ (57.4 / 2 ^ 51 + 1 / 2 ^ 110) + 9 / 10 ^ 16 / 0.0003044 := add_le_add h4 h1
      _ ≤ _ := by norm_num

theorem cos28 {x : ℝ} (h : |x| ≤ 28) : 0.88 ≤ Real.cos (Spec.rad x) ∧ |Real.tan (Spec.rad x)| ≤ 0.56 := by
  have h1 : |Spec.rad x| ≤ 0.4887 := by
    rw [rad, abs_div, abs_mul, abs_of_pos Real.pi_pos, abs_of_pos (by norm_num : (0 : ℝ) < 180)]
    have hp := Real.pi_lt_d6
    have := mul_le_mul h hp.le Real.pi_pos.le (by norm_num)
    norm_num at *
    linarith
  have h2 := Real.one_sub_sq_div_two_le_cos (x := Spec.rad x)
  have h3 : Spec.rad x ^ 2 ≤ 0.4887 ^ 2 := sq_le_sq' (by linarith [(abs_le.1 h1).1]) (abs_le.1 h1).2
  have hc : 0.88 ≤ Real.cos (Spec.rad x) := by norm_num at *; linarith
  refine ⟨hc, ?_⟩
  rw [Real.tan_eq_sin_div_cos, abs_div, abs_of_pos (by linarith : 0 < Real.cos (Spec.rad x)), div_le_iff₀ (by linarith)]
  have h4 := abs_sin_le (Spec.rad x)
  norm_num at *
  linarith

theorem srTd_rel (F : F64) {x x' : ℝ} (hx : srDecB.rel (V.fin x', V.fin x)) :
    ∃ s : ℝ, tanD (rndB F) (V.fin x') = .ok (V.fin s) ∧ srTdB.rel (V.fin s, V.fin (Real.tan (Spec.rad x))) := by
  obtain ⟨p, hp, hr⟩ := ok_of_inside (tanD_sim (x := srDecB) (x' := (V.fin x', V.fin x)) (ballSim F 0).toSim hx) srTd_ok
  obtain ⟨s, s', rfl, -, -, he⟩ := hr
  obtain ⟨v, hv, hvr⟩ := RelM.of_ok (tanD_sim (x := (V.fin x', V.fin x)) (x' := num x)
    (pairSnd (rndB F) (mathB 0) rfl).toSim rfl) hp
  obtain ⟨u, hu, hur⟩ := RelM.of_ok (tanD_sim (x := (V.fin x', V.fin x)) (x' := V.fin x')
    (pairFst (rndB F) (mathB 0) rfl).toSim rfl) hp
  obtain ⟨_, _, hxx, h1, h2, -⟩ := hx
  cases hxx
  push_cast at h1 h2
  have hc := cos28 (abs_le.2 ⟨h1, h2⟩)
  have hc0 : 0 < Real.cos (Spec.rad x) := lt_of_lt_of_le (by norm_num) hc.1
  have e' : tanD (mathB 0) (num x) = .ok (num (Real.tan (Spec.rad x))) := by
    simp [tanD, tanP, hc0.ne']
  have e2 := num_injective (Except.ok.inj (e'.symm.trans (hv.trans (congrArg Except.ok hvr.symm))))
  have ht := abs_le.1 hc.2
  refine ⟨s, hu.trans (congrArg Except.ok hur.symm), s, _, rfl, ?_, ?_, ?_⟩
  · push_cast; norm_num at *; linarith
  · push_cast; norm_num at *; linarith
  · rw [e2]; exact he

/-- The cosine of half the day arc. -/
noncomputable def dayCos (lat dec : ℝ) : ℝ :=
  Real.cos (Spec.rad 90.833) / (Real.cos (Spec.rad lat) * Real.cos (Spec.rad dec))
    - Real.tan (Spec.rad lat) * Real.tan (Spec.rad dec)

theorem cosHalfDay_eq {tp lat dec : ℝ} (h1 : Real.cos (Spec.rad lat) ≠ 0) (h2 : Real.cos (Spec.rad dec) ≠ 0) :
    cosHalfDay tp lat dec = dayCos lat dec := by
  unfold cosHalfDay dayCos tanP
  rw [if_neg h1, if_neg h2]

theorem c1_range : -0.0146 ≤ Real.cos (Spec.rad 90.833) ∧ Real.cos (Spec.rad 90.833) ≤ 0 := by
  have e : Real.cos (Spec.rad 90.833) = -Real.sin (Spec.rad 0.833) := by
    rw [show (90.833 : ℝ) = 90 - -0.833 by norm_num, rad_sub, rad_90, Real.cos_pi_div_two_sub, ← Real.sin_neg]
    congr 1
    unfold Spec.rad
    ring
  have h0 : 0 ≤ Spec.rad 0.833 := by unfold Spec.rad; have := Real.pi_pos; positivity
  have h1 : Spec.rad 0.833 ≤ 0.0146 := by
    unfold Spec.rad; have := Real.pi_lt_d6; norm_num at *; linarith
  have h2 := Real.sin_le h0
  have h3 := Real.sin_nonneg_of_nonneg_of_le_pi h0 (by have := Real.pi_gt_three; linarith)
  rw [e]
  constructor <;> linarith

/-- The argument of `acos`, computed and exact. -/
theorem srArg_rel (F : F64) {lat x x' : ℝ} (hl : |lat| ≤ 89) (hx : srDecB.rel (V.fin x', V.fin x)) :
    ∃ (c1 cl cd tl td : ℝ) (q : (rndB F).α) (s : ℝ), cosD (rndB F) ((rndB F).lit 90.833) = .ok (V.fin c1) ∧
      cosD (rndB F) (V.fin lat) = .ok (V.fin cl) ∧ cosD (rndB F) (V.fin x') = .ok (V.fin cd) ∧
      tanD (rndB F) (V.fin lat) = .ok (V.fin tl) ∧ tanD (rndB F) (V.fin x') = .ok (V.fin td) ∧
      (rndB F).div (V.fin c1) ((rndB F).mul (V.fin cl) (V.fin cd)) = .ok q ∧
      (rndB F).sub q ((rndB F).mul (V.fin tl) (V.fin td)) = V.fin s ∧
      |s - dayCos lat x| ≤ 35 / 10 ^ 13 := by
  have hl' := abs_le.1 hl
  obtain ⟨_, _, hxx, hx1, hx2, -⟩ := id hx
  cases hxx
  push_cast at hx1 hx2
  have hc := cos28 (abs_le.2 ⟨hx1, hx2⟩)
  have a : srLatB.rel (V.fin lat, V.fin lat) := dup_rel F 0 (by push_cast; linarith) (by push_cast; linarith)
  obtain ⟨c1, hc1, r1⟩ := cosD_rel F (x := 90.833) (x' := F.rnd (90.833 : ℚ)) (b := B.lit 90.833)
    (by
      have := lit_rel F 0 90.833
      have e : (fxB F 0).lit 90.833 = (V.fin (F.rnd ((90.833 : ℚ) : ℝ)), V.fin (90.833 : ℝ)) := by
        show (V.fin (F.rnd ((90.833 : ℚ) : ℝ)), V.fin ((90.833 : ℚ) : ℝ)) = _
        norm_num
      rw [← e]
      exact this) rfl srC1_ok
  obtain ⟨cl, hcl, r2⟩ := cosD_rel F a rfl srCl_ok
  obtain ⟨cd, hcd, r3⟩ := cosD_rel F hx rfl srCd_ok
  obtain ⟨tl, htl, r4⟩ := srTl_rel F hl
  obtain ⟨td, htd, r5⟩ := srTd_rel F hx
  have R1 : srC1B.rel (V.fin c1, V.fin (Real.cos (Spec.rad 90.833))) :=
    ⟨_, _, rfl, by push_cast; have := c1_range.1; norm_num at *; linarith, by push_cast; exact c1_range.2, r1⟩
  have R2 : srClB.rel (V.fin cl, V.fin (Real.cos (Spec.rad lat))) :=
    ⟨_, _, rfl, by push_cast; have := cos_lat89 hl; norm_num at *; linarith, by push_cast; exact Real.cos_le_one _, r2⟩
  have R3 : srCdB.rel (V.fin cd, V.fin (Real.cos (Spec.rad x))) :=
    ⟨_, _, rfl, by push_cast; have := hc.1; norm_num at *; linarith, by push_cast; exact Real.cos_le_one _, r3⟩
  obtain ⟨p, hp, hr⟩ := ok_of_inside (srArg_sim (ballSim F 0).toSim (x := srC1B) (x' := (V.fin c1, V.fin _)) R1
    (y := srClB) (y' := (V.fin cl, V.fin _)) R2 (z := srCdB) (z' := (V.fin cd, V.fin _)) R3
    (u := srTlB) (u' := (V.fin tl, V.fin _)) r4 (v := srTdB) (v' := (V.fin td, V.fin _)) r5) srArg_ok
  obtain ⟨u, hu, hur⟩ := RelM.of_ok (srArg_sim (pairFst (rndB F) (mathB 0) rfl).toSim
    (x := (V.fin c1, V.fin (Real.cos (Spec.rad 90.833)))) (x' := V.fin c1) rfl
    (y := (V.fin cl, V.fin (Real.cos (Spec.rad lat)))) (y' := V.fin cl) rfl
    (z := (V.fin cd, V.fin (Real.cos (Spec.rad x)))) (z' := V.fin cd) rfl
    (u := (V.fin tl, V.fin (Real.tan (Spec.rad lat)))) (u' := V.fin tl) rfl
    (v := (V.fin td, V.fin (Real.tan (Spec.rad x)))) (v' := V.fin td) rfl) hp
  obtain ⟨v, hv, hvr⟩ := RelM.of_ok (srArg_sim (pairSnd (rndB F) (mathB 0) rfl).toSim
    (x := (V.fin c1, V.fin (Real.cos (Spec.rad 90.833)))) (x' := num (Real.cos (Spec.rad 90.833))) rfl
    (y := (V.fin cl, V.fin (Real.cos (Spec.rad lat)))) (y' := num (Real.cos (Spec.rad lat))) rfl
    (z := (V.fin cd, V.fin (Real.cos (Spec.rad x)))) (z' := num (Real.cos (Spec.rad x))) rfl
    (u := (V.fin tl, V.fin (Real.tan (Spec.rad lat)))) (u' := num (Real.tan (Spec.rad lat))) rfl
    (v := (V.fin td, V.fin (Real.tan (Spec.rad x)))) (v' := num (Real.tan (Spec.rad x))) rfl) hp
  obtain ⟨s, s', rfl, -, -, he⟩ := hr
  have hC : Real.cos (Spec.rad lat) * Real.cos (Spec.rad x) ≠ 0 := by
    have h1 := cos_lat89 hl
    have h2 := hc.1
    have : 0 < Real.cos (Spec.rad lat) * Real.cos (Spec.rad x) := mul_pos (by linarith) (by linarith)
    exact this.ne'
  have e : srArg (mathB 0) (num (Real.cos (Spec.rad 90.833))) (num (Real.cos (Spec.rad lat)))
      (num (Real.cos (Spec.rad x))) (num (Real.tan (Spec.rad lat))) (num (Real.tan (Spec.rad x)))
      = .ok (num (dayCos lat x)) := by
    simp only [srArg, m_mul, m_div _ hC, ok_bind, m_sub, pure_eq_ok, dayCos]
  have e2 := num_injective (Except.ok.inj (e.symm.trans (hv.trans (congrArg Except.ok hvr.symm))))
  have hu' : srArg (rndB F) (V.fin c1) (V.fin cl) (V.fin cd) (V.fin tl) (V.fin td) = .ok (V.fin s) :=
    hu.trans (congrArg Except.ok hur.symm)
  cases hq : (rndB F).div (V.fin c1) ((rndB F).mul (V.fin cl) (V.fin cd)) with
  | error e =>
    have : srArg (rndB F) (V.fin c1) (V.fin cl) (V.fin cd) (V.fin tl) (V.fin td) = .error e := bind_of_error hq
    rw [this] at hu'
    cases hu'
  | ok q =>
    have h1 : srArg (rndB F) (V.fin c1) (V.fin cl) (V.fin cd) (V.fin tl) (V.fin td)
        = .ok ((rndB F).sub q ((rndB F).mul (V.fin tl) (V.fin td))) := bind_of_ok hq rfl
    have h2 := Except.ok.inj (h1.symm.trans hu')
    refine ⟨c1, cl, cd, tl, td, q, s, hc1, hcl, hcd, htl, htd, hq, h2, ?_⟩
    rw [e2]
    refine he.trans (le_of_eq ?_)
    push_cast
    rfl

/-- Half the day arc in hours, computed and exact. -/
theorem srHa_float (F : F64) {lat x x' : ℝ} (hl : |lat| ≤ 89) (hx : srDecB.rel (V.fin x', V.fin x)) :
    (sunriseHa (rndB F) (V.fin lat) (V.fin x') = .error .valueError ∧ 1 - 35 / 10 ^ 13 < |dayCos lat x|) ∨
    ((∃ ha : ℝ, sunriseHa (rndB F) (V.fin lat) (V.fin x') = .ok (V.fin ha) ∧ |ha| ≤ 13) ∧ |dayCos lat x| ≤ 1 + 35 / 10 ^ 13 ∧
      (|dayCos lat x| ≤ 1 → ∃ ha : ℝ, sunriseHa (rndB F) (V.fin lat) (V.fin x') = .ok (V.fin ha) ∧
        |ha - Real.arccos (dayCos lat x) * (12 / Real.pi)| ≤ 11 / 10 ^ 6 ∧
        (|dayCos lat x| ≤ 0.99 → |ha - Real.arccos (dayCos lat x) * (12 / Real.pi)| ≤ 204 / 10 ^ 12))) := by
  obtain ⟨c1, cl, cd, tl, td, q, s, h1, h2, h3, h4, h5, h6, h7, h8⟩ := srArg_rel F hl hx
  set D := dayCos lat x with hD
  have h8' := abs_le.1 h8
  have hsplit : ∀ r, (rndB F).acos (V.fin s) >>= (fun A => srHours (rndB F) A) = r →
      sunriseHa (rndB F) (V.fin lat) (V.fin x') = r := by
    intro r hr
    refine (srHa_split (rndB F) _ _).trans ?_
    refine bind_of_ok h1 (bind_of_ok h2 (bind_of_ok h3 (bind_of_ok h6 (bind_of_ok h4 (bind_of_ok h5 ?_)))))
    have : (rndB F).acos ((rndB F).sub q ((rndB F).mul (V.fin tl) (V.fin td))) = (rndB F).acos (V.fin s) := by rw [h7]
    refine Eq.trans ?_ hr
    exact congrArg (fun m => m >>= fun A => srHours (rndB F) A) this
  by_cases hs : -1 ≤ s ∧ s ≤ 1
  · right
    have ha : (rndB F).acos (V.fin s) = .ok (V.fin (F.acos s)) := if_pos hs
    have hs1 : |s| ≤ 1 := abs_le.2 hs
    have herr := F.acos_err s hs1
    have hours : ∀ (A : ℝ) (b c e : ℚ), 0 ≤ A → A ≤ 16 / 5 → |F.acos s - A| ≤ b →
        inside (srHours B (.num 0 (16 / 5) b)) (.num 0 c e) = true →
        ∃ ha : ℝ, sunriseHa (rndB F) (V.fin lat) (V.fin x') = .ok (V.fin ha) ∧ |ha - A * (12 / Real.pi)| ≤ e := by
      intro A b c e hA0 hA1 hb hok
      obtain ⟨p, hp, hr⟩ := ok_of_inside (srHours_sim (ballSim F 0).toSim (x := .num 0 (16 / 5) b)
        (x' := (V.fin (F.acos s), V.fin A)) ⟨_, _, rfl, by push_cast; exact hA0, by push_cast; exact hA1, hb⟩) hok
      obtain ⟨u, hu, hur⟩ := RelM.of_ok (srHours_sim (pairFst (rndB F) (mathB 0) rfl).toSim
        (x := (V.fin (F.acos s), V.fin A)) (x' := V.fin (F.acos s)) rfl) hp
      obtain ⟨v, hv, hvr⟩ := RelM.of_ok (srHours_sim (pairSnd (rndB F) (mathB 0) rfl).toSim
        (x := (V.fin (F.acos s), V.fin A)) (x' := num A) rfl) hp
      obtain ⟨y, y', rfl, -, -, he⟩ := hr
      have e1 : srHours (mathB 0) (num A) = .ok (num (A * (12 / Real.pi))) := by
        simp only [srHours, m_pi, m_ofNat, m_div _ Real.pi_ne_zero, ok_bind, m_mul, pure_eq_ok]
        norm_num
      have e2 := num_injective (Except.ok.inj (e1.symm.trans (hv.trans (congrArg Except.ok hvr.symm))))
      refine ⟨y, hsplit _ (bind_of_ok ha (hu.trans (congrArg Except.ok hur.symm))), ?_⟩
      rw [e2]
      exact he
    have hpi : ∀ z, Real.arccos z ≤ 16 / 5 := fun z => by
      have := Real.arccos_le_pi z
      have := Real.pi_lt_d2
      norm_num at *
      linarith
    refine ⟨?_, ?_, ?_⟩
    · obtain ⟨ha, h, hh⟩ := hours (Real.arccos s) (28 / 10 ^ 7) 13 (11 / 10 ^ 6) (Real.arccos_nonneg _) (hpi _)
        (herr.trans (by push_cast; norm_num)) srWide_ok
      have hb := half_day_bounds s
      push_cast at hh
      have hh' := abs_le.1 hh
      refine ⟨ha, h, ?_⟩
      rw [abs_le]
      constructor <;> norm_num at * <;> linarith
    · have : |D| ≤ |s| + |s - D| := by
        calc |D| = |s - (s - D)| := by ring_nf
          _ ≤ _ := abs_sub _ _
      linarith
    · intro hD1
      have hcos : ∀ z, Real.arccos s - Real.arccos z = -(Real.arcsin s - Real.arcsin z) := fun z => by
        rw [Real.arccos, Real.arccos]; ring
      have w := arcsin_close_wide hs1 hD1 h8 (by norm_num) (η := 272 / 10 ^ 8) (by norm_num) (by norm_num)
      have wide : |F.acos s - Real.arccos D| ≤ ((28 / 10 ^ 7 : ℚ) : ℝ) := by
        push_cast
        calc |F.acos s - Real.arccos D| = |(F.acos s - Real.arccos s) + (Real.arccos s - Real.arccos D)| := by ring_nf
          _ ≤ |F.acos s - Real.arccos s| + |Real.arccos s - Real.arccos D| := abs_add_le _ _
          _ ≤ 1 / 2 ^ 50 + 272 / 10 ^ 8 := add_le_add herr (by rw [hcos, abs_neg]; exact w)
          _ ≤ _ := by norm_num
      obtain ⟨ha1, k1, k2⟩ := hours (Real.arccos D) (28 / 10 ^ 7) 13 (11 / 10 ^ 6) (Real.arccos_nonneg _) (hpi _) wide srWide_ok
      refine ⟨ha1, k1, by push_cast at k2; exact k2, ?_⟩
      intro hD2
      have w2 := arcsin_weighted hs1 hD1 h8 w (by norm_num)
      have hc : 0.141 ≤ Real.cos (Real.arcsin D) := by
        rw [Real.cos_arcsin]
        refine Real.le_sqrt_of_sq_le ?_
        have : D ^ 2 ≤ 0.99 ^ 2 := sq_le_sq' (by linarith [(abs_le.1 hD2).1]) (abs_le.1 hD2).2
        norm_num at *
        linarith
      have w3 : |Real.arcsin s - Real.arcsin D| ≤ 52 / 10 ^ 12 := by
        have h9 := mul_le_mul_of_nonneg_right hc (abs_nonneg (Real.arcsin s - Real.arcsin D))
        norm_num at *
        linarith
      have narrow : |F.acos s - Real.arccos D| ≤ ((53 / 10 ^ 12 : ℚ) : ℝ) := by
        push_cast
        calc |F.acos s - Real.arccos D| = |(F.acos s - Real.arccos s) + (Real.arccos s - Real.arccos D)| := by ring_nf
          _ ≤ |F.acos s - Real.arccos s| + |Real.arccos s - Real.arccos D| := abs_add_le _ _
          _ ≤ 1 / 2 ^ 50 + 52 / 10 ^ 12 := add_le_add herr (by rw [hcos, abs_neg]; exact w3)
          _ ≤ _ := by norm_num
      obtain ⟨ha2, m1, m2⟩ := hours (Real.arccos D) (53 / 10 ^ 12) 13 (204 / 10 ^ 12) (Real.arccos_nonneg _) (hpi _) narrow
        srNarrow_ok
      have e : ha2 = ha1 := V.fin.inj (Except.ok.inj (m1.symm.trans k1))
      rw [← e]
      push_cast at m2
      exact m2
  · left
    have ha : (rndB F).acos (V.fin s) = .error .valueError := if_neg hs
    refine ⟨hsplit _ (bind_of_error ha), ?_⟩
    by_contra hc
    push Not at hc
    have hc' := abs_le.1 hc
    exact hs ⟨by linarith, by linarith⟩

/-- `timedelta(hours = x)`, computed. -/
theorem tdHours_float (F : F64) {x : ℝ} (hx : |x| ≤ 75) :
    ∃ us : ℤ, tdHoursF F (.fin x) = .ok us ∧ |(us : ℝ) - hourMicros x| ≤ 0.500001 := by
  have hx' := abs_le.1 hx
  set f := x - (truncR x : ℝ) with hf
  have hf1 : |f| ≤ 1 := by
    rw [hf]
    unfold truncR
    split_ifs with h0
    · have h1 := Int.floor_le x
      have h2 := Int.lt_floor_add_one x
      rw [abs_le]; constructor <;> linarith
    · have h1 := Int.le_ceil x
      have h2 := Int.ceil_lt_add_one x
      rw [abs_le]; constructor <;> linarith
  have h1 := F.err (3600000000 * f)
  have h2 := tiny_le
  have h3 : |3600000000 * f| ≤ 3600000000 := by
    rw [abs_mul, abs_of_pos (by norm_num : (0 : ℝ) < 3600000000)]
    linarith
  have h4 : |F.rnd (3600000000 * f) - 3600000000 * f| ≤ 0.000001 := by
    refine h1.trans ((add_le_add (div_le_div_of_nonneg_right h3 (by norm_num)) h2).trans ?_)
    norm_num
  set z := (truncR x : ℝ) * 3600000000 + F.rnd (3600000000 * f) with hz
  have hzx : |z - hourMicros x| ≤ 0.000001 := by
    have : z - hourMicros x = F.rnd (3600000000 * f) - 3600000000 * f := by
      rw [hz, hf]; unfold hourMicros; ring
    rw [this]; exact h4
  have h5 := abs_le.1 (roundHalfEven_bounds z)
  have h6 := abs_le.1 hzx
  refine ⟨roundHalfEven z, ?_, ?_⟩
  · have hb1 : (roundHalfEven z : ℝ) ≤ 4 * (86400 * 1000000) := by
      unfold hourMicros at h6; norm_num at *; linarith
    have hb2 : (-(4 * (86400 * 1000000)) : ℝ) ≤ roundHalfEven z := by
      unfold hourMicros at h6; norm_num at *; linarith
    have hb1' : roundHalfEven z ≤ 4 * (86400 * 1000000) := by exact_mod_cast hb1
    have hb2' : -(4 * (86400 * 1000000)) ≤ roundHalfEven z := by exact_mod_cast hb2
    have hc : -999999999 * usPerDay ≤ roundHalfEven z ∧ roundHalfEven z < 1000000000 * usPerDay := by
      simp only [usPerDay]
      constructor <;> omega
    exact if_pos hc
  · rw [abs_le]
    constructor <;> norm_num at * <;> linarith

/-- Adding a few days stays within the years 1 to 9999. -/
theorem add_float {d : DateTime} (hv : d.Valid) (h2 : 2 ≤ d.civil.year) (h3 : d.civil.year ≤ 9998) {x : ℝ} {us : ℤ}
    (hx : |x| ≤ 75) (hus : |(us : ℝ) - hourMicros x| ≤ 0.500001) :
    ∃ r, (sameDay d).add us = .ok r ∧ r.civil.micros = (sameDay d).civil.micros + us := by
  have hx' := abs_le.1 hx
  have hus' := abs_le.1 hus
  have hb : |us| ≤ 10 * usPerDay := by
    have h1 : (us : ℝ) ≤ 10 * (86400 * 1000000) := by
      unfold hourMicros at *; norm_num at *; linarith
    have h2 : (-(10 * (86400 * 1000000)) : ℝ) ≤ us := by
      unfold hourMicros at *; norm_num at *; linarith
    rw [abs_le]
    simp only [usPerDay]
    exact ⟨by exact_mod_cast h2, by exact_mod_cast h1⟩
  have hs : (sameDay d).civil.Valid := by
    refine ⟨hv.1.1, hv.1.2.1, hv.1.2.2.1, ?_⟩
    simp [sameDay]
  have hy := year_near hs h2 h3 hb
  have e : (sameDay d).add us = .ok ⟨civilOfMicros ((sameDay d).civil.micros + us), false, d.tz⟩ := by
    unfold DateTime.add civilChecked
    dsimp only
    rw [if_pos hy]
    rfl
  exact ⟨_, e, micros_civilOfMicros _⟩

/-- A rounded sum. -/
theorem sum_float (F : F64) {z y e : ℝ} (h : |z - y| ≤ e) (hz : |z| ≤ 75) :
    V.rnd F (.fin z) = .fin (F.rnd z) ∧ |F.rnd z - y| ≤ e + 1 / 10 ^ 14 ∧ |F.rnd z| ≤ 75 + 1 / 10 ^ 13 := by
  have h1 := (F.err z).trans (add_le_add (div_le_div_of_nonneg_right hz (by norm_num)) tiny_le)
  have h2 : |F.rnd z - z| ≤ 1 / 10 ^ 14 := h1.trans (by norm_num)
  refine ⟨V.rnd_fin F (hz.trans (by norm_num)), ?_, ?_⟩
  · calc |F.rnd z - y| = |(z - y) + (F.rnd z - z)| := by ring_nf
      _ ≤ _ := abs_add_le _ _
      _ ≤ _ := add_le_add h h2
  · calc |F.rnd z| = |z + (F.rnd z - z)| := by ring_nf
      _ ≤ _ := abs_add_le _ _
      _ ≤ 75 + 1 / 10 ^ 14 := add_le_add hz h2
      _ ≤ _ := by norm_num

/-- One of the returned times. -/
theorem time_float (F : F64) {d : DateTime} (hv : d.Valid) (h2 : 2 ≤ d.civil.year) (h3 : d.civil.year ≤ 9998) {x y e : ℝ}
    (hx : |x| ≤ 75) (h : |x - y| ≤ e) :
    ∃ r, ((rndB F).tdHours (V.fin x) >>= fun us => (sameDay d).add us) = .ok r ∧
      |((r.civil.micros - (sameDay d).civil.micros : ℤ) : ℝ) - hourMicros y| ≤ 0.500001 + 3600000000 * e := by
  obtain ⟨us, h4, h5⟩ := tdHours_float F hx
  obtain ⟨r, h6, h7⟩ := add_float hv h2 h3 hx h5
  refine ⟨r, bind_of_ok h4 h6, ?_⟩
  have e1 : r.civil.micros - (sameDay d).civil.micros = us := by rw [h7]; ring
  rw [e1]
  have h5' := abs_le.1 h5
  have h' := abs_le.1 h
  rw [abs_le]
  unfold hourMicros at *
  constructor <;> linarith

/-- `get_sunrise_sunset_transit` in floating-point arithmetic. -/
theorem sr_float (F : F64) {lat lon : ℝ} (hl : |lat| ≤ 89) (hlon : |lon| ≤ 180) {d : DateTime} (hd : d.tz.isSome)
    (hv : d.Valid) (h2 : 2 ≤ d.civil.year) (h3 : d.civil.year ≤ 9998) :
    (get_sunrise_sunset_transit (rndB F) (V.fin lat) (V.fin lon) (.dt d) = .error .valueError ∧
      1 - 35 / 10 ^ 13 < |dayCos lat (sunriseDeclination (yday d.civil.date))|) ∨
    (∃ sr ss tr, get_sunrise_sunset_transit (rndB F) (V.fin lat) (V.fin lon) (.dt d) = .ok (sr, ss, tr) ∧
      |dayCos lat (sunriseDeclination (yday d.civil.date))| ≤ 1 + 35 / 10 ^ 13 ∧
      |((tr.civil.micros - (sameDay d).civil.micros : ℤ) : ℝ)
        - hourMicros (noonHour (utcOffsetSeconds d) lon (yday d.civil.date))| ≤ 0.51 ∧
      ∀ ha, ha = Real.arccos (dayCos lat (sunriseDeclination (yday d.civil.date))) * (12 / Real.pi) → ∀ δ : ℝ,
        ((|dayCos lat (sunriseDeclination (yday d.civil.date))| ≤ 1 ∧ δ = 39700) ∨
         (|dayCos lat (sunriseDeclination (yday d.civil.date))| ≤ 0.99 ∧ δ = 1.3)) →
        |((sr.civil.micros - (sameDay d).civil.micros : ℤ) : ℝ)
          - hourMicros (noonHour (utcOffsetSeconds d) lon (yday d.civil.date) - ha)| ≤ δ ∧
        |((ss.civil.micros - (sameDay d).civil.micros : ℤ) : ℝ)
          - hourMicros (noonHour (utcOffsetSeconds d) lon (yday d.civil.date) + ha)| ≤ δ) := by
  obtain ⟨x, hx, rx⟩ := srDec_rel F hv.1
  obtain ⟨e, he, re⟩ := srEot_rel F hv.1
  obtain ⟨t, ht, rt⟩ := srNoon_rel F hv (hlon.trans (by norm_num)) re
  set D := dayCos lat (sunriseDeclination (yday d.civil.date)) with hD
  set noon := noonHour (utcOffsetSeconds d) lon (yday d.civil.date) with hnoon
  obtain ⟨_, _, hte, -, -, ht3⟩ := rt
  cases hte
  have hn := noonHour_abs hv hlon (yday d.civil.date)
  rw [← hnoon] at hn
  have ht3 : |t - noon| ≤ 8 / 10 ^ 14 := by
    refine le_trans (le_of_eq ?_) (ht3.trans (le_of_eq ?_))
    · rw [hnoon]; rfl
    · push_cast; rfl
  have ht3' := abs_le.1 ht3
  have hn' := abs_le.1 hn
  have htabs : |t| ≤ 49.1 := by rw [abs_le]; constructor <;> norm_num at * <;> linarith
  have hsplit : ∀ r ha', sunriseHa (rndB F) (V.fin lat) (V.fin x) = .ok ha' → srTimes (rndB F) d (V.fin t) ha' = r →
      get_sunrise_sunset_transit (rndB F) (V.fin lat) (V.fin lon) (.dt d) = r := fun r ha' h hr =>
    (sr_split (rndB F) hd _ _).trans (bind_of_ok hx (bind_of_ok he (bind_of_ok h (bind_of_ok ht hr))))
  rcases srHa_float F hl rx with ⟨h, hD1⟩ | ⟨⟨ha', hha, hab⟩, hD1, hD2⟩
  · exact .inl ⟨(sr_split (rndB F) hd _ _).trans (bind_of_ok hx (bind_of_ok he (bind_of_error h))), hD1⟩
  · right
    have htabs' := abs_le.1 htabs
    have hab' := abs_le.1 hab
    have b1 : |t - ha'| ≤ 74 := by rw [abs_le]; constructor <;> norm_num at * <;> linarith
    have b2 : |t + ha'| ≤ 74 := by rw [abs_le]; constructor <;> norm_num at * <;> linarith
    have q1 : (rndB F).sub (V.fin t) (V.fin ha') = V.fin (F.rnd (t - ha')) :=
      (sum_float F (y := t - ha') (e := 0) (by simp) (by linarith)).1
    have q2 : (rndB F).add (V.fin t) (V.fin ha') = V.fin (F.rnd (t + ha')) :=
      (sum_float F (y := t + ha') (e := 0) (by simp) (by linarith)).1
    have c1 : |F.rnd (t - ha')| ≤ 75 := by
      have := F.rnd_abs (t - ha') b1
      have h0 := tiny_le
      norm_num at *
      linarith
    have c2 : |F.rnd (t + ha')| ≤ 75 := by
      have := F.rnd_abs (t + ha') b2
      have h0 := tiny_le
      norm_num at *
      linarith
    have times : ∀ (y1 y2 e1 : ℝ), |F.rnd (t - ha') - y1| ≤ e1 → |F.rnd (t + ha') - y2| ≤ e1 →
        ∃ sr ss tr, get_sunrise_sunset_transit (rndB F) (V.fin lat) (V.fin lon) (.dt d) = .ok (sr, ss, tr) ∧
          |((sr.civil.micros - (sameDay d).civil.micros : ℤ) : ℝ) - hourMicros y1| ≤ 0.500001 + 3600000000 * e1 ∧
          |((ss.civil.micros - (sameDay d).civil.micros : ℤ) : ℝ) - hourMicros y2| ≤ 0.500001 + 3600000000 * e1 ∧
          |((tr.civil.micros - (sameDay d).civil.micros : ℤ) : ℝ) - hourMicros noon| ≤ 0.51 := by
      intro y1 y2 e1 k1 k2
      obtain ⟨sr, r1, s1⟩ := time_float F hv h2 h3 c1 k1
      obtain ⟨ss, r2, s2⟩ := time_float F hv h2 h3 c2 k2
      obtain ⟨tr, r3, s3⟩ := time_float F hv h2 h3 (htabs.trans (by norm_num)) ht3
      refine ⟨sr, ss, tr, hsplit _ (V.fin ha') hha ?_, s1, s2, s3.trans (by norm_num)⟩
      have r1' : ((rndB F).tdHours ((rndB F).sub (V.fin t) (V.fin ha')) >>= fun us => (sameDay d).add us) = .ok sr := by
        rw [q1]; exact r1
      have r2' : ((rndB F).tdHours ((rndB F).add (V.fin t) (V.fin ha')) >>= fun us => (sameDay d).add us) = .ok ss := by
        rw [q2]; exact r2
      have e : srTimes (rndB F) d (V.fin t) (V.fin ha')
          = ((rndB F).tdHours ((rndB F).sub (V.fin t) (V.fin ha')) >>= fun us => (sameDay d).add us) >>= fun a =>
            ((rndB F).tdHours ((rndB F).add (V.fin t) (V.fin ha')) >>= fun us => (sameDay d).add us) >>= fun b =>
            ((rndB F).tdHours (V.fin t) >>= fun us => (sameDay d).add us) >>= fun c => .ok (a, b, c) := by
        unfold srTimes
        simp only [bind_assoc]
        rfl
      exact e.trans (bind_of_ok r1' (bind_of_ok r2' (bind_of_ok r3 rfl)))
    obtain ⟨sr, ss, tr, hok, -, -, htr⟩ := times (F.rnd (t - ha')) (F.rnd (t + ha')) 0 (by simp) (by simp)
    refine ⟨sr, ss, tr, hok, hD1, htr, ?_⟩
    rintro ha rfl δ hδ
    have key : ∀ e1 : ℝ, |ha' - Real.arccos D * (12 / Real.pi)| ≤ e1 → 0.500001 + 3600000000 * (e1 + 1 / 10 ^ 13) ≤ δ →
        |((sr.civil.micros - (sameDay d).civil.micros : ℤ) : ℝ) - hourMicros (noon - Real.arccos D * (12 / Real.pi))| ≤ δ ∧
        |((ss.civil.micros - (sameDay d).civil.micros : ℤ) : ℝ) - hourMicros (noon + Real.arccos D * (12 / Real.pi))| ≤ δ := by
      intro e1 k1 k2
      have k1' := abs_le.1 k1
      obtain ⟨-, p1, -⟩ := sum_float F (z := t - ha') (y := noon - Real.arccos D * (12 / Real.pi)) (e := e1 + 8 / 10 ^ 14)
        (by rw [abs_le]; constructor <;> linarith) (by linarith)
      obtain ⟨-, p2, -⟩ := sum_float F (z := t + ha') (y := noon + Real.arccos D * (12 / Real.pi)) (e := e1 + 8 / 10 ^ 14)
        (by rw [abs_le]; constructor <;> linarith) (by linarith)
      obtain ⟨sr', ss', tr', hok', u1, u2, -⟩ := times _ _ (e1 + 1 / 10 ^ 13)
        (p1.trans (by norm_num; linarith)) (p2.trans (by norm_num; linarith))
      have e := Except.ok.inj (hok.symm.trans hok')
      simp only [Prod.mk.injEq] at e
      obtain ⟨rfl, rfl, rfl⟩ := e
      exact ⟨u1.trans k2, u2.trans k2⟩
    rcases hδ with ⟨h1, rfl⟩ | ⟨h1, rfl⟩
    · obtain ⟨ha'', hh, g1, -⟩ := hD2 h1
      have e : ha' = ha'' := V.fin.inj (Except.ok.inj (hha.symm.trans hh))
      subst e
      exact key _ g1 (by norm_num)
    · obtain ⟨ha'', hh, -, g2⟩ := hD2 (h1.trans (by norm_num))
      have e : ha' = ha'' := V.fin.inj (Except.ok.inj (hha.symm.trans hh))
      subst e
      exact key _ (g2 h1) (by norm_num)

end Chain

end Verif
