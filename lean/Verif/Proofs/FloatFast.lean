import Verif.Proofs.FloatDir
import Verif.Proofs.FastEval
import Verif.Props.Fast
import Verif.Props.Sunrise

/-!
# The fast functions in floating-point arithmetic
-/

namespace Verif

open Verif.Spec Verif.Props Pysolar Pysolar.Solar Pysolar.Constants Pysolar.Numeric

namespace Chain

open Ball hiding deg rad num

def ydayB : Ball := .num 1 366 0
def hourB : Ball := .num 0 23 0
def minB : Ball := .num 0 59 0
def decFb : Ball := .num (-24) 24 (13 / 10 ^ 14)
def eotFb : Ball := .num (-19) 19 (17 / 10 ^ 14)
def haFb : Ball := .num (-546) 546 (85 / 10 ^ 14)
def fastB : Ball := .num (-2) 2 (28 / 10 ^ 15)

/-- The hour angle from hour, minute, longitude and equation of time. -/
def fastHa (B : Backend) (h m lon e : B.α) : Py B.α := do
  return 15.0 * ((h * 60 + m + 4 * lon + e) /. 60 - 12.0)

/-- The argument of `asin` in `get_altitude_fast`. -/
def fastArg (B : Backend) (lat dec ha : B.α) : Py B.α := do
  let declination_rad := B.radians dec
  let latitude_rad := B.radians lat
  let first_term := (← B.cos latitude_rad) * (← B.cos declination_rad) * (← B.cos (B.radians ha))
  let second_term := (← B.sin latitude_rad) * (← B.sin declination_rad)
  return first_term + second_term

theorem fastHa_sim {B B' : Backend} (S : Sim B B') {x x'} (hx : S.r x x') {y y'} (hy : S.r y y') {z z'} (hz : S.r z z')
    {u u'} (hu : S.r u u') : RelM S.strict S.r (fastHa B x y z u) (fastHa B' x' y' z' u') := by
  unfold fastHa
  sim

theorem fastArg_sim {B B' : Backend} (S : Sim B B') {x x'} (hx : S.r x x') {y y'} (hy : S.r y y') {z z'} (hz : S.r z z') :
    RelM S.strict S.r (fastArg B x y z) (fastArg B' x' y' z') := by
  unfold fastArg
  sim

theorem decF_ok : inside (get_declination B ydayB) decFb = true := by decide +kernel
theorem eotF_ok : inside (equation_of_time B ydayB) eotFb = true := by decide +kernel
theorem haF_ok : inside (fastHa B hourB minB lonIn eotFb) haFb = true := by decide +kernel
theorem fast_ok : inside (fastArg B latIn decFb haFb) fastB = true := by decide +kernel

theorem lit_int (F : F64) (tp : ℝ) {n : ℤ} {lo hi : ℚ} (h1 : lo ≤ n) (h2 : n ≤ hi) (h3 : |n| ≤ 2 ^ 53) :
    (Ball.num lo hi 0).rel ((fxB F tp).lit n) := by
  refine lit_near F tp h1 h2 ?_
  rw [show (((n : ℤ) : ℚ) : ℝ) = ((n : ℤ) : ℝ) by push_cast; rfl, F.rnd_int n h3]
  simp

theorem yday_le {c : Civil} (h : c.Valid) : 1 ≤ yday c.date ∧ yday c.date ≤ 366 := by
  have hy := yday_bounds (c := c.date) h.2.2.1
  have : yearLen c.date.year ≤ 366 := by unfold yearLen; split_ifs <;> norm_num
  exact ⟨hy.1, hy.2.trans this⟩

theorem yday_rel (F : F64) (tp : ℝ) {c : Civil} (h : c.Valid) : ydayB.rel ((fxB F tp).lit (yday c.date)) := by
  have hy := yday_le h
  exact lit_int F tp (by exact_mod_cast hy.1) (by exact_mod_cast hy.2)
    (by rw [abs_le]; constructor <;> norm_num <;> omega)

theorem hour_rel (F : F64) (tp : ℝ) {c : Civil} (h : c.Valid) : hourB.rel ((fxB F tp).lit c.hour) := by
  obtain ⟨-, -, -, h1, h2, -⟩ := h
  exact lit_int F tp (by exact_mod_cast h1) (by exact_mod_cast h2)
    (by rw [abs_le]; constructor <;> norm_num <;> omega)

theorem min_rel (F : F64) (tp : ℝ) {c : Civil} (h : c.Valid) : minB.rel ((fxB F tp).lit c.minute) := by
  obtain ⟨-, -, -, -, -, h1, h2, -⟩ := h
  exact lit_int F tp (by exact_mod_cast h1) (by exact_mod_cast h2)
    (by rw [abs_le]; constructor <;> norm_num <;> omega)

theorem tm_yday_eq (B : Backend) (hB : B.npTime = false) {d : DateTime} {c : Civil} (h : UtcFields d c) :
    tm_yday B (.dt d) = .ok (B.lit (yday c.date)) := by
  simp [tm_yday, tm_yday_math, utctimetuple_dt, utctimetuple_of_utcFields h, hB]

theorem tm_hour_eq (B : Backend) (hB : B.npTime = false) {d : DateTime} {c : Civil} (h : UtcFields d c) :
    tm_hour B (.dt d) = .ok (B.lit c.hour) := by
  simp [tm_hour, tm_hour_math, utctimetuple_dt, utctimetuple_of_utcFields h, hB]

theorem tm_min_eq (B : Backend) (hB : B.npTime = false) {d : DateTime} {c : Civil} (h : UtcFields d c) :
    tm_min B (.dt d) = .ok (B.lit c.minute) := by
  simp [tm_min, tm_min_math, utctimetuple_dt, utctimetuple_of_utcFields h, hB]

theorem ha_split (B : Backend) (hB : B.npTime = false) {d : DateTime} {c : Civil} (h : UtcFields d c) (x : B.α) :
    get_hour_angle B (.dt d) x
      = equation_of_time B (B.lit (yday c.date)) >>= fun e => fastHa B (B.lit c.hour) (B.lit c.minute) x e := by
  unfold get_hour_angle get_solar_time
  rw [guard_denotes h.2, tm_yday_eq B hB h, tm_hour_eq B hB h, tm_min_eq B hB h]
  simp only [ok_bind]
  cases equation_of_time B (B.lit (yday c.date)) <;> rfl

theorem alt_split_of (B : Backend) {d : DateTime} {c : Civil} (h : UtcFields d c) 
    (hy : tm_yday B (.dt d) = .ok (B.lit (yday c.date))) (x y : B.α) :
    get_altitude_fast B x y (.dt d)
      = get_declination B (B.lit (yday c.date)) >>= fun dec => get_hour_angle B (.dt d) y >>= fun ha =>
        fastArg B x dec ha >>= fun s => B.asin s >>= fun t => .ok (B.degrees t) := by
  unfold get_altitude_fast
  rw [guard_denotes h.2, hy]
  simp only [ok_bind]
  cases get_declination B (B.lit (yday c.date)) with
  | error e => rfl
  | ok dec =>
  cases get_hour_angle B (.dt d) y with
  | error e => rfl
  | ok ha =>
  simp only [ok_bind, fastArg]
  cases B.cos (B.radians x) with
  | error e => rfl
  | ok a =>
  cases B.cos (B.radians dec) with
  | error e => rfl
  | ok b =>
  cases B.cos (B.radians ha) with
  | error e => rfl
  | ok c =>
  cases B.sin (B.radians x) with
  | error e => rfl
  | ok d =>
  cases B.sin (B.radians dec) <;> rfl

theorem alt_split (B : Backend) (hB : B.npTime = false) {d : DateTime} {c : Civil} (h : UtcFields d c) (x y : B.α) :
    get_altitude_fast B x y (.dt d)
      = get_declination B (B.lit (yday c.date)) >>= fun dec => get_hour_angle B (.dt d) y >>= fun ha =>
        fastArg B x dec ha >>= fun s => B.asin s >>= fun t => .ok (B.degrees t) :=
  alt_split_of B h (tm_yday_eq B hB h) x y

theorem decF_rel (F : F64) (tp : ℝ) {c : Civil} (h : c.Valid) :
    ∃ x : ℝ, get_declination (rndB F) ((rndB F).lit (yday c.date)) = .ok (V.fin x) ∧
      decFb.rel (V.fin x, V.fin (decF (yday c.date))) := by
  obtain ⟨p, hp, hr⟩ := ok_of_inside ((ballSim F tp).toSim.get_declination (x := ydayB)
    (x' := (fxB F tp).lit (yday c.date)) (yday_rel F tp h)) decF_ok
  obtain ⟨u, hu, hur⟩ := RelM.of_ok ((pairFst (rndB F) (mathB tp) rfl).toSim.get_declination
    (x := (fxB F tp).lit (yday c.date)) (x' := (rndB F).lit (yday c.date)) rfl) hp
  obtain ⟨v, hv, hvr⟩ := RelM.of_ok ((pairSnd (rndB F) (mathB tp) rfl).toSim.get_declination
    (x := (fxB F tp).lit (yday c.date)) (x' := (mathB tp).lit (yday c.date)) rfl) hp
  obtain ⟨x, y, rfl, h1, h2, h3⟩ := hr
  have e : (mathB tp).lit (yday c.date) = num (yday c.date) := by
    rw [m_lit]; push_cast; rfl
  rw [e] at hv
  have hy := num_injective (Except.ok.inj ((decl_eval (tp := tp) (yday c.date)).symm.trans (hv.trans (congrArg Except.ok hvr.symm))))
  refine ⟨x, hu.trans (congrArg Except.ok hur.symm), x, y, ?_, h1, h2, h3⟩
  rw [hy]

theorem haF_rel (F : F64) (tp : ℝ) {d : DateTime} {c : Civil} (h : UtcFields d c) {lon : ℝ} (hl : |lon| ≤ 360) :
    ∃ x : ℝ, get_hour_angle (rndB F) (.dt d) (V.fin lon) = .ok (V.fin x) ∧
      haFb.rel (V.fin x, V.fin (haF lon c)) := by
  have hl' := abs_le.1 hl
  have rlon : lonIn.rel (dup F tp lon) := dup_rel F tp (by push_cast; linarith) (by push_cast; linarith)
  obtain ⟨e, he, her⟩ := ok_of_inside ((ballSim F tp).toSim.equation_of_time (x := ydayB)
    (x' := (fxB F tp).lit (yday c.date)) (yday_rel F tp h.1)) eotF_ok
  obtain ⟨p, hp, hr⟩ := ok_of_inside (fastHa_sim (ballSim F tp).toSim (x := hourB) (x' := (fxB F tp).lit c.hour)
    (hour_rel F tp h.1) (y := minB) (y' := (fxB F tp).lit c.minute) (min_rel F tp h.1) (z := lonIn)
    (z' := dup F tp lon) rlon (u := eotFb) (u' := e) her) haF_ok
  have hall : get_hour_angle (fxB F tp) (.dt d) (dup F tp lon) = .ok p :=
    (ha_split (fxB F tp) rfl h _).trans (bind_of_ok he hp)
  obtain ⟨u, hu, hur⟩ := RelM.of_ok ((pairFst (rndB F) (mathB tp) rfl).toSim.get_hour_angle
    (w := .dt d) (w' := .dt d) ⟨d, rfl, rfl⟩ (x := dup F tp lon) (x' := V.fin lon) rfl) hall
  obtain ⟨v, hv, hvr⟩ := RelM.of_ok ((pairSnd (rndB F) (mathB tp) rfl).toSim.get_hour_angle
    (w := .dt d) (w' := .dt d) ⟨d, rfl, rfl⟩ (x := dup F tp lon) (x' := num lon) rfl) hall
  obtain ⟨x, y, rfl, h1, h2, h3⟩ := hr
  have hy := num_injective (Except.ok.inj ((ha_eval (tp := tp) h lon).symm.trans (hv.trans (congrArg Except.ok hvr.symm))))
  refine ⟨x, hu.trans (congrArg Except.ok hur.symm), x, y, ?_, h1, h2, h3⟩
  rw [hy]

theorem fastArg_rel (F : F64) {lat x x' y y' : ℝ} (hl : |lat| ≤ 90) (hx : decFb.rel (V.fin x', V.fin x))
    (hy : haFb.rel (V.fin y', V.fin y)) :
    ∃ s : ℝ, fastArg (rndB F) (V.fin lat) (V.fin x') (V.fin y') = .ok (V.fin s) ∧
      |s - (sunENU lat y x).z| ≤ 28 / 10 ^ 15 := by
  have hl' := abs_le.1 hl
  have a : latIn.rel (dup F 0 lat) := dup_rel F 0 (by push_cast; linarith) (by push_cast; linarith)
  obtain ⟨p, hp, hr⟩ := ok_of_inside (fastArg_sim (x := latIn) (x' := dup F 0 lat) (y := decFb) (y' := (V.fin x', V.fin x))
    (z := haFb) (z' := (V.fin y', V.fin y)) (ballSim F 0).toSim a hx hy) fast_ok
  obtain ⟨s, s', rfl, -, -, he⟩ := hr
  obtain ⟨v, hv, hvr⟩ := RelM.of_ok (fastArg_sim (x := dup F 0 lat) (x' := num lat) (y := (V.fin x', V.fin x)) (y' := num x)
    (z := (V.fin y', V.fin y)) (z' := num y) (pairSnd (rndB F) (mathB 0) rfl).toSim rfl rfl rfl) hp
  obtain ⟨u, hu, hur⟩ := RelM.of_ok (fastArg_sim (x := dup F 0 lat) (x' := V.fin lat) (y := (V.fin x', V.fin x)) (y' := V.fin x')
    (z := (V.fin y', V.fin y)) (z' := V.fin y') (pairFst (rndB F) (mathB 0) rfl).toSim rfl rfl rfl) hp
  have e : fastArg (mathB 0) (num lat) (num x) (num y) = .ok (num (sunENU lat y x).z) := by
    rw [← up_eq]
    simp only [fastArg, m_radians, m_cos, m_sin, m_mul, m_add, ok_bind, pure_eq_ok]
    congr 2
    ring
  have e2 := num_injective (Except.ok.inj (e.symm.trans (hv.trans (congrArg Except.ok hvr.symm))))
  refine ⟨s, hu.trans (congrArg Except.ok hur.symm), ?_⟩
  rw [e2]
  refine he.trans (le_of_eq ?_)
  push_cast
  rfl

/-- The arcsine is continuous with exponent 1/2 up to the ends of its domain. -/
theorem arcsin_close_wide {a b ε η : ℝ} (ha : |a| ≤ 1) (hb : |b| ≤ 1) (h : |a - b| ≤ ε) (hε : ε ≤ 1 / 10 ^ 6)
    (hη : 0 ≤ η) (h2 : 2.1 * ε ≤ η ^ 2) : |Real.arcsin a - Real.arcsin b| ≤ η := by
  wlog hab : b ≤ a generalizing a b
  · rw [abs_sub_comm]
    exact this hb ha (by rwa [abs_sub_comm]) (le_of_not_ge hab)
  have ha' := abs_le.1 ha
  have hb' := abs_le.1 hb
  set u := Real.arcsin a with hu
  set v := Real.arcsin b with hv
  have huv : v ≤ u := Real.monotone_arcsin hab
  have hu1 := Real.arcsin_le_pi_div_two a
  have hv1 := Real.neg_pi_div_two_le_arcsin b
  have hu2 : -(Real.pi / 2) ≤ u := Real.neg_pi_div_two_le_arcsin a
  have hv2 : v ≤ Real.pi / 2 := Real.arcsin_le_pi_div_two b
  rw [abs_of_nonneg (by linarith)]
  have ea : a = Real.sin u := (Real.sin_arcsin ha'.1 ha'.2).symm
  have eb : b = Real.sin v := (Real.sin_arcsin hb'.1 hb'.2).symm
  set t := (u - v) / 2 with ht
  have ht0 : 0 ≤ t := by rw [ht]; linarith
  have ht1 : t ≤ Real.pi / 2 := by rw [ht]; linarith
  have hst : 0 ≤ Real.sin t := Real.sin_nonneg_of_nonneg_of_le_pi ht0 (by linarith [Real.pi_pos])
  have hcos : Real.sin t ≤ Real.cos ((u + v) / 2) := by
    rw [← Real.cos_pi_div_two_sub]
    have h3 : |(u + v) / 2| ≤ Real.pi / 2 - t := by
      rw [abs_le, ht]
      constructor <;> linarith
    rw [← Real.cos_abs ((u + v) / 2)]
    exact Real.cos_le_cos_of_nonneg_of_le_pi (abs_nonneg _) (by linarith [Real.pi_pos]) h3
  have hd : a - b = 2 * Real.sin t * Real.cos ((u + v) / 2) := by
    rw [ea, eb, Real.sin_sub_sin]
  have hsq : Real.sin t ^ 2 ≤ ε / 2 := by
    have : a - b ≤ ε := (le_abs_self _).trans h
    nlinarith
  -- first a crude bound on `t`, then a sharp one
  have hj := Real.mul_le_sin ht0 ht1
  have h12 : (1 : ℝ) / 2 ≤ 2 / Real.pi := by
    rw [div_le_div_iff₀ (by norm_num) Real.pi_pos]
    linarith [Real.pi_le_four]
  have ht2 : t / 2 ≤ Real.sin t := by nlinarith
  have ht3 : t ≤ 1 / 500 := by
    by_contra hc
    push Not at hc
    have h5 : (1 / 1000 : ℝ) ≤ Real.sin t := by linarith
    have h6 : (1 / 1000 : ℝ) ^ 2 ≤ Real.sin t ^ 2 := pow_le_pow_left₀ (by norm_num) h5 2
    norm_num at h6 hε
    linarith
  have hs3 : t * 0.999 ≤ Real.sin t := by
    rcases ht0.eq_or_lt with h0 | h0
    · rw [← h0]; simp
    · have := Real.sin_gt_sub_cube h0
      nlinarith [pow_pos h0 3, mul_pos h0 h0]
  have h7 : (t * 0.999) ^ 2 ≤ ε / 2 := (pow_le_pow_left₀ (by positivity) hs3 2).trans hsq
  have h8 : (u - v) ^ 2 ≤ η ^ 2 := by
    have : u - v = 2 * t := by rw [ht]; ring
    rw [this]
    have hε0 : 0 ≤ ε := (abs_nonneg _).trans h
    nlinarith
  exact abs_le_of_sq_le_sq' h8 hη |>.2

/-- A change of the sine by `ε` moves the angle little where the cosine is not small. -/
theorem arcsin_weighted {a b ε η : ℝ} (ha : |a| ≤ 1) (hb : |b| ≤ 1) (h : |a - b| ≤ ε)
    (hη : |Real.arcsin a - Real.arcsin b| ≤ η) (h1 : η ≤ 1 / 1000) :
    Real.cos (Real.arcsin b) * |Real.arcsin a - Real.arcsin b| ≤ 1.001 * (ε + η ^ 2 / 2) := by
  set A := Real.arcsin a with hA
  set D := A - Real.arcsin b with hD
  have ea : a = Real.sin (Real.arcsin b + D) := by
    rw [hD, add_sub_cancel, hA, Real.sin_arcsin (abs_le.1 ha).1 (abs_le.1 ha).2]
  have eb : b = Real.sin (Real.arcsin b) := (Real.sin_arcsin (abs_le.1 hb).1 (abs_le.1 hb).2).symm
  have hc := Real.cos_arcsin_nonneg b
  have e : Real.cos (Real.arcsin b) * Real.sin D = (a - b) + b * (1 - Real.cos D) := by
    conv_rhs => rw [ea, Real.sin_add]
    rw [← eb]
    ring
  have hcos : |1 - Real.cos D| ≤ η ^ 2 / 2 := by
    rw [abs_of_nonneg (by linarith [Real.cos_le_one D])]
    have := Real.one_sub_sq_div_two_le_cos (x := D)
    have : D ^ 2 ≤ η ^ 2 := by rw [← sq_abs]; exact pow_le_pow_left₀ (abs_nonneg _) hη 2
    linarith
  have hs : Real.cos (Real.arcsin b) * |Real.sin D| ≤ ε + η ^ 2 / 2 := by
    rw [← abs_of_nonneg hc, ← abs_mul, e]
    refine (abs_add_le _ _).trans (add_le_add h ?_)
    rw [abs_mul]
    calc |b| * |1 - Real.cos D| ≤ 1 * (η ^ 2 / 2) := mul_le_mul hb hcos (abs_nonneg _) (by norm_num)
      _ = _ := one_mul _
  have hsin : |D| ≤ 1.001 * |Real.sin D| := by
    have key : ∀ t : ℝ, 0 ≤ t → t ≤ 1 / 1000 → t ≤ 1.001 * Real.sin t := by
      intro t h0 h1
      rcases h0.eq_or_lt with rfl | h0
      · simp
      have := Real.sin_gt_sub_cube h0
      have h3 : t * t ^ 2 ≤ t * (1 / 1000) ^ 2 :=
        mul_le_mul_of_nonneg_left (pow_le_pow_left₀ h0.le h1 2) h0.le
      have h4 : t ^ 3 = t * t ^ 2 := by ring
      rw [← h4] at h3
      norm_num at *
      linarith
    rcases le_total 0 D with h0 | h0
    · rw [abs_of_nonneg h0] at hη ⊢
      have := key D h0 (hη.trans h1)
      exact this.trans (mul_le_mul_of_nonneg_left (le_abs_self _) (by norm_num))
    · rw [abs_of_nonpos h0] at hη ⊢
      have := key (-D) (by linarith) (hη.trans h1)
      rw [Real.sin_neg] at this
      exact this.trans (mul_le_mul_of_nonneg_left (neg_le_abs _) (by norm_num))
  calc Real.cos (Real.arcsin b) * |D| ≤ Real.cos (Real.arcsin b) * (1.001 * |Real.sin D|) :=
        mul_le_mul_of_nonneg_left hsin hc
    _ = 1.001 * (Real.cos (Real.arcsin b) * |Real.sin D|) := by ring
    _ ≤ _ := mul_le_mul_of_nonneg_left hs (by norm_num)

/-- `degrees(asin(s))` for a computed `s`. -/
theorem asin_deg_float (F : F64) {s z : ℝ} (hz : |z| ≤ 1) (he : |s - z| ≤ 28 / 10 ^ 15) :
    (∃ t e, (rndB F).asin (V.fin s) = .ok (V.fin t) ∧ (rndB F).degrees (V.fin t) = V.fin e ∧
      |e - deg (Real.arcsin z)| ≤ 14 / 10 ^ 6 ∧
      Real.cos (Spec.rad (deg (Real.arcsin z))) * |e - deg (Real.arcsin z)| ≤ 5 / 10 ^ 12) ∨
    ((rndB F).asin (V.fin s) = .error .valueError ∧ 90 - 14 / 10 ^ 6 ≤ |deg (Real.arcsin z)|) := by
  have hz' := abs_le.1 hz
  have hp57 := pi57
  have hdeg : ∀ t m, |t| ≤ m → |deg t| ≤ 57.295779513083 * m := by
    intro t m ht
    unfold deg
    rw [show t * 180 / Real.pi = (180 / Real.pi) * t by ring, abs_mul, abs_of_pos (by linarith [hp57.1] : 0 < 180 / Real.pi)]
    exact mul_le_mul hp57.2.le ht (abs_nonneg _) (by norm_num)
  have hdsub : ∀ a b : ℝ, deg a - deg b = deg (a - b) := fun a b => by unfold deg; ring
  by_cases h1 : -1 ≤ s ∧ s ≤ 1
  · left
    have hsabs : |s| ≤ 1 := abs_le.2 h1
    have hc := arcsin_close (η := 243 / 10 ^ 9) hsabs hz he (by norm_num) (by norm_num) (by norm_num)
    have hw := arcsin_weighted hsabs hz he hc (by norm_num)
    have ha := F.asin_err s hsabs
    have hb : (Ball.num (-2) 2 (1 / 10 ^ 15)).rel (V.fin (F.asin s), V.fin (Real.arcsin s)) := by
      have h2 := Real.arcsin_le_pi_div_two s
      have h3 := Real.neg_pi_div_two_le_arcsin s
      have h4 := Real.pi_le_four
      refine ⟨_, _, rfl, by push_cast; linarith, by push_cast; linarith, ?_⟩
      push_cast
      refine ha.trans (by norm_num)
    obtain ⟨x, y, hxy, -, -, hd⟩ := rel_of_stronger (degrees_rel F 0 hb) deg_ok
    have hy : y = deg (Real.arcsin s) := (V.fin.inj (congrArg Prod.snd hxy)).symm
    have hx : (rndB F).degrees (V.fin (F.asin s)) = V.fin x := congrArg Prod.fst hxy
    have h5 : x - deg (Real.arcsin z) = (x - y) + deg (Real.arcsin s - Real.arcsin z) := by
      rw [← hdsub, hy]; ring
    push_cast at hd
    refine ⟨F.asin s, x, if_pos h1, hx, ?_, ?_⟩
    · rw [h5]
      refine (abs_add_le _ _).trans ?_
      have := hdeg _ _ hc
      norm_num at hd this ⊢
      linarith
    · rw [h5, rad_deg]
      have hc0 := Real.cos_arcsin_nonneg z
      have hc1 := Real.cos_le_one (Real.arcsin z)
      have e1 : Real.cos (Real.arcsin z) * |deg (Real.arcsin s - Real.arcsin z)|
          = (180 / Real.pi) * (Real.cos (Real.arcsin z) * |Real.arcsin s - Real.arcsin z|) := by
        unfold deg
        rw [show (Real.arcsin s - Real.arcsin z) * 180 / Real.pi = (180 / Real.pi) * (Real.arcsin s - Real.arcsin z) by ring,
          abs_mul, abs_of_pos (by linarith [hp57.1] : 0 < 180 / Real.pi)]
        ring
      have e2 : (180 / Real.pi) * (Real.cos (Real.arcsin z) * |Real.arcsin s - Real.arcsin z|)
          ≤ 57.295779513083 * (1.001 * (28 / 10 ^ 15 + (243 / 10 ^ 9) ^ 2 / 2)) :=
        mul_le_mul hp57.2.le hw (mul_nonneg hc0 (abs_nonneg _)) (by norm_num)
      calc Real.cos (Real.arcsin z) * |x - y + deg (Real.arcsin s - Real.arcsin z)|
          ≤ Real.cos (Real.arcsin z) * (|x - y| + |deg (Real.arcsin s - Real.arcsin z)|) :=
            mul_le_mul_of_nonneg_left (abs_add_le _ _) hc0
        _ = Real.cos (Real.arcsin z) * |x - y| + Real.cos (Real.arcsin z) * |deg (Real.arcsin s - Real.arcsin z)| := by ring
        _ ≤ 1 * (1 / 10 ^ 12) + 57.295779513083 * (1.001 * (28 / 10 ^ 15 + (243 / 10 ^ 9) ^ 2 / 2)) :=
            add_le_add (mul_le_mul hc1 hd (abs_nonneg _) (by norm_num)) (e1.trans_le e2)
        _ ≤ _ := by norm_num
  · right
    refine ⟨if_neg h1, ?_⟩
    have hcase : 1 < s ∨ s < -1 := by
      by_contra hcon
      push Not at hcon
      exact h1 ⟨hcon.2, hcon.1⟩
    have he' := abs_le.1 he
    rcases hcase with h2 | h2
    · have hc := arcsin_close (a := 1) (b := z) (ε := 28 / 10 ^ 15) (η := 243 / 10 ^ 9) (by simp) hz
        (by rw [abs_of_nonneg (by linarith [hz'.2])]; linarith) (by norm_num) (by norm_num) (by norm_num)
      have h3 := abs_le.1 (hdeg _ _ hc)
      rw [← hdsub, Real.arcsin_one, deg_pi_div_two] at h3
      refine le_trans ?_ (le_abs_self _)
      norm_num at h3 ⊢
      linarith
    · have hc := arcsin_close (a := -1) (b := z) (ε := 28 / 10 ^ 15) (η := 243 / 10 ^ 9) (by simp) hz
        (by rw [abs_sub_comm, abs_of_nonneg (by linarith [hz'.1])]; linarith) (by norm_num) (by norm_num) (by norm_num)
      have h3 := abs_le.1 (hdeg _ _ hc)
      rw [← hdsub, Real.arcsin_neg, Real.arcsin_one, show deg (-(Real.pi / 2)) = -deg (Real.pi / 2) by unfold deg; ring,
        deg_pi_div_two] at h3
      refine le_trans ?_ (neg_le_abs _)
      norm_num at h3 ⊢
      linarith

/-- `get_altitude_fast`, computed: within 1.4e-5 degrees of the exact value, and much closer away from the zenith and
the nadir. -/
theorem altF_float (F : F64) {d : DateTime} {c : Civil} (h : UtcFields d c) {lat lon : ℝ} (hlat : |lat| ≤ 90)
    (hlon : |lon| ≤ 360) :
    (∃ e, get_altitude_fast (rndB F) (V.fin lat) (V.fin lon) (.dt d) = .ok (V.fin e) ∧
      |e - altF lat lon c| ≤ 14 / 10 ^ 6 ∧ Real.cos (Spec.rad (altF lat lon c)) * |e - altF lat lon c| ≤ 5 / 10 ^ 12) ∨
    (get_altitude_fast (rndB F) (V.fin lat) (V.fin lon) (.dt d) = .error .valueError ∧
      90 - 14 / 10 ^ 6 ≤ |altF lat lon c|) := by
  obtain ⟨x, hx, rx⟩ := decF_rel F 0 h.1
  obtain ⟨y, hy, ry⟩ := haF_rel F 0 h hlon
  obtain ⟨s, hs, he⟩ := fastArg_rel F hlat rx ry
  have hz := unit_z (sunENU_unit lat (haF lon c) (decF (yday c.date)))
  rcases asin_deg_float F (abs_le.2 hz) he with ⟨t, e, h1, h2, h3, h4⟩ | ⟨h1, h2⟩
  · exact .inl ⟨e, (alt_split (rndB F) rfl h _ _).trans (bind_of_ok hx (bind_of_ok hy (bind_of_ok hs
      (bind_of_ok h1 (congrArg Except.ok h2))))), h3, h4⟩
  · exact .inr ⟨(alt_split (rndB F) rfl h _ _).trans (bind_of_ok hx (bind_of_ok hy (bind_of_ok hs
      (bind_of_error h1)))), h2⟩

/-! ## The azimuth -/

/-- The numerator of the sine of the azimuth in `get_azimuth_fast`. -/
def fazN (B : Backend) (dec ha : B.α) : Py B.α := do
  return -(← B.cos (B.radians dec)) * (← B.sin (B.radians ha))

/-- The cosine and the tangent of an angle in degrees. -/
def cosD (B : Backend) (x : B.α) : Py B.α := B.cos (B.radians x)
def tanD (B : Backend) (x : B.α) : Py B.α := B.tan (B.radians x)

/-- The angle returned by `get_azimuth_fast`. -/
def fazW (B : Backend) (A t1 ch tl : B.α) : B.α :=
  B.where_ (B.le t1 (ch * tl)) (180 - B.degrees A) (B.degrees A + 360 * B.ofC (B.lt A 0))

theorem fazN_sim {B B' : Backend} (S : Sim B B') {x x'} (hx : S.r x x') {y y'} (hy : S.r y y') :
    RelM S.strict S.r (fazN B x y) (fazN B' x' y') := by
  unfold fazN
  sim

theorem cosD_sim {B B' : Backend} (S : Sim B B') {x x'} (hx : S.r x x') :
    RelM S.strict S.r (cosD B x) (cosD B' x') := by
  unfold cosD
  sim

theorem tanD_sim {B B' : Backend} (S : Sim B B') {x x'} (hx : S.r x x') :
    RelM S.strict S.r (tanD B x) (tanD B' x') := by
  unfold tanD
  sim

def altIn : Ball := .num (-91) 91 0
def fazNb : Ball := .num (-2) 2 (23 / 10 ^ 15)
def cosHab : Ball := .num (-2) 2 (20 / 10 ^ 15)
def tanDecb : Ball := .num (-2) 2 (11 / 10 ^ 15)
def cosAltb : Ball := .num (-2) 2 (11 / 10 ^ 16)

theorem fazN_ok : inside (fazN B decFb haFb) fazNb = true := by decide +kernel
theorem cosHa_ok : inside (cosD B haFb) cosHab = true := by decide +kernel
theorem tanDec_ok : inside (tanD B decFb) tanDecb = true := by decide +kernel
theorem cosAlt_ok : inside (cosD B altIn) cosAltb = true := by decide +kernel
theorem radAlt_ok : stronger (B.radians altIn) (.num (-2) 2 (1 / 10 ^ 15)) = true := by decide +kernel
theorem azS_ok : stronger (B.sub (B.lit 180) (.num (-120) 120 (1 / 10 ^ 12))) (.num 0 360 (2 / 10 ^ 12)) = true := by
  decide +kernel
theorem azN0_ok : stronger (B.add (.num (-120) 120 (1 / 10 ^ 12)) (B.mul (B.lit 360) (.num 0 0 0)))
    (.num (-200) 200 (2 / 10 ^ 12)) = true := by decide +kernel
theorem azN1_ok : stronger (B.add (.num (-120) 120 (1 / 10 ^ 12)) (B.mul (B.lit 360) (.num 1 1 0)))
    (.num 200 500 (2 / 10 ^ 12)) = true := by decide +kernel

theorem faz_split (B : Backend) (hB : B.npTime = false) {d : DateTime} {c : Civil} (h : UtcFields d c) (x y : B.α) :
    get_azimuth_fast B x y (.dt d)
      = get_declination B (B.lit (yday c.date)) >>= fun dec => get_hour_angle B (.dt d) y >>= fun ha =>
        get_altitude_fast B x y (.dt d) >>= fun alt => fazN B dec ha >>= fun n => cosD B alt >>= fun c =>
        B.div n c >>= fun q => B.asin q >>= fun A => tanD B dec >>= fun t1 => cosD B ha >>= fun ch =>
        tanD B x >>= fun tl => .ok (fazW B A t1 ch tl) := by
  unfold get_azimuth_fast
  rw [tm_yday_eq B hB h]
  simp only [ok_bind]
  cases get_declination B (B.lit (yday c.date)) with
  | error e => rfl
  | ok dec =>
  cases get_hour_angle B (.dt d) y with
  | error e => rfl
  | ok ha =>
  cases get_altitude_fast B x y (.dt d) with
  | error e => rfl
  | ok alt =>
  simp only [ok_bind, fazN, cosD, tanD]
  cases B.cos (B.radians dec) with
  | error e => rfl
  | ok a =>
  cases B.sin (B.radians ha) with
  | error e => rfl
  | ok b => rfl

/-- One argument, computed and exact. -/
theorem cosD_rel (F : F64) {b out : Ball} {x x' : ℝ} (hb : b.rel (V.fin x', V.fin x)) {lo hi e : ℚ}
    (ho : out = .num lo hi e) (hok : inside (cosD B b) out = true) :
    ∃ y : ℝ, cosD (rndB F) (V.fin x') = .ok (V.fin y) ∧ |y - Real.cos (Spec.rad x)| ≤ e := by
  subst ho
  obtain ⟨p, hp, hr⟩ := ok_of_inside (cosD_sim (ballSim F 0).toSim (x := b) (x' := (V.fin x', V.fin x)) hb) hok
  obtain ⟨s, s', rfl, -, -, he⟩ := hr
  obtain ⟨v, hv, hvr⟩ := RelM.of_ok (cosD_sim (x := (V.fin x', V.fin x)) (x' := num x)
    (pairSnd (rndB F) (mathB 0) rfl).toSim rfl) hp
  obtain ⟨u, hu, hur⟩ := RelM.of_ok (cosD_sim (x := (V.fin x', V.fin x)) (x' := V.fin x')
    (pairFst (rndB F) (mathB 0) rfl).toSim rfl) hp
  have e' : cosD (mathB 0) (num x) = .ok (num (Real.cos (Spec.rad x))) := by simp [cosD]
  have e2 := num_injective (Except.ok.inj (e'.symm.trans (hv.trans (congrArg Except.ok hvr.symm))))
  refine ⟨s, hu.trans (congrArg Except.ok hur.symm), ?_⟩
  rw [e2]
  exact he

theorem fazN_rel (F : F64) {x x' y y' : ℝ} (hx : decFb.rel (V.fin x', V.fin x))
    (hy : haFb.rel (V.fin y', V.fin y)) :
    ∃ s : ℝ, fazN (rndB F) (V.fin x') (V.fin y') = .ok (V.fin s) ∧
      |s - -Real.cos (Spec.rad x) * Real.sin (Spec.rad y)| ≤ 23 / 10 ^ 15 := by
  obtain ⟨p, hp, hr⟩ := ok_of_inside (fazN_sim (x := decFb) (x' := (V.fin x', V.fin x)) (y := haFb)
    (y' := (V.fin y', V.fin y)) (ballSim F 0).toSim hx hy) fazN_ok
  obtain ⟨s, s', rfl, -, -, he⟩ := hr
  obtain ⟨v, hv, hvr⟩ := RelM.of_ok (fazN_sim (x := (V.fin x', V.fin x)) (x' := num x) (y := (V.fin y', V.fin y))
    (y' := num y) (pairSnd (rndB F) (mathB 0) rfl).toSim rfl rfl) hp
  obtain ⟨u, hu, hur⟩ := RelM.of_ok (fazN_sim (x := (V.fin x', V.fin x)) (x' := V.fin x') (y := (V.fin y', V.fin y))
    (y' := V.fin y') (pairFst (rndB F) (mathB 0) rfl).toSim rfl rfl) hp
  have e' : fazN (mathB 0) (num x) (num y) = .ok (num (-Real.cos (Spec.rad x) * Real.sin (Spec.rad y))) := by
    simp only [fazN, m_radians, m_cos, m_sin, m_mul, m_neg, ok_bind, pure_eq_ok]
  have e2 := num_injective (Except.ok.inj (e'.symm.trans (hv.trans (congrArg Except.ok hvr.symm))))
  refine ⟨s, hu.trans (congrArg Except.ok hur.symm), ?_⟩
  rw [e2]
  refine he.trans (le_of_eq ?_)
  push_cast
  rfl

theorem tanDec_rel (F : F64) {x x' : ℝ} (hx : decFb.rel (V.fin x', V.fin x)) :
    ∃ s : ℝ, tanD (rndB F) (V.fin x') = .ok (V.fin s) ∧ |s - Real.tan (Spec.rad x)| ≤ 11 / 10 ^ 15 := by
  obtain ⟨p, hp, hr⟩ := ok_of_inside (tanD_sim (x := decFb) (x' := (V.fin x', V.fin x)) (ballSim F 0).toSim hx) tanDec_ok
  obtain ⟨s, s', rfl, -, -, he⟩ := hr
  obtain ⟨v, hv, hvr⟩ := RelM.of_ok (tanD_sim (x := (V.fin x', V.fin x)) (x' := num x)
    (pairSnd (rndB F) (mathB 0) rfl).toSim rfl) hp
  obtain ⟨u, hu, hur⟩ := RelM.of_ok (tanD_sim (x := (V.fin x', V.fin x)) (x' := V.fin x')
    (pairFst (rndB F) (mathB 0) rfl).toSim rfl) hp
  obtain ⟨_, _, hxx, h1, h2, -⟩ := hx
  cases hxx
  push_cast at h1 h2
  have hc := cos_rad_pos (x := x) (by linarith) (by linarith)
  have e' : tanD (mathB 0) (num x) = .ok (num (Real.tan (Spec.rad x))) := by
    simp [tanD, tanP, hc.ne']
  have e2 := num_injective (Except.ok.inj (e'.symm.trans (hv.trans (congrArg Except.ok hvr.symm))))
  refine ⟨s, hu.trans (congrArg Except.ok hur.symm), ?_⟩
  rw [e2]
  refine he.trans (le_of_eq ?_)
  push_cast
  rfl

theorem cos899 : (0.0017 : ℝ) ≤ Real.cos (Spec.rad 89.9) := by
  rw [show (89.9 : ℝ) = 90 - 0.1 by norm_num, rad_sub, rad_90, Real.cos_pi_div_two_sub]
  have hp1 := Real.pi_gt_d4
  have hp2 := Real.pi_lt_d4
  have h3 : (0.00174 : ℝ) ≤ Spec.rad 0.1 := by unfold Spec.rad; norm_num at *; linarith
  have h4 : Spec.rad 0.1 ≤ 0.00175 := by unfold Spec.rad; norm_num at *; linarith
  have h5 := Real.sin_gt_sub_cube (x := Spec.rad 0.1) (by linarith)
  have h6 : (Spec.rad 0.1) ^ 3 ≤ 0.00175 ^ 3 := pow_le_pow_left₀ (by linarith) h4 3
  norm_num at *
  linarith

/-- The tangent of the latitude away from the poles. -/
theorem tanLat_rel (F : F64) {lat : ℝ} (hl : |lat| ≤ 89.9) :
    ∃ s : ℝ, tanD (rndB F) (V.fin lat) = .ok (V.fin s) ∧
      Real.cos (Spec.rad lat) * |s - Real.tan (Spec.rad lat)| ≤ 6.5 / 10 ^ 13 ∧
      Real.cos (Spec.rad lat) * |s| ≤ 2 := by
  have hl' := abs_le.1 hl
  have a : altIn.rel (dup F 0 lat) := dup_rel F 0 (by push_cast; norm_num at *; linarith) (by push_cast; norm_num at *; linarith)
  obtain ⟨r', r, hrr, -, -, hr⟩ := rel_of_stronger (radians_rel F 0 a) radAlt_ok
  have e1 : r = Spec.rad lat := (V.fin.inj (congrArg Prod.snd hrr)).symm
  have e2 : (rndB F).radians (V.fin lat) = V.fin r' := congrArg Prod.fst hrr
  rw [e1] at hr
  push_cast at hr
  set C := Real.cos (Spec.rad lat) with hC
  have hC0 : 0.0017 ≤ C := by
    have h1 : Real.cos (Spec.rad 89.9) ≤ C :=
      (cos_rad_le_iff (by norm_num at *; linarith) (by norm_num) (by norm_num)).mpr hl
    have h2 := cos899
    linarith
  have hCl : C ≤ 1 := Real.cos_le_one _
  set C' := Real.cos r' with hC'
  have hd : |C' - C| ≤ 1 / 10 ^ 15 := (lip_cos _ _).trans hr
  have hd' := abs_le.1 hd
  have hC'0 : 0.00169 ≤ C' := by norm_num at *; linarith
  have ht : Real.tan r' - Real.tan (Spec.rad lat) = Real.sin (r' - Spec.rad lat) / (C * C') := by
    rw [Real.tan_eq_sin_div_cos, Real.tan_eq_sin_div_cos, Real.sin_sub, ← hC, ← hC']
    have : C ≠ 0 := by linarith
    have : C' ≠ 0 := by linarith
    field_simp
  have h1 : C * |Real.tan r' - Real.tan (Spec.rad lat)| ≤ 1 / 10 ^ 15 / 0.00169 := by
    rw [ht, abs_div, abs_mul, abs_of_pos (by linarith : 0 < C), abs_of_pos (by linarith : 0 < C')]
    have : C * (|Real.sin (r' - Spec.rad lat)| / (C * C')) = |Real.sin (r' - Spec.rad lat)| / C' := by
      have : C ≠ 0 := by linarith
      have : C' ≠ 0 := by linarith
      field_simp
    rw [this]
    exact div_le_div₀ (by norm_num) ((abs_sin_le _).trans hr) (by norm_num) hC'0
  have h2 : C * |Real.tan r'| ≤ 1.01 := by
    have e3 : C * |Real.tan r'| = |Real.sin r'| * (C / C') := by
      rw [Real.tan_eq_sin_div_cos, abs_div, ← hC', abs_of_pos (by linarith : 0 < C')]
      ring
    rw [e3]
    have h3 : C / C' ≤ 1.01 := by
      rw [div_le_iff₀ (by linarith)]
      norm_num at *
      linarith
    calc |Real.sin r'| * (C / C') ≤ 1 * 1.01 :=
          mul_le_mul (Real.abs_sin_le_one _) h3 (div_nonneg (by linarith) (by linarith)) (by norm_num)
      _ = _ := by norm_num
  have h3 := (F.tan_err r' (by rw [← hC']; linarith)).trans (add_le_add le_rfl two_1074)
  have ht0 := tiny_le
  have h4 : C * |F.tan r' - Real.tan r'| ≤ 1.01 / 2 ^ 51 + 1 / 2 ^ 110 := by
    calc C * |F.tan r' - Real.tan r'| ≤ C * (|Real.tan r'| / 2 ^ 51 + tiny) :=
          mul_le_mul_of_nonneg_left h3 (by linarith)
      _ = C * |Real.tan r'| / 2 ^ 51 + C * tiny := by ring
      _ ≤ 1.01 / 2 ^ 51 + 1 * (1 / 2 ^ 110) := by
          refine add_le_add (by gcongr) (mul_le_mul hCl ht0 tiny_pos.le (by norm_num))
      _ = _ := by ring
  refine ⟨F.tan r', ?_, ?_, ?_⟩
  · unfold tanD
    rw [e2]
    rfl
  · calc C * |F.tan r' - Real.tan (Spec.rad lat)|
        = C * |(F.tan r' - Real.tan r') + (Real.tan r' - Real.tan (Spec.rad lat))| := by ring_nf
      _ ≤ C * (|F.tan r' - Real.tan r'| + |Real.tan r' - Real.tan (Spec.rad lat)|) :=
          mul_le_mul_of_nonneg_left (abs_add_le _ _) (by linarith)
      _ = C * |F.tan r' - Real.tan r'| + C * |Real.tan r' - Real.tan (Spec.rad lat)| := by ring
      _ ≤ (1.01 / 2 ^ 51 + 1 / 2 ^ 110) + 1 / 10 ^ 15 / 0.00169 := add_le_add h4 h1
      _ ≤ _ := by norm_num
  · calc C * |F.tan r'| = C * |(F.tan r' - Real.tan r') + Real.tan r'| := by ring_nf
      _ ≤ C * (|F.tan r' - Real.tan r'| + |Real.tan r'|) := mul_le_mul_of_nonneg_left (abs_add_le _ _) (by linarith)
      _ = C * |F.tan r' - Real.tan r'| + C * |Real.tan r'| := by ring
      _ ≤ (1.01 / 2 ^ 51 + 1 / 2 ^ 110) + 1.01 := add_le_add h4 h2
      _ ≤ _ := by norm_num

theorem degA_ok : stronger (B.degrees (.num (-2) 2 0)) (.num (-120) 120 (1 / 10 ^ 12)) = true := by decide +kernel

/-- The last step of `get_azimuth_fast`, computed. -/
theorem fazW_float (F : F64) {A t1 ch tl : ℝ} (hA : |A| ≤ 2) (hf : |ch * tl| ≤ 2 ^ 100) :
    ∃ az, fazW (rndB F) (V.fin A) (V.fin t1) (V.fin ch) (V.fin tl) = V.fin az ∧
      ((t1 ≤ F.rnd (ch * tl) ∧ |az - (180 - deg A)| ≤ 2 / 10 ^ 12) ∨
       (F.rnd (ch * tl) < t1 ∧ ∃ k : ℤ, |az - (deg A + 360 * k)| ≤ 2 / 10 ^ 12)) := by
  have hA' := abs_le.1 hA
  have a : (Ball.num (-2) 2 0).rel (V.fin A, V.fin A) :=
    ⟨_, _, rfl, by push_cast; linarith, by push_cast; linarith, by simp⟩
  have b := rel_of_stronger (degrees_rel F 0 a) degA_ok
  have hP : (rndB F).mul (V.fin ch) (V.fin tl) = V.fin (F.rnd (ch * tl)) := V.rnd_fin F hf
  have hle : (rndB F).le (V.fin t1) ((rndB F).mul (V.fin ch) (V.fin tl)) = decide (t1 ≤ F.rnd (ch * tl)) := by
    rw [hP]; rfl
  by_cases h : t1 ≤ F.rnd (ch * tl)
  · obtain ⟨x, y, hxy, -, -, he⟩ := rel_of_stronger (sub_rel F 0 (lit_rel F 0 180) b) azS_ok
    have h1 : (rndB F).sub ((rndB F).lit 180) ((rndB F).degrees (V.fin A)) = V.fin x := congrArg Prod.fst hxy
    have h2 : y = 180 - deg A := by
      have : ((180 : ℚ) : ℝ) - deg A = y := V.fin.inj (congrArg Prod.snd hxy)
      rw [← this]
      norm_num
    refine ⟨x, ?_, .inl ⟨h, ?_⟩⟩
    · refine Eq.trans ?_ h1
      show (rndB F).where_ ((rndB F).le (V.fin t1) ((rndB F).mul (V.fin ch) (V.fin tl))) _ _ = _
      rw [hle, decide_eq_true h]
      rfl
    · rw [← h2]
      refine he.trans (le_of_eq ?_)
      push_cast
      rfl
  · have key : ∀ q : ℚ, q = 0 ∨ q = 1 → ∃ x, (rndB F).add ((rndB F).degrees (V.fin A)) ((rndB F).mul ((rndB F).lit 360) (V.fin q))
        = V.fin x ∧ |x - (deg A + 360 * q)| ≤ 2 / 10 ^ 12 := by
      intro q hq
      have c : (Ball.num q q 0).rel (V.fin (q : ℝ), V.fin (q : ℝ)) := ⟨_, _, rfl, le_rfl, le_rfl, by simp⟩
      have d := add_rel F 0 b (mul_rel F 0 (lit_rel F 0 360) c)
      have fin : ∀ {lo hi : ℚ}, (Ball.num lo hi (2 / 10 ^ 12)).rel ((fxB F 0).add ((fxB F 0).degrees (V.fin A, V.fin A))
          ((fxB F 0).mul ((fxB F 0).lit 360) (V.fin (q : ℝ), V.fin (q : ℝ)))) →
          ∃ x, (rndB F).add ((rndB F).degrees (V.fin A)) ((rndB F).mul ((rndB F).lit 360) (V.fin q))
            = V.fin x ∧ |x - (deg A + 360 * q)| ≤ 2 / 10 ^ 12 := by
        rintro lo hi ⟨x, y, hxy, -, -, he⟩
        refine ⟨x, congrArg Prod.fst hxy, ?_⟩
        have : deg A + ((360 : ℚ) : ℝ) * q = y := V.fin.inj (congrArg Prod.snd hxy)
        rw [show deg A + 360 * (q : ℝ) = y by rw [← this]; norm_num]
        refine he.trans (le_of_eq ?_)
        push_cast
        rfl
      rcases hq with rfl | rfl
      · exact fin (rel_of_stronger d azN0_ok)
      · exact fin (rel_of_stronger d azN1_ok)
    have hW : ∀ q : ℝ, (rndB F).ofC ((rndB F).lt (V.fin A) ((rndB F).lit 0)) = V.fin q →
        fazW (rndB F) (V.fin A) (V.fin t1) (V.fin ch) (V.fin tl)
          = (rndB F).add ((rndB F).degrees (V.fin A)) ((rndB F).mul ((rndB F).lit 360) (V.fin q)) := by
      intro q hq
      rw [← hq]
      show (rndB F).where_ ((rndB F).le (V.fin t1) ((rndB F).mul (V.fin ch) (V.fin tl))) _ _ = _
      rw [hle, decide_eq_false h]
      rfl
    cases hlt : (rndB F).lt (V.fin A) ((rndB F).lit 0) with
    | true =>
      obtain ⟨x, hx, he⟩ := key 1 (.inr rfl)
      refine ⟨x, (hW _ (by rw [hlt]; simp [rndB])).trans hx, .inr ⟨not_le.1 h, 1, ?_⟩⟩
      exact_mod_cast he
    | false =>
      obtain ⟨x, hx, he⟩ := key 0 (.inl rfl)
      refine ⟨x, (hW _ (by rw [hlt]; simp [rndB])).trans hx, .inr ⟨not_le.1 h, 0, ?_⟩⟩
      exact_mod_cast he

/-- The four combinations of the computed and the exact side of the east-west line. -/
theorem azi_cases {A A' az az' N c η δ : ℝ} (hc : 0 < c) (hA1 : |A| ≤ Real.pi / 2)
    (hcosA : c * Real.cos A = |N|)
    (hd : |A' - A| ≤ η) (hδ : 0 ≤ δ) {b : Prop}
    (hex : (N ≤ 0 ∧ az = 180 - deg A) ∨ (0 < N ∧ ∃ k : ℤ, az = deg A + 360 * k))
    (hfl : (b ∧ |az' - (180 - deg A')| ≤ 2 / 10 ^ 12) ∨ (¬ b ∧ ∃ k : ℤ, |az' - (deg A' + 360 * k)| ≤ 2 / 10 ^ 12))
    (hb : (b ↔ N ≤ 0) ∨ |N| ≤ δ) :
    ∃ k : ℤ, |az' - az - 360 * k| ≤ 57.295779513083 * η + 2 / 10 ^ 12 + 180 * (δ / c) := by
  have hp57 := pi57
  have hq0 : 0 ≤ 180 * (δ / c) := by positivity
  set d := deg A' - deg A with hdd
  have hdeg : |d| ≤ 57.295779513083 * η := by
    have : d = (180 / Real.pi) * (A' - A) := by rw [hdd]; unfold deg; ring
    rw [this, abs_mul, abs_of_pos (by linarith [hp57.1] : 0 < 180 / Real.pi)]
    exact mul_le_mul hp57.2.le hd (abs_nonneg _) (by norm_num)
  have hdeg' := abs_le.1 hdeg
  -- close to the east-west line
  have hz : |N| ≤ δ → 90 - |deg A| ≤ 90 * (δ / c) := by
    intro hN
    have hz0 : 0 ≤ Real.pi / 2 - |A| := by linarith
    have h1 := Real.mul_le_sin hz0 (by linarith [abs_nonneg A])
    rw [Real.sin_pi_div_two_sub, Real.cos_abs] at h1
    have h2 : Real.cos A ≤ δ / c := by rw [le_div_iff₀ hc]; linarith
    have h3 : |deg A| = deg |A| := by
      unfold deg
      rw [abs_div, abs_mul, abs_of_pos Real.pi_pos, abs_of_pos (by norm_num : (0 : ℝ) < 180)]
    have h4 : 90 - deg |A| = 90 * (2 / Real.pi * (Real.pi / 2 - |A|)) := by
      unfold deg
      field_simp
      ring
    rw [h3, h4]
    exact mul_le_mul_of_nonneg_left (h1.trans h2) (by norm_num)
  have hA90 : |deg A| ≤ 90 := by
    have h3 : |deg A| = (180 / Real.pi) * |A| := by
      unfold deg
      rw [abs_div, abs_mul, abs_of_pos Real.pi_pos, abs_of_pos (by norm_num : (0 : ℝ) < 180)]
      ring
    rw [h3]
    calc 180 / Real.pi * |A| ≤ 180 / Real.pi * (Real.pi / 2) := mul_le_mul_of_nonneg_left hA1 (by positivity)
      _ = 90 := by field_simp; norm_num
  -- disagreement
  have cross : |N| ≤ δ → ∃ k : ℤ, |deg A' + deg A - 180 - 360 * k| ≤ 57.295779513083 * η + 180 * (δ / c) := by
    intro hN
    have hz := hz hN
    rcases le_total 0 (deg A) with h0 | h0
    · refine ⟨0, ?_⟩
      rw [abs_of_nonneg h0] at hz hA90
      rw [abs_le]
      push_cast
      constructor <;> linarith
    · refine ⟨-1, ?_⟩
      rw [abs_of_nonpos h0] at hz hA90
      rw [abs_le]
      push_cast
      constructor <;> linarith
  rcases hex with ⟨hN, rfl⟩ | ⟨hN, k, rfl⟩ <;> rcases hfl with ⟨hbt, h1⟩ | ⟨hbf, k', h1⟩
  · refine ⟨0, ?_⟩
    have h1' := abs_le.1 h1
    rw [abs_le]
    push_cast
    constructor <;> linarith
  · obtain ⟨j, hj⟩ := cross (hb.resolve_left fun h => hbf (h.2 hN))
    refine ⟨j + k', ?_⟩
    have h1' := abs_le.1 h1
    have hj' := abs_le.1 hj
    rw [abs_le]
    push_cast
    constructor <;> linarith
  · obtain ⟨j, hj⟩ := cross (hb.resolve_left fun h => (not_le.2 hN) (h.1 hbt))
    refine ⟨-j - k, ?_⟩
    have h1' := abs_le.1 h1
    have hj' := abs_le.1 hj
    rw [abs_le]
    push_cast
    constructor <;> linarith
  · refine ⟨k' - k, ?_⟩
    have h1' := abs_le.1 h1
    rw [abs_le]
    push_cast
    constructor <;> linarith

set_option maxHeartbeats 2000000 in
/-- `get_azimuth_fast`, computed: the error is at most 3e-5 degrees divided by the cosine of the altitude. -/
theorem aziF_float (F : F64) {d : DateTime} {c : Civil} (h : UtcFields d c) {lat lon : ℝ} (hlat : |lat| ≤ 89.9)
    (hlon : |lon| ≤ 360) {k : ℝ} (hk : k = Real.cos (Spec.rad (altF lat lon c))) (hk3 : 1 / 1000 ≤ k) (tp : ℝ) :
    ∃ az, get_azimuth_fast (mathB tp) (num lat) (num lon) (.dt d) = .ok (num az) ∧
    ((∃ az', get_azimuth_fast (rndB F) (V.fin lat) (V.fin lon) (.dt d) = .ok (V.fin az') ∧
      ∃ j : ℤ, k * |az' - az - 360 * j| ≤ 3 / 10 ^ 5) ∨
    (get_azimuth_fast (rndB F) (V.fin lat) (V.fin lon) (.dt d) = .error .valueError ∧
      ∃ j : ℤ, k * |az - 90 - 180 * j| ≤ 3 / 10 ^ 5)) := by
  have hl' := abs_le.1 hlat
  have hlat90 : |lat| ≤ 90 := hlat.trans (by norm_num)
  obtain ⟨x, hx, rx⟩ := decF_rel F 0 h.1
  obtain ⟨y, hy, ry⟩ := haF_rel F 0 h hlon
  set dec := decF (yday c.date) with hdec
  set H := haF lon c with hH
  set a := altF lat lon c with ha
  have hk1 : k ≤ 1 := hk ▸ Real.cos_le_one _
  have hk0 : 0 < k := by linarith
  -- the exact direction
  have hu := sunENU_unit lat H dec
  have hae : a = deg (Real.arcsin (sunENU lat H dec).z) := rfl
  have hk2 : k ^ 2 = (sunENU lat H dec).x ^ 2 + (sunENU lat H dec).y ^ 2 := by
    rw [hk, hae, rad_deg, cos_arcsin_z hu, Real.sq_sqrt (by positivity)]
    ring
  have hEx : (sunENU lat H dec).x = -Real.cos (Spec.rad dec) * Real.sin (Spec.rad H) := by
    simp [sunENU, toHorizon, sph]
  have hdb := abs_le.mp (decF_abs (yday c.date))
  rw [← hdec] at hdb
  have hcd : 0 < Real.cos (Spec.rad dec) := cos_rad_pos (by linarith) (by linarith)
  have hcl : 0 < Real.cos (Spec.rad lat) := cos_rad_pos (by norm_num at *; linarith) (by norm_num at *; linarith)
  set E := (sunENU lat H dec).x with hE
  set N := (sunENU lat H dec).y with hN
  have hNe : N = Real.cos (Spec.rad dec) * (Real.cos (Spec.rad lat) * (Real.tan (Spec.rad dec) - Real.cos (Spec.rad H) * Real.tan (Spec.rad lat))) := by
    rw [Real.tan_eq_sin_div_cos, Real.tan_eq_sin_div_cos, hN]
    simp only [sunENU, toHorizon, sph]
    field_simp
    ring
  have hEk : |E| ≤ k := by
    apply abs_le_of_sq_le_sq _ hk0.le
    rw [hk2]
    nlinarith [sq_nonneg N]
  set s := E / k with hs
  have hs1 : |s| ≤ 1 := by
    rw [hs, abs_div, abs_of_pos hk0]
    exact (div_le_one hk0).mpr hEk
  have hs1' := abs_le.1 hs1
  set A := Real.arcsin s with hA
  have hcosA : k * Real.cos A = |N| := by
    have h1 : (k * Real.cos A) ^ 2 = |N| ^ 2 := by
      rw [mul_pow, sq_abs, hA, Real.cos_arcsin, Real.sq_sqrt (by nlinarith), hs]
      field_simp
      linarith
    exact (pow_left_inj₀ (mul_nonneg hk0.le (Real.cos_arcsin_nonneg s)) (abs_nonneg _) (by norm_num)).1 h1
  have hA1 : |A| ≤ Real.pi / 2 := abs_le.2 ⟨Real.neg_pi_div_two_le_arcsin _, Real.arcsin_le_pi_div_two _⟩
  have he := aziF_eval (tp := tp) h lat lon (by rw [← ha, ← hk]; exact hk0.ne')
    (s := s) (by rw [← ha, ← hk, ← hdec, ← hH, hs, hEx]) hs1'
  rw [← hdec, ← hH, tanP_of_ne hcd.ne', tanP_of_ne hcl.ne', ← hA] at he
  set T := Real.tan (Spec.rad dec) with hT
  set CH := Real.cos (Spec.rad H) with hCH
  set TL := Real.tan (Spec.rad lat) with hTL
  have hP : T ≤ CH * TL ↔ N ≤ 0 := by
    rw [hNe]
    constructor
    · intro hle
      have := mul_nonneg hcd.le (mul_nonneg hcl.le (sub_nonneg.2 hle))
      linarith
    · intro hle
      by_contra hc
      push Not at hc
      have := mul_pos hcd (mul_pos hcl (sub_pos.2 hc))
      linarith
  set az := (if T ≤ CH * TL then 180 - deg A else deg A + 360 * if A < 0 then 1 else 0) with haz
  have hex : (N ≤ 0 ∧ az = 180 - deg A) ∨ (0 < N ∧ ∃ k : ℤ, az = deg A + 360 * k) := by
    by_cases hc : T ≤ CH * TL
    · exact .inl ⟨hP.1 hc, if_pos hc⟩
    · refine .inr ⟨not_le.1 fun hn => hc (hP.2 hn), if A < 0 then 1 else 0, ?_⟩
      rw [haz, if_neg hc]
      split_ifs <;> simp
  refine ⟨az, he, ?_⟩
  -- the computed quantities
  have hp180 := pi180
  rcases altF_float F h hlat90 hlon with ⟨a', ha', -, haw⟩ | ⟨-, hbad⟩
  swap
  · exfalso
    have hb := deg_arcsin_bounds (sunENU lat H dec).z
    rw [← hae] at hb
    have h1 : |90 - (|a|)| ≤ 14 / 10 ^ 6 := by
      rw [← ha] at hbad
      have : |a| ≤ 90 := abs_le.2 hb
      rw [abs_of_nonneg (by linarith)]
      linarith
    have h2 : k ≤ 1 / 10 ^ 6 := by
      have h3 : k = Real.sin (Spec.rad (90 - |a|)) := by
        rw [rad_sub, rad_90, Real.sin_pi_div_two_sub, hk]
        rcases abs_choice a with h | h <;> rw [h]
        rw [rad_neg, Real.cos_neg]
      have h4 := abs_sin_le (Spec.rad (90 - |a|))
      rw [← h3] at h4
      have h5 : |Spec.rad (90 - |a|)| ≤ 0.01745329252 * (14 / 10 ^ 6) := by
        unfold Spec.rad
        rw [show (90 - |a|) * Real.pi / 180 = (Real.pi / 180) * (90 - |a|) by ring, abs_mul,
          abs_of_pos (by positivity : 0 < Real.pi / 180)]
        exact mul_le_mul (by norm_num at *; linarith [hp180.2]) h1 (abs_nonneg _) (by norm_num)
      have := (le_abs_self k).trans (h4.trans h5)
      norm_num at this ⊢
      linarith
    norm_num at *
    linarith
  rw [← ha, ← hk] at haw
  obtain ⟨n', hn', hn⟩ := fazN_rel F rx ry
  rw [← hEx] at hn
  have ha90 : |a'| ≤ 91 := by
    have hb := deg_arcsin_bounds (sunENU lat H dec).z
    rw [← hae] at hb
    have h1 : |a' - a| ≤ 1 := by
      have : |a' - a| ≤ 5 / 10 ^ 12 / k := by rw [le_div_iff₀ hk0]; linarith
      refine this.trans ?_
      rw [div_le_one hk0]
      norm_num at *
      linarith
    have h1' := abs_le.1 h1
    rw [abs_le]
    constructor <;> linarith
  have ha90' := abs_le.1 ha90
  obtain ⟨C', hC', hC⟩ := cosD_rel F (b := altIn) (out := cosAltb) (x := a') (x' := a')
    (dup_rel F 0 (by push_cast; linarith) (by push_cast; linarith)) rfl cosAlt_ok
  push_cast at hC
  obtain ⟨t1, ht1, hT1⟩ := tanDec_rel F rx
  obtain ⟨ch, hch, hCh⟩ := cosD_rel F (b := haFb) (out := cosHab) ry rfl cosHa_ok
  push_cast at hCh
  obtain ⟨tl, htl, hTl, hTl2⟩ := tanLat_rel F hlat
  rw [← hT] at hT1
  rw [← hCH] at hCh
  rw [← hTL] at hTl
  -- the cosine of the altitude
  have hCk : |C' - k| ≤ 8.84 / 10 ^ 14 / k := by
    have h1 : |Real.cos (Spec.rad a') - k| ≤ 0.01745329252 * (5 / 10 ^ 12 / k) := by
      rw [hk]
      refine (lip_cos _ _).trans ?_
      rw [← hk, ← rad_sub]
      unfold Spec.rad
      rw [show (a' - a) * Real.pi / 180 = (Real.pi / 180) * (a' - a) by ring, abs_mul,
          abs_of_pos (by positivity : 0 < Real.pi / 180)]
      refine mul_le_mul (by norm_num at *; linarith [hp180.2]) ?_ (abs_nonneg _) (by norm_num)
      rw [le_div_iff₀ hk0]
      linarith
    have h2 : (1 : ℝ) ≤ 1 / k := by rw [le_div_iff₀ hk0]; linarith
    have h3 : C' - k = (C' - Real.cos (Spec.rad a')) + (Real.cos (Spec.rad a') - k) := by ring
    rw [h3]
    refine (abs_add_le _ _).trans ?_
    have h4 : 8.84 / 10 ^ 14 / k = 8.84 / 10 ^ 14 * (1 / k) := by ring
    have h5 : 5 / 10 ^ 12 / k = 5 / 10 ^ 12 * (1 / k) := by ring
    rw [h4]
    rw [h5] at h1
    norm_num at *
    linarith
  have hkk : 8.84 / 10 ^ 14 / k ≤ k / 10 ^ 6 := by
    rw [div_le_div_iff₀ hk0 (by norm_num)]
    have := mul_le_mul hk3 hk3 (by norm_num) hk0.le
    norm_num at this ⊢
    linarith only [this]
  have hCk' := abs_le.1 (hCk.trans hkk)
  have hC0 : k * (1 - 1 / 10 ^ 6) ≤ C' := by linarith
  have hCpos : 0 < C' := lt_of_lt_of_le (by positivity) hC0
  -- the quotient
  set ε := 1.13 / 10 ^ 13 / k ^ 2 with hε
  have hk22 : (1 : ℝ) ≤ 1 / k ^ 2 := by
    rw [le_div_iff₀ (by positivity), one_mul]
    exact pow_le_one₀ hk0.le hk1
  have hq : |n' / C' - s| ≤ 1.12 / 10 ^ 13 / k ^ 2 := by
    have h1 : n' / C' - s = ((n' - E) * k + E * (k - C')) / (k * C') := by
      rw [hs]
      field_simp
      ring
    rw [h1, abs_div, abs_of_pos (mul_pos hk0 hCpos), div_le_iff₀ (mul_pos hk0 hCpos)]
    refine (abs_add_le _ _).trans ?_
    rw [abs_mul, abs_mul, abs_of_pos hk0, abs_sub_comm k]
    calc |n' - E| * k + |E| * |C' - k| ≤ 23 / 10 ^ 15 * k + k * (8.84 / 10 ^ 14 / k) :=
          add_le_add (mul_le_mul_of_nonneg_right hn hk0.le) (mul_le_mul hEk hCk (abs_nonneg _) hk0.le)
      _ = 23 / 10 ^ 15 * k + 8.84 / 10 ^ 14 := by field_simp
      _ ≤ 11.14 / 10 ^ 14 := by norm_num at *; linarith
      _ ≤ 1.12 / 10 ^ 13 * (1 - 1 / 10 ^ 6) := by norm_num
      _ = 1.12 / 10 ^ 13 / k ^ 2 * (k * (k * (1 - 1 / 10 ^ 6))) := by field_simp
      _ ≤ 1.12 / 10 ^ 13 / k ^ 2 * (k * C') := by gcongr
  have hε6 : ε ≤ 1 / 10 ^ 6 := by
    rw [hε, div_le_div_iff₀ (by positivity) (by norm_num)]
    have := pow_le_pow_left₀ (by norm_num) hk3 2
    norm_num at this ⊢
    linarith only [this]
  have hε12 : 1.12 / 10 ^ 13 / k ^ 2 ≤ ε := by rw [hε]; gcongr; norm_num
  have hquo : |n' / C'| ≤ 2 := by
    have := abs_sub_abs_le_abs_sub (n' / C') s
    have := hq.trans (hε12.trans hε6)
    norm_num at *
    linarith
  set q := F.rnd (n' / C') with hqd
  have hdiv : (rndB F).div (V.fin n') (V.fin C') = .ok (V.fin q) := by
    exact (if_neg hCpos.ne').trans (congrArg Except.ok (V.rnd_fin F (hquo.trans (by norm_num))))
  have hqs : |q - s| ≤ ε := by
    have h1 := F.rnd_err (n' / C')
    have h2 : (1 : ℝ) / 2 ^ 1075 ≤ 1 / 2 ^ 110 := by gcongr <;> norm_num
    have h3 : q - s = (q - n' / C') + (n' / C' - s) := by ring
    rw [h3]
    refine (abs_add_le _ _).trans ?_
    have h4 : ε = 1.13 / 10 ^ 13 * (1 / k ^ 2) := by rw [hε]; ring
    have h5 : 1.12 / 10 ^ 13 / k ^ 2 = 1.12 / 10 ^ 13 * (1 / k ^ 2) := by ring
    rw [h5] at hq
    rw [h4]
    have h6 : |q - n' / C'| ≤ 3 / 10 ^ 16 := by
      refine h1.trans ((add_le_add (div_le_div_of_nonneg_right hquo (by norm_num)) h2).trans (by norm_num))
    have h7 : (3 : ℝ) / 10 ^ 16 ≤ 0.01 / 10 ^ 13 * (1 / k ^ 2) := by
      calc (3 : ℝ) / 10 ^ 16 ≤ 0.01 / 10 ^ 13 * 1 := by norm_num
        _ ≤ _ := mul_le_mul_of_nonneg_left hk22 (by norm_num)
    calc |q - n' / C'| + |n' / C' - s| ≤ 0.01 / 10 ^ 13 * (1 / k ^ 2) + 1.12 / 10 ^ 13 * (1 / k ^ 2) :=
          add_le_add (h6.trans h7) hq
      _ = _ := by ring
  have hη0 : 0 ≤ 5 / 10 ^ 7 / k := by positivity
  have hη : 2.1 * ε ≤ (5 / 10 ^ 7 / k) ^ 2 := by
    rw [hε, div_pow, ← mul_div_assoc]
    gcongr
    norm_num
  by_cases hq1 : -1 ≤ q ∧ q ≤ 1
  · left
    have hcl2 := arcsin_close_wide (abs_le.2 hq1) hs1 hqs hε6 hη0 hη
    have hae' := F.asin_err q (abs_le.2 hq1)
    have hAs : (rndB F).asin (V.fin q) = .ok (V.fin (F.asin q)) := if_pos hq1
    have hA' : |F.asin q - A| ≤ 5.0001 / 10 ^ 7 / k := by
      have h3 : F.asin q - A = (F.asin q - Real.arcsin q) + (Real.arcsin q - A) := by ring
      rw [h3]
      refine (abs_add_le _ _).trans ?_
      have h2 : (1 : ℝ) ≤ 1 / k := by rw [le_div_iff₀ hk0]; linarith
      have h4 : (1 : ℝ) / 2 ^ 51 ≤ 0.0001 / 10 ^ 7 * (1 / k) := by
        calc (1 : ℝ) / 2 ^ 51 ≤ 0.0001 / 10 ^ 7 * 1 := by norm_num
          _ ≤ _ := mul_le_mul_of_nonneg_left h2 (by norm_num)
      calc _ ≤ 0.0001 / 10 ^ 7 * (1 / k) + 5 / 10 ^ 7 / k := add_le_add (hae'.trans h4) hcl2
        _ = _ := by ring
    have hA2 : |F.asin q| ≤ 2 := by
      have h1 := Real.arcsin_le_pi_div_two q
      have h2 := Real.neg_pi_div_two_le_arcsin q
      have h3 := Real.pi_lt_d4
      have h4 := abs_le.1 hae'
      rw [abs_le]
      norm_num at *
      constructor <;> linarith
    have hCHl : |CH| ≤ 1 := Real.abs_cos_le_one _
    have hch2 : |ch| ≤ 1.01 := by
      have := abs_sub_abs_le_abs_sub ch CH
      norm_num at *
      linarith
    have hTLm : |tl| ≤ 2 / Real.cos (Spec.rad lat) := by rw [le_div_iff₀ hcl]; linarith
    have hprod : Real.cos (Spec.rad lat) * |ch * tl| ≤ 2.02 := by
      rw [abs_mul]
      calc Real.cos (Spec.rad lat) * (|ch| * |tl|) = |ch| * (Real.cos (Spec.rad lat) * |tl|) := by ring
        _ ≤ 1.01 * 2 := mul_le_mul hch2 hTl2 (by positivity) (by norm_num)
        _ = _ := by norm_num
    have hcl3 : 0.001 ≤ Real.cos (Spec.rad lat) := by
      have h1 : Real.cos (Spec.rad 89.9) ≤ Real.cos (Spec.rad lat) :=
        (cos_rad_le_iff (by norm_num at *; linarith) (by norm_num) (by norm_num)).mpr hlat
      exact (by norm_num : (0.001 : ℝ) ≤ 0.0017).trans (cos899.trans h1)
    have hbig : |ch * tl| ≤ 2 ^ 100 := by
      have : 0.001 * |ch * tl| ≤ 2.02 := (mul_le_mul_of_nonneg_right hcl3 (abs_nonneg _)).trans hprod
      norm_num at *
      linarith
    obtain ⟨az', hw, hcase⟩ := fazW_float F (t1 := t1) hA2 hbig
    refine ⟨az', (faz_split (rndB F) rfl h _ _).trans (bind_of_ok hx (bind_of_ok hy (bind_of_ok ha'
      (bind_of_ok hn' (bind_of_ok hC' (bind_of_ok hdiv (bind_of_ok hAs (bind_of_ok ht1 (bind_of_ok hch
      (bind_of_ok htl (congrArg Except.ok hw)))))))))))  , ?_⟩
    set P := F.rnd (ch * tl) with hPd
    have hPerr : Real.cos (Spec.rad lat) * |P - CH * TL| ≤ 7.2 / 10 ^ 13 := by
      have h1 := F.rnd_err (ch * tl)
      have h2 : (1 : ℝ) / 2 ^ 1075 ≤ 1 / 2 ^ 110 := by gcongr <;> norm_num
      have h3 : P - CH * TL = (P - ch * tl) + ((ch - CH) * tl + CH * (tl - TL)) := by ring
      have h4 : Real.cos (Spec.rad lat) * |P - ch * tl| ≤ 2.02 / 2 ^ 53 + 1 / 2 ^ 110 := by
        calc _ ≤ Real.cos (Spec.rad lat) * (|ch * tl| / 2 ^ 53 + 1 / 2 ^ 1075) :=
              mul_le_mul_of_nonneg_left h1 hcl.le
          _ = Real.cos (Spec.rad lat) * |ch * tl| / 2 ^ 53 + Real.cos (Spec.rad lat) * (1 / 2 ^ 1075) := by
              rw [mul_add, mul_div_assoc]
          _ ≤ 2.02 / 2 ^ 53 + 1 * (1 / 2 ^ 110) :=
              add_le_add (div_le_div_of_nonneg_right hprod (by norm_num))
                (mul_le_mul (Real.cos_le_one _) h2 (by positivity) (by norm_num))
          _ = _ := by ring
      have h5 : Real.cos (Spec.rad lat) * |(ch - CH) * tl| ≤ 20 / 10 ^ 15 * 2 := by
        rw [abs_mul]
        calc _ = |ch - CH| * (Real.cos (Spec.rad lat) * |tl|) := by ring
          _ ≤ _ := mul_le_mul hCh hTl2 (by positivity) (by norm_num)
      have h6 : Real.cos (Spec.rad lat) * |CH * (tl - TL)| ≤ 6.5 / 10 ^ 13 := by
        rw [abs_mul]
        calc _ = |CH| * (Real.cos (Spec.rad lat) * |tl - TL|) := by ring
          _ ≤ 1 * (6.5 / 10 ^ 13) := mul_le_mul hCHl hTl (by positivity) (by norm_num)
          _ = _ := one_mul _
      calc Real.cos (Spec.rad lat) * |P - CH * TL|
          ≤ Real.cos (Spec.rad lat) * (|P - ch * tl| + (|(ch - CH) * tl| + |CH * (tl - TL)|)) := by
            refine mul_le_mul_of_nonneg_left ?_ hcl.le
            rw [h3]
            exact (abs_add_le _ _).trans (add_le_add le_rfl (abs_add_le _ _))
        _ = Real.cos (Spec.rad lat) * |P - ch * tl| + (Real.cos (Spec.rad lat) * |(ch - CH) * tl|
            + Real.cos (Spec.rad lat) * |CH * (tl - TL)|) := by ring
        _ ≤ (2.02 / 2 ^ 53 + 1 / 2 ^ 110) + (20 / 10 ^ 15 * 2 + 6.5 / 10 ^ 13) := add_le_add h4 (add_le_add h5 h6)
        _ ≤ _ := by norm_num
    have hb : ((t1 ≤ P) ↔ N ≤ 0) ∨ |N| ≤ 8 / 10 ^ 13 := by
      by_contra hc
      push Not at hc
      obtain ⟨hne, hbig⟩ := hc
      have hsmall : |T - CH * TL| ≤ |t1 - T| + |P - CH * TL| := by
        have hA3 := abs_le.1 (le_refl |t1 - T|)
        have hA4 := abs_le.1 (le_refl |P - CH * TL|)
        by_cases hN0 : N ≤ 0
        · have h1 := hP.2 hN0
          have h2 : ¬ t1 ≤ P := fun h => hne.elim (fun g => absurd hN0 (not_le.2 g.2)) (fun g => absurd h (not_le.2 g.1))
          push Not at h2
          rw [abs_of_nonpos (by linarith)]
          linarith
        · have h1 : ¬ T ≤ CH * TL := fun h => hN0 (hP.1 h)
          have h2 : t1 ≤ P := hne.elim (fun g => g.1) (fun g => absurd g.2 hN0)
          push Not at h1
          rw [abs_of_nonneg (by linarith)]
          linarith
      have h1 : |N| ≤ Real.cos (Spec.rad lat) * |T - CH * TL| := by
        rw [hNe, abs_mul, abs_mul, abs_of_pos hcd, abs_of_pos hcl]
        exact mul_le_of_le_one_left (by positivity) (Real.cos_le_one _)
      have h2 : Real.cos (Spec.rad lat) * |t1 - T| ≤ 11 / 10 ^ 15 :=
        (mul_le_of_le_one_left (abs_nonneg _) (Real.cos_le_one _)).trans hT1
      have h3 := mul_le_mul_of_nonneg_left hsmall hcl.le
      rw [mul_add] at h3
      norm_num at *
      linarith
    obtain ⟨j, hj⟩ := azi_cases (b := t1 ≤ P) (δ := 8 / 10 ^ 13) hk0 hA1 hcosA hA' (by norm_num) hex
      (hcase.imp id (fun g => ⟨not_le.2 g.1, g.2⟩)) hb
    refine ⟨j, (mul_le_mul_of_nonneg_left hj hk0.le).trans ?_⟩
    have : k * (57.295779513083 * (5.0001 / 10 ^ 7 / k) + 2 / 10 ^ 12 + 180 * (8 / 10 ^ 13 / k))
        = 57.295779513083 * (5.0001 / 10 ^ 7) + k * (2 / 10 ^ 12) + 180 * (8 / 10 ^ 13) := by field_simp
    rw [this]
    norm_num at *
    linarith
  · right
    have hAs : (rndB F).asin (V.fin q) = .error .valueError := if_neg hq1
    refine ⟨(faz_split (rndB F) rfl h _ _).trans (bind_of_ok hx (bind_of_ok hy (bind_of_ok ha'
      (bind_of_ok hn' (bind_of_ok hC' (bind_of_ok hdiv (bind_of_error hAs))))))), ?_⟩
    have hqs' := abs_le.1 hqs
    have key : ∃ σ : ℤ, (σ = 0 ∨ σ = -1) ∧ |A - (Real.pi / 2 + σ * Real.pi)| ≤ 5 / 10 ^ 7 / k := by
      rcases not_and_or.1 hq1 with hc | hc
      · push Not at hc
        refine ⟨-1, .inr rfl, ?_⟩
        have h1 := arcsin_close_wide (a := s) (b := -1) hs1 (by norm_num) (by rw [abs_le]; constructor <;> linarith)
          hε6 hη0 hη
        rw [Real.arcsin_neg_one] at h1
        push_cast
        rw [show Real.pi / 2 + -1 * Real.pi = -(Real.pi / 2) by ring]
        exact h1
      · push Not at hc
        refine ⟨0, .inl rfl, ?_⟩
        have h1 := arcsin_close_wide (a := s) (b := 1) hs1 (by norm_num) (by rw [abs_le]; constructor <;> linarith)
          hε6 hη0 hη
        rw [Real.arcsin_one] at h1
        push_cast
        rw [zero_mul, add_zero]
        exact h1
    obtain ⟨σ, hσ, hAσ⟩ := key
    have hp57 := pi57
    have hdA : |deg A - (90 + 180 * σ)| ≤ 57.295779513083 * (5 / 10 ^ 7 / k) := by
      have : deg A - (90 + 180 * σ) = (180 / Real.pi) * (A - (Real.pi / 2 + σ * Real.pi)) := by
        unfold deg
        field_simp
        ring
      rw [this, abs_mul, abs_of_pos (by linarith [hp57.1] : 0 < 180 / Real.pi)]
      exact mul_le_mul hp57.2.le hAσ (abs_nonneg _) (by norm_num)
    have hfin : k * (57.295779513083 * (5 / 10 ^ 7 / k)) ≤ 3 / 10 ^ 5 := by
      have : k * (57.295779513083 * (5 / 10 ^ 7 / k)) = 57.295779513083 * (5 / 10 ^ 7) := by field_simp
      rw [this]
      norm_num
    rcases hex with ⟨-, e⟩ | ⟨-, m, e⟩
    · refine ⟨-σ, (mul_le_mul_of_nonneg_left ?_ hk0.le).trans hfin⟩
      rw [e]
      push_cast
      rw [show 180 - deg A - 90 - 180 * -(σ : ℝ) = -(deg A - (90 + 180 * σ)) by ring, abs_neg]
      exact hdA
    · refine ⟨σ + 2 * m, (mul_le_mul_of_nonneg_left ?_ hk0.le).trans hfin⟩
      rw [e]
      push_cast
      rw [show deg A + 360 * (m : ℝ) - 90 - 180 * ((σ : ℝ) + 2 * m) = deg A - (90 + 180 * σ) by ring]
      exact hdA

end Chain

end Verif
