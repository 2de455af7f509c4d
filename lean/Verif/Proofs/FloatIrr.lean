import Verif.Proofs.FloatRad
import Verif.Props.IrradianceFormulas

/-!
# The irradiance functions of util.py in floating-point arithmetic
-/

namespace Verif

open Verif.Spec Verif.Props Pysolar Pysolar.Util Pysolar.Constants Pysolar.Numeric

namespace Chain

open Ball hiding deg rad num

/-! ## From a ball to a pair of results -/

theorem ball_unary {f : ∀ B : Backend, B.α → Py B.α}
    (hf : ∀ {B B' : Backend} (S : Sim B B') {x x'}, S.r x x' → RelM S.strict S.r (f B x) (f B' x'))
    {a : Ball} {lo hi e : ℚ} (hin : inside (f B a) (.num lo hi e) = true) (F : F64) (tp : ℝ) {x' x : ℝ}
    (hx : a.rel (V.fin x', V.fin x)) :
    ∃ y' y, f (rndB F) (V.fin x') = .ok (V.fin y') ∧ f (mathB tp) (num x) = .ok (num y) ∧
      (Ball.num lo hi e).rel (V.fin y', V.fin y) := by
  obtain ⟨p, hp, hr⟩ := ok_of_inside (hf (ballSim F tp).toSim (x := a) (x' := (V.fin x', V.fin x)) hx) hin
  obtain ⟨y', y, rfl, h1, h2, h3⟩ := hr
  obtain ⟨u, hu, hur⟩ := RelM.of_ok (hf (pairFst (rndB F) (mathB tp) rfl).toSim (x := (V.fin x', V.fin x))
    (x' := V.fin x') rfl) hp
  obtain ⟨v, hv, hvr⟩ := RelM.of_ok (hf (pairSnd (rndB F) (mathB tp) rfl).toSim (x := (V.fin x', V.fin x))
    (x' := num x) rfl) hp
  exact ⟨y', y, hu.trans (congrArg Except.ok hur.symm), hv.trans (congrArg Except.ok hvr.symm), y', y, rfl, h1, h2, h3⟩

theorem ball_binary {f : ∀ B : Backend, B.α → B.α → Py B.α}
    (hf : ∀ {B B' : Backend} (S : Sim B B') {x x'}, S.r x x' → ∀ {y y'}, S.r y y' → 
      RelM S.strict S.r (f B x y) (f B' x' y'))
    {a b : Ball} {lo hi e : ℚ} (hin : inside (f B a b) (.num lo hi e) = true) (F : F64) (tp : ℝ) {x' x y' y : ℝ}
    (hx : a.rel (V.fin x', V.fin x)) (hy : b.rel (V.fin y', V.fin y)) :
    ∃ r' r, f (rndB F) (V.fin x') (V.fin y') = .ok (V.fin r') ∧ f (mathB tp) (num x) (num y) = .ok (num r) ∧
      (Ball.num lo hi e).rel (V.fin r', V.fin r) := by
  obtain ⟨p, hp, hr⟩ := ok_of_inside (hf (ballSim F tp).toSim (x := a) (x' := (V.fin x', V.fin x)) hx
    (y := b) (y' := (V.fin y', V.fin y)) hy) hin
  obtain ⟨r', r, rfl, h1, h2, h3⟩ := hr
  obtain ⟨u, hu, hur⟩ := RelM.of_ok (hf (pairFst (rndB F) (mathB tp) rfl).toSim (x := (V.fin x', V.fin x))
    (x' := V.fin x') rfl (y := (V.fin y', V.fin y)) (y' := V.fin y') rfl) hp
  obtain ⟨v, hv, hvr⟩ := RelM.of_ok (hf (pairSnd (rndB F) (mathB tp) rfl).toSim (x := (V.fin x', V.fin x))
    (x' := num x) rfl (y := (V.fin y', V.fin y)) (y' := num y) rfl) hp
  exact ⟨r', r, hu.trans (congrArg Except.ok hur.symm), hv.trans (congrArg Except.ok hvr.symm), r', r, rfl, h1, h2, h3⟩

theorem ball_ternary {f : ∀ B : Backend, B.α → B.α → B.α → Py B.α}
    (hf : ∀ {B B' : Backend} (S : Sim B B') {x x'}, S.r x x' → ∀ {y y'}, S.r y y' → ∀ {z z'}, S.r z z' →
      RelM S.strict S.r (f B x y z) (f B' x' y' z'))
    {a b c : Ball} {lo hi e : ℚ} (hin : inside (f B a b c) (.num lo hi e) = true) (F : F64) (tp : ℝ)
    {x' x y' y z' z : ℝ}
    (hx : a.rel (V.fin x', V.fin x)) (hy : b.rel (V.fin y', V.fin y)) (hz : c.rel (V.fin z', V.fin z)) :
    ∃ r' r, f (rndB F) (V.fin x') (V.fin y') (V.fin z') = .ok (V.fin r') ∧
      f (mathB tp) (num x) (num y) (num z) = .ok (num r) ∧ (Ball.num lo hi e).rel (V.fin r', V.fin r) := by
  obtain ⟨p, hp, hr⟩ := ok_of_inside (hf (ballSim F tp).toSim (x := a) (x' := (V.fin x', V.fin x)) hx
    (y := b) (y' := (V.fin y', V.fin y)) hy (z := c) (z' := (V.fin z', V.fin z)) hz) hin
  obtain ⟨r', r, rfl, h1, h2, h3⟩ := hr
  obtain ⟨u, hu, hur⟩ := RelM.of_ok (hf (pairFst (rndB F) (mathB tp) rfl).toSim (x := (V.fin x', V.fin x))
    (x' := V.fin x') rfl (y := (V.fin y', V.fin y)) (y' := V.fin y') rfl (z := (V.fin z', V.fin z))
    (z' := V.fin z') rfl) hp
  obtain ⟨v, hv, hvr⟩ := RelM.of_ok (hf (pairSnd (rndB F) (mathB tp) rfl).toSim (x := (V.fin x', V.fin x))
    (x' := num x) rfl (y := (V.fin y', V.fin y)) (y' := num y) rfl (z := (V.fin z', V.fin z)) (z' := num z) rfl) hp
  exact ⟨r', r, hu.trans (congrArg Except.ok hur.symm), hv.trans (congrArg Except.ok hvr.symm), r', r, rfl, h1, h2, h3⟩

/-! ## Steps of the functions -/

/-- The value of `mean_earth_sun_distance` by day. -/
def kdOf (B : Backend) (day : B.α) : Py B.α := do
  return 1 - 0.0335 * (← B.sin (2 * B.pi * (day - 94))) /. 365

/-- The value of `declination_degree` by day and length of the year. -/
def ddOf (B : Backend) (day TY : B.α) : Py B.α := do
  return B.lit earth_axis_inclination * (← B.sin ((← B.div (2 * B.pi) TY) * (day - 81)))

/-- The factor for the distance of the sun in `extraterrestrial_irrad`. -/
def facOf (B : Backend) (day : B.α) : Py B.α := do
  let ab ← B.cos (2 * B.pi * (day - 1.0) /. 365.0)
  let bc ← B.sin (2 * B.pi * (day - 1.0) /. 365.0)
  let cd ← B.cos (2 * (2 * B.pi * (day - 1.0) /. 365.0))
  let df ← B.sin (2 * (2 * B.pi * (day - 1.0) /. 365.0))
  return 1.00010 + 0.034221 * ab + 0.001280 * bc + 0.000719 * cd + 0.000077 * df

/-- The sine of the altitude in `extraterrestrial_irrad`. -/
def zaOf (B : Backend) (lat dec ha : B.α) : Py B.α := do
  return (← B.sin (B.radians lat)) * (← B.sin (B.radians dec))
    + (← B.cos (B.radians lat)) * (← B.cos (B.radians dec)) * (← B.cos (B.radians ha))

def prodOf (B : Backend) (SC za fac : B.α) : Py B.α := do return SC * za * fac

/-- The solar elevation functions, by altitude. -/
def elevC (B : Backend) (altitude : B.α) : Py B.α := do
  return 0.038175 + (1.5458 * (← B.sin altitude)) + ((-0.59980) * (0.5 * (1 - (← B.cos (2 * altitude)))))
def elevO (B : Backend) (altitude : B.α) : Py B.α := do
  return ((-0.0067133) + (0.78600 * (← B.sin altitude))) + (0.22401 * (0.5 * (1 - (← B.cos (2 * altitude)))))

/-- The diffuse irradiance by distance factor, turbidity and altitude. -/
def diffOf (B : Backend) (kd TL altitude : B.α) : Py B.α := do
  let DT := (-21.657) + (41.752 * TL) + (0.51905 * TL * TL)
  return kd * DT * altitude

def overOf (B : Backend) (altitude : B.α) : Py B.α := do return 572 * altitude

/-- The exponent in `direct_underclear`. -/
def expoOf (B : Backend) (AM TL DEC : B.α) : Py B.α := do return -0.8662 * AM * TL * DEC

def scaleOf (B : Backend) (KD : B.α) : Py B.α := do return 1367 * KD

theorem kdOf_sim {B B' : Backend} (S : Sim B B') {x x'} (hx : S.r x x') :
    RelM S.strict S.r (kdOf B x) (kdOf B' x') := by
  unfold kdOf
  sim

theorem ddOf_sim {B B' : Backend} (S : Sim B B') {x x'} (hx : S.r x x') {y y'} (hy : S.r y y') :
    RelM S.strict S.r (ddOf B x y) (ddOf B' x' y') := by
  unfold ddOf
  sim

theorem facOf_sim {B B' : Backend} (S : Sim B B') {x x'} (hx : S.r x x') :
    RelM S.strict S.r (facOf B x) (facOf B' x') := by
  unfold facOf
  sim

theorem zaOf_sim {B B' : Backend} (S : Sim B B') {x x'} (hx : S.r x x') {y y'} (hy : S.r y y') {z z'} (hz : S.r z z') :
    RelM S.strict S.r (zaOf B x y z) (zaOf B' x' y' z') := by
  unfold zaOf
  sim

theorem prodOf_sim {B B' : Backend} (S : Sim B B') {x x'} (hx : S.r x x') {y y'} (hy : S.r y y') {z z'} (hz : S.r z z') :
    RelM S.strict S.r (prodOf B x y z) (prodOf B' x' y' z') := by
  unfold prodOf
  sim

theorem elevC_sim {B B' : Backend} (S : Sim B B') {x x'} (hx : S.r x x') :
    RelM S.strict S.r (elevC B x) (elevC B' x') := by
  unfold elevC
  sim

theorem elevO_sim {B B' : Backend} (S : Sim B B') {x x'} (hx : S.r x x') :
    RelM S.strict S.r (elevO B x) (elevO B' x') := by
  unfold elevO
  sim

theorem diffOf_sim {B B' : Backend} (S : Sim B B') {x x'} (hx : S.r x x') {y y'} (hy : S.r y y') {z z'} (hz : S.r z z') :
    RelM S.strict S.r (diffOf B x y z) (diffOf B' x' y' z') := by
  unfold diffOf
  sim

theorem overOf_sim {B B' : Backend} (S : Sim B B') {x x'} (hx : S.r x x') :
    RelM S.strict S.r (overOf B x) (overOf B' x') := by
  unfold overOf
  sim

theorem expoOf_sim {B B' : Backend} (S : Sim B B') {x x'} (hx : S.r x x') {y y'} (hy : S.r y y') {z z'} (hz : S.r z z') :
    RelM S.strict S.r (expoOf B x y z) (expoOf B' x' y' z') := by
  unfold expoOf
  sim

theorem scaleOf_sim {B B' : Backend} (S : Sim B B') {x x'} (hx : S.r x x') :
    RelM S.strict S.r (scaleOf B x) (scaleOf B' x') := by
  unfold scaleOf
  sim

/-- An altitude computed with an error of 2e-5 degrees. -/
def altE : Ball := .num (-95) 95 (2 / 10 ^ 5)
def scB : Ball := .num 0 2000 0
def yearB : Ball := .num 360 366 0
def turbB : Ball := .num 0 10 0
def oneB : Ball := .num 1 1 0
def amB : Ball := .num (-40) 40 0
def tlB : Ball := .num (-20) 20 0
def kdb : Ball := .num (99 / 100) (101 / 100) (2 / 10 ^ 16)
def ddb : Ball := .num (-24) 24 (8 / 10 ^ 14)
def facb : Ball := .num (9 / 10) (11 / 10) (1 / 10 ^ 15)
def zab : Ball := .num (-2) 2 (28 / 10 ^ 15)

theorem kd_ok : inside (kdOf B ydayB) kdb = true := by decide +kernel
theorem dd_ok : inside (ddOf B ydayB yearB) ddb = true := by decide +kernel
theorem fac_ok : inside (facOf B ydayB) facb = true := by decide +kernel
theorem za_ok : inside (zaOf B latIn decFb haFb) zab = true := by decide +kernel
theorem prod_ok : inside (prodOf B scB zab facb) (.num (-4401) 4401 (7 / 10 ^ 11)) = true := by decide +kernel
theorem elevC_ok : inside (elevC B altE) (.num (-3) 3 (44 / 10 ^ 6)) = true := by decide +kernel
theorem elevO_ok : inside (elevO B altE) (.num (-2) 2 (21 / 10 ^ 6)) = true := by decide +kernel
theorem diff_ok : inside (diffOf B kdb turbB altE) (.num (-42964) 42964 (91 / 10 ^ 4)) = true := by decide +kernel
theorem diff1_ok : inside (diffOf B kdb oneB altE) (.num (-1978) 1978 (42 / 10 ^ 5)) = true := by decide +kernel
theorem over_ok : inside (overOf B altE) (.num (-54340) 54340 (115 / 10 ^ 4)) = true := by decide +kernel
theorem expo_ok : inside (expoOf B amB tlB ddb) (.num (-16633) 16633 (1 / 10 ^ 10)) = true := by decide +kernel
theorem scale_ok : inside (scaleOf B kdb) (.num 1353 1381 (1 / 10 ^ 12)) = true := by decide +kernel

/-! ## The functions in steps -/

theorem utcYday_eq (B : Backend) {d : DateTime} {c : Civil} (h : UtcFields d c) :
    utcYday (B := B) (.dt d) = .ok (B.lit (yday c.date)) := by
  simp [utcYday, utctimetuple_dt, utctimetuple_of_utcFields h]

theorem kd_split (B : Backend) {d : DateTime} {c : Civil} (h : UtcFields d c) :
    mean_earth_sun_distance B (.dt d) = kdOf B (B.lit (yday c.date)) := by
  unfold mean_earth_sun_distance
  rw [guard_denotes h.2, utcYday_eq B h]
  rfl

theorem dd_split (B : Backend) {d : DateTime} {c : Civil} (h : UtcFields d c) (TY : B.α) :
    declination_degree B (.dt d) TY = ddOf B (B.lit (yday c.date)) TY := by
  unfold declination_degree
  rw [guard_denotes h.2, utcYday_eq B h]
  rfl

theorem extra_split (B : Backend) {d : DateTime} {c : Civil} (h : UtcFields d c) (x y SC : B.α) :
    extraterrestrial_irrad B x y (.dt d) SC
      = facOf B (B.lit (yday c.date)) >>= fun fac => Solar.get_declination B (B.lit (yday c.date)) >>= fun dec =>
        Solar.get_hour_angle B (.dt d) y >>= fun ha => zaOf B x dec ha >>= fun za =>
        B.truth (B.lt (B.lit 0) za) >>= fun t => if t = true then prodOf B SC za fac else .ok (B.lit 0.0) := by
  unfold extraterrestrial_irrad facOf
  rw [guard_denotes h.2, utcYday_eq B h]
  simp only [ok_bind, bind_assoc, pure_bind]
  congr 1; funext ab
  congr 1; funext bc
  congr 1; funext cd
  congr 1; funext df
  congr 1; funext dec
  congr 1; funext ha
  unfold zaOf
  simp only [bind_assoc, pure_bind]
  rfl

theorem lit_fin (F : F64) (n : ℤ) (h : |n| ≤ 2 ^ 53) : (rndB F).lit n = V.fin (n : ℝ) := by
  show V.fin _ = _
  rw [show (((n : ℤ) : ℚ) : ℝ) = ((n : ℤ) : ℝ) by push_cast; rfl, F.rnd_int n h]

theorem yday_ball (F : F64) {c : Civil} (h : c.Valid) :
    (rndB F).lit (yday c.date) = V.fin (yday c.date : ℝ) ∧ ydayB.rel (V.fin (yday c.date : ℝ), V.fin (yday c.date : ℝ)) := by
  have hy := yday_le h
  refine ⟨lit_fin F _ (by rw [abs_le]; constructor <;> norm_num <;> omega), _, _, rfl, ?_, ?_, by simp⟩
  · have := hy.1
    exact_mod_cast this
  · have := hy.2
    exact_mod_cast this

theorem math_lit_int (tp : ℝ) (n : ℤ) : (mathB tp).lit n = num (n : ℝ) := by
  rw [m_lit]
  push_cast
  rfl

theorem kd_float (F : F64) (tp : ℝ) {d : DateTime} {c : Civil} (h : UtcFields d c) :
    ∃ x', mean_earth_sun_distance (rndB F) (.dt d) = .ok (V.fin x') ∧ kdb.rel (V.fin x', V.fin 1) := by
  obtain ⟨e, r⟩ := yday_ball F h.1
  obtain ⟨x', x, h1, h2, h3⟩ := ball_unary kdOf_sim kd_ok F tp r
  have e1 := C43_constant_partial tp d c h
  rw [kd_split, math_lit_int] at e1
  · rw [num_injective (Except.ok.inj (h2.symm.trans e1))] at h3
    refine ⟨x', ?_, h3⟩
    rw [← e, ← kd_split _ h] at h1
    exact h1
  · exact h

theorem dd_float (F : F64) (tp : ℝ) {d : DateTime} {c : Civil} (h : UtcFields d c) {TY : ℝ} (h1 : 360 ≤ TY) (h2 : TY ≤ 366) :
    ∃ x' x, declination_degree (rndB F) (.dt d) (V.fin TY) = .ok (V.fin x') ∧
      declination_degree (mathB tp) (.dt d) (num TY) = .ok (num x) ∧ ddb.rel (V.fin x', V.fin x) := by
  obtain ⟨e, r⟩ := yday_ball F h.1
  obtain ⟨x', x, g1, g2, g3⟩ := ball_binary ddOf_sim dd_ok F tp r (y' := TY) (y := TY)
    ⟨_, _, rfl, by push_cast; exact h1, by push_cast; exact h2, by simp⟩
  refine ⟨x', x, ?_, ?_, g3⟩
  · rw [← e] at g1
    exact (dd_split (rndB F) h _).trans g1
  · rw [dd_split _ h, math_lit_int]
    exact g2

theorem rnd_nonneg (F : F64) {x : ℝ} (h : 0 ≤ x) : 0 ≤ F.rnd x := (rnd_zero F).symm.le.trans (F.rnd_mono h)
theorem rnd_nonpos (F : F64) {x : ℝ} (h : x ≤ 0) : F.rnd x ≤ 0 := (F.rnd_mono h).trans (rnd_zero F).le

theorem za_float (F : F64) {lat x x' y y' : ℝ} (hl : |lat| ≤ 90) (hx : decFb.rel (V.fin x', V.fin x))
    (hy : haFb.rel (V.fin y', V.fin y)) :
    ∃ z', zaOf (rndB F) (V.fin lat) (V.fin x') (V.fin y') = .ok (V.fin z') ∧
      zab.rel (V.fin z', V.fin (sunENU lat y x).z) := by
  have hl' := abs_le.1 hl
  obtain ⟨z', z, h1, h2, h3⟩ := ball_ternary zaOf_sim za_ok F 0 (x' := lat) (x := lat)
    ⟨_, _, rfl, by push_cast; linarith, by push_cast; linarith, by simp⟩ hx hy
  have e : zaOf (mathB 0) (num lat) (num x) (num y) = .ok (num (sunENU lat y x).z) := by
    rw [← up_eq]
    simp only [zaOf, m_radians, m_cos, m_sin, m_mul, m_add, ok_bind, pure_eq_ok]
  rw [num_injective (Except.ok.inj (h2.symm.trans e))] at h3
  exact ⟨z', h1, h3⟩

theorem fac_float (F : F64) {c : Civil} (h : c.Valid) :
    ∃ f', facOf (rndB F) ((rndB F).lit (yday c.date)) = .ok (V.fin f') ∧ facb.rel (V.fin f', V.fin (eccF (yday c.date))) := by
  obtain ⟨e, r⟩ := yday_ball F h
  obtain ⟨f', f, h1, h2, h3⟩ := ball_unary facOf_sim fac_ok F 0 r
  have e1 : facOf (mathB 0) (num (yday c.date)) = .ok (num (eccF (yday c.date))) := by
    have h1 : ((365.0 : ℚ) : ℝ) = 365 := by norm_num
    simp only [facOf, m_ofNat, m_sci, m_pi, m_mul, m_sub, m_divq, m_cos, m_sin, m_add, ok_bind, pure_eq_ok, eccF, h1]
    norm_num
  rw [num_injective (Except.ok.inj (h2.symm.trans e1))] at h3
  rw [← e] at h1
  exact ⟨f', h1, h3⟩

/-- `extraterrestrial_irrad`. -/
theorem extra_float (F : F64) (tp : ℝ) {d : DateTime} {c : Civil} (h : UtcFields d c) {lat lon SC : ℝ} (hl : |lat| ≤ 90)
    (hlon : |lon| ≤ 360) (h1 : 0 ≤ SC) (h2 : SC ≤ 2000) :
    ∃ r r', extraterrestrial_irrad (mathB tp) (num lat) (num lon) (.dt d) (num SC) = .ok (num r) ∧
      extraterrestrial_irrad (rndB F) (V.fin lat) (V.fin lon) (.dt d) (V.fin SC) = .ok (V.fin r') ∧
      |r' - r| ≤ 7 / 10 ^ 11 ∧ 0 ≤ r' ∧ ((sunENU lat (haF lon c) (decF (yday c.date))).z ≤ -28 / 10 ^ 15 → r' = 0) := by
  obtain ⟨dec', hdec, rdec⟩ := decF_rel F 0 h.1
  obtain ⟨ha', hha, rha⟩ := haF_rel F 0 h hlon
  obtain ⟨z', hz, rz⟩ := za_float F hl rdec rha
  obtain ⟨f', hf, rf⟩ := fac_float F h.1
  obtain ⟨p', p, hp, hpe, _, _, ep, -, -, hpp⟩ := ball_ternary prodOf_sim prod_ok F 0 (x' := SC) (x := SC)
    ⟨_, _, rfl, by push_cast; exact h1, by push_cast; exact h2, by simp⟩ rz rf
  cases ep
  set z := (sunENU lat (haF lon c) (decF (yday c.date))).z with hzd
  have he : p = SC * z * eccF (yday c.date) := by
    refine num_injective (Except.ok.inj (hpe.symm.trans ?_))
    simp only [prodOf, m_mul, pure_eq_ok]
  have hb := eccF_bounds (yday c.date)
  obtain ⟨_, _, ef, -, -, hff⟩ := rf
  cases ef
  obtain ⟨_, _, ez, hz1, hz2, hzz⟩ := rz
  cases ez
  push_cast at hff hzz hpp hz1 hz2
  have hff' := abs_le.1 hff
  have hzz' := abs_le.1 hzz
  have hf0 : 0 ≤ f' := by
    have := hb.1
    norm_num at *
    linarith
  have hf2 : f' ≤ 2 := by
    have := hb.2
    norm_num at *
    linarith
  -- the computed product
  have hSz : |SC * z'| ≤ 6000 := by
    rw [abs_mul, abs_of_nonneg h1]
    have : |z'| ≤ 3 := by rw [abs_le]; constructor <;> norm_num at * <;> linarith
    calc SC * |z'| ≤ 2000 * 3 := mul_le_mul h2 this (abs_nonneg _) (by norm_num)
      _ = _ := by norm_num
  have hS2 : |F.rnd (SC * z')| ≤ 7000 := by
    refine (F.rnd_abs _ hSz).trans ?_
    have := tiny_le
    norm_num at *
    linarith
  have hpv : p' = F.rnd (F.rnd (SC * z') * f') := by
    have e1 : (rndB F).mul (V.fin SC) (V.fin z') = V.fin (F.rnd (SC * z')) := V.rnd_fin F (hSz.trans (by norm_num))
    have e2 : (rndB F).mul (V.fin (F.rnd (SC * z'))) (V.fin f') = V.fin (F.rnd (F.rnd (SC * z') * f')) := by
      refine V.rnd_fin F ?_
      rw [abs_mul, abs_of_nonneg hf0]
      calc |F.rnd (SC * z')| * f' ≤ 7000 * 2 := mul_le_mul hS2 hf2 hf0 (by norm_num)
        _ ≤ _ := by norm_num
    have e3 : prodOf (rndB F) (V.fin SC) (V.fin z') (V.fin f') = .ok (V.fin (F.rnd (F.rnd (SC * z') * f'))) :=
      congrArg Except.ok ((congrArg (fun u => (rndB F).mul u (V.fin f')) e1).trans e2)
    have := Except.ok.inj (hp.symm.trans e3)
    injection this
  have hpos : 0 ≤ z' → 0 ≤ p' := fun g => by
    rw [hpv]
    exact rnd_nonneg F (mul_nonneg (rnd_nonneg F (mul_nonneg h1 g)) hf0)
  have hneg : z' ≤ 0 → p' ≤ 0 := fun g => by
    rw [hpv]
    exact rnd_nonpos F (mul_nonpos_of_nonpos_of_nonneg (rnd_nonpos F (mul_nonpos_of_nonneg_of_nonpos h1 g)) hf0)
  have hepos : 0 ≤ z → 0 ≤ p := fun g => by
    rw [he]
    exact mul_nonneg (mul_nonneg h1 g) (by have := hb.1; norm_num at this; linarith)
  have heneg : z ≤ 0 → p ≤ 0 := fun g => by
    rw [he]
    exact mul_nonpos_of_nonpos_of_nonneg (mul_nonpos_of_nonneg_of_nonpos h1 g)
      (by have := hb.1; norm_num at this; linarith)
  have h00 : (rndB F).lit 0.0 = V.fin 0 := by
    show V.fin (F.rnd ((0.0 : ℚ) : ℝ)) = _
    rw [show (0.0 : ℚ) = 0 by norm_num, lit_zero]
  have hfl : extraterrestrial_irrad (rndB F) (V.fin lat) (V.fin lon) (.dt d) (V.fin SC)
      = .ok (V.fin (if 0 < z' then p' else 0)) := by
    refine (extra_split (rndB F) h _ _ _).trans (bind_of_ok hf (bind_of_ok hdec (bind_of_ok hha (bind_of_ok hz ?_))))
    have ht : (rndB F).truth ((rndB F).lt ((rndB F).lit 0) (V.fin z')) = .ok (decide (0 < z')) := by
      show Except.ok (decide (F.rnd ((0 : ℚ) : ℝ) < z')) = _
      rw [lit_zero]
    refine bind_of_ok ht ?_
    by_cases g : 0 < z'
    · rw [if_pos g]
      refine (if_pos (decide_eq_true g)).trans hp
    · rw [if_neg g]
      refine (if_neg (by simpa using g)).trans (congrArg Except.ok h00)
  refine ⟨_, _, extra_eval h lat lon SC, hfl, ?_, ?_, ?_⟩
  · rw [← hzd, ← he]
    have hpp' := abs_le.1 hpp
    split_ifs with g1 g2 g2
    · exact hpp
    · have := hpos g1.le
      have := heneg (not_lt.1 g2)
      rw [abs_le]
      constructor <;> linarith
    · have := hneg (not_lt.1 g1)
      have := hepos g2.le
      rw [abs_le]
      constructor <;> linarith
    · rw [sub_zero, abs_zero]
      norm_num
  · split_ifs with g
    · exact hpos g.le
    · exact le_rfl
  · intro g
    rw [if_neg]
    rw [not_lt]
    linarith [hzz'.2]

/-! ## Functions of the altitude -/

theorem rnd_fin_big (F : F64) {z : ℝ} (h : |z| ≤ 2 ^ 1000) : V.rnd F (.fin z) = .fin (F.rnd z) := by
  have h1 := F.rnd_abs z h
  have h2 : (2 : ℝ) ^ 1000 + 2 ^ 1000 / 2 ^ 53 + tiny ≤ 2 ^ 1002 := by
    have h3 : (2 : ℝ) ^ 1000 / 2 ^ 53 ≤ 2 ^ 1000 := div_le_self (by positivity) (by norm_num)
    have h4 : tiny ≤ 2 ^ 1000 := tiny_le.trans (le_trans (by norm_num) (one_le_pow₀ (by norm_num : (1 : ℝ) ≤ 2) (n := 1000)))
    have h5 : (2 : ℝ) ^ 1002 = 2 ^ 1000 * 4 := by rw [show (1002 : ℕ) = 1000 + 2 by norm_num, pow_add]; norm_num
    have h6 : (0 : ℝ) ≤ 2 ^ 1000 := by positivity
    rw [h5]
    clear h5 h1
    generalize (2 : ℝ) ^ 1000 = A at *
    generalize A / 2 ^ 53 = C at *
    linarith
  have h6 : (2 : ℝ) ^ 1002 < 2 ^ 1024 := pow_lt_pow_right₀ (by norm_num) (by norm_num)
  have h7 := abs_le.1 (h1.trans h2)
  show (if 2 ^ 1024 ≤ F.rnd z then V.pinf else if F.rnd z ≤ -2 ^ 1024 then V.ninf else V.fin (F.rnd z)) = _
  rw [if_neg (not_le.2 (h7.2.trans_lt h6)), if_neg (not_le.2 ((neg_lt_neg h6).trans_le h7.1))]

theorem exp_close {x y e : ℝ} (h : |x - y| ≤ e) (he : e ≤ 1 / 100) : |Real.exp x - Real.exp y| ≤ 2 * e * Real.exp y := by
  have e1 : Real.exp x = Real.exp y * Real.exp (x - y) := by rw [← Real.exp_add]; ring_nf
  have h1 := Real.abs_exp_sub_one_le (x := x - y) (by linarith)
  rw [e1, show Real.exp y * Real.exp (x - y) - Real.exp y = (Real.exp (x - y) - 1) * Real.exp y by ring, abs_mul,
    abs_of_pos (Real.exp_pos y)]
  exact mul_le_mul_of_nonneg_right (by linarith) (Real.exp_pos y).le

theorem exp_range {x : ℝ} (h : |x| ≤ 410) : 1 / 2 ^ 820 ≤ Real.exp x ∧ Real.exp x ≤ 2 ^ 820 := by
  have h' := abs_le.1 h
  have h1 : Real.exp 410 ≤ 2 ^ 820 := by
    have e : Real.exp 410 = Real.exp 1 ^ 410 := by rw [← Real.exp_nat_mul]; norm_num
    rw [e, show (820 : ℕ) = 2 * 410 by norm_num, pow_mul]
    refine pow_le_pow_left₀ (Real.exp_pos 1).le ?_ 410
    have := Real.exp_one_lt_d9
    norm_num at *
    linarith
  refine ⟨?_, (Real.exp_le_exp.2 h'.2).trans h1⟩
  have h2 : Real.exp (-410) ≤ Real.exp x := Real.exp_le_exp.2 h'.1
  refine le_trans ?_ h2
  rw [Real.exp_neg, ← one_div]
  exact one_div_le_one_div_of_le (Real.exp_pos _) h1

theorem direct_uc_split (B : Backend) {d : DateTime} {c : Civil} (h : UtcFields d c) (x y TY AM TL z t p : B.α) :
    direct_underclear B x y (.dt d) TY AM TL z t p
      = mean_earth_sun_distance B (.dt d) >>= fun KD => declination_degree B (.dt d) TY >>= fun DEC =>
        expoOf B AM TL DEC >>= fun u => B.exp u >>= fun e => Solar.get_altitude B x y (.dt d) z t p >>= fun a =>
        B.sin a >>= fun s => scaleOf B KD >>= fun A => .ok (B.mul (B.mul A e) s) := by
  unfold direct_underclear
  rw [guard_denotes h.2]
  rfl

/-- `direct_underclear`, by the computed altitude `a'` and the exact altitude `a`. -/
theorem direct_uc_float (F : F64) {d : DateTime} {c : Civil} (h : UtcFields d c) {TY AM TL a a' : ℝ}
    (h1 : 360 ≤ TY) (h2 : TY ≤ 366) (hA : |AM| ≤ 40) (hT : |TL| ≤ 20) (hAT : |AM * TL| ≤ 20)
    {x y z t p : (rndB F).α} (ha' : Solar.get_altitude (rndB F) x y (.dt d) z t p = .ok (V.fin a'))
    (haa : |a' - a| ≤ 2 / 10 ^ 5) :
    ∃ r' DEC, direct_underclear (rndB F) x y (.dt d) (V.fin TY) (V.fin AM) (V.fin TL) z t p = .ok (V.fin r') ∧
      declination_degree (mathB 0) (.dt d) (num TY) = .ok (num DEC) ∧
      |r' - 1367 * Real.exp (-0.8662 * AM * TL * DEC) * Real.sin a| ≤ 0.028 * Real.exp (-0.8662 * AM * TL * DEC) := by
  obtain ⟨KD', hKD, rKD⟩ := kd_float F 0 h
  obtain ⟨DEC', DEC, hDEC, hDECe, rDEC⟩ := dd_float F 0 h h1 h2
  have hA' := abs_le.1 hA
  have hT' := abs_le.1 hT
  obtain ⟨u', u, hu, hue, _, _, eu, -, -, huu⟩ := ball_ternary expoOf_sim expo_ok F 0 (x' := AM) (x := AM) (y' := TL) (y := TL)
    ⟨_, _, rfl, by push_cast; linarith, by push_cast; linarith, by simp⟩
    ⟨_, _, rfl, by push_cast; linarith, by push_cast; linarith, by simp⟩ rDEC
  cases eu
  obtain ⟨A', A, hAA, hAe, _, _, eA, -, -, hAr⟩ := ball_unary scaleOf_sim scale_ok F 0 rKD
  cases eA
  push_cast at huu hAr
  have eA : A = 1367 := by
    refine num_injective (Except.ok.inj (hAe.symm.trans ?_))
    simp only [scaleOf, m_ofNat, m_mul, pure_eq_ok]
    norm_num
  have euv : u = -0.8662 * AM * TL * DEC := by
    refine num_injective (Except.ok.inj (hue.symm.trans ?_))
    simp only [expoOf, m_sci, m_neg, m_mul, pure_eq_ok]
  have hdb : |DEC| ≤ 23.45 := by
    have e := C81_declination_degree 0 TY d c h
    rw [if_neg (by linarith)] at e
    rw [num_injective (Except.ok.inj (hDECe.symm.trans e)), abs_mul, abs_of_pos (by norm_num)]
    have := Real.abs_sin_le_one (2 * Real.pi / TY * (yday c.date - 81))
    norm_num at *
    linarith
  have hub : |u| ≤ 407 := by
    rw [euv, show -0.8662 * AM * TL * DEC = -0.8662 * ((AM * TL) * DEC) by ring, abs_mul, abs_mul, abs_neg,
      abs_of_pos (by norm_num : (0 : ℝ) < 0.8662)]
    have := mul_le_mul hAT hdb (abs_nonneg _) (by norm_num)
    norm_num at *
    linarith
  rw [eA] at hAr
  suffices hh : ∃ r', direct_underclear (rndB F) x y (.dt d) (V.fin TY) (V.fin AM) (V.fin TL) z t p = .ok (V.fin r') ∧
      |r' - 1367 * Real.exp u * Real.sin a| ≤ 0.028 * Real.exp u by
    obtain ⟨r', g1, g2⟩ := hh
    exact ⟨r', DEC, g1, hDECe, euv ▸ g2⟩
  set E := Real.exp u with hE
  obtain ⟨hE1, hE2⟩ := exp_range (x := u) (by linarith)
  rw [← hE] at hE1 hE2
  have hE0 : 0 < E := Real.exp_pos u
  have ht : (1 : ℝ) / 2 ^ 1074 ≤ E / 2 ^ 200 := by
    rw [le_div_iff₀ (by positivity)]
    refine le_trans (le_of_eq ?_ |>.trans (one_div_le_one_div_of_le (by positivity) (pow_le_pow_right₀ (by norm_num) (by norm_num : 820 ≤ 874)))) hE1
    rw [show (1074 : ℕ) = 874 + 200 by norm_num, pow_add]
    field_simp
  have ht5 : (1 : ℝ) / 2 ^ 1075 ≤ E / 2 ^ 200 :=
    le_trans (one_div_le_one_div_of_le (by positivity) (pow_le_pow_right₀ (by norm_num) (by norm_num))) ht
  have hx := exp_close huu (by norm_num)
  rw [← hE] at hx
  have hxb : Real.exp u' ≤ 2 * E := by
    have := (abs_le.1 hx).2
    norm_num at this
    linarith
  have hF : |F.exp u' - E| ≤ 3 / 10 ^ 10 * E := by
    have g := F.exp_err u'
    have g2 : F.exp u' - E = (F.exp u' - Real.exp u') + (Real.exp u' - E) := by ring
    rw [g2]
    refine (abs_add_le _ _).trans ?_
    have g3 : Real.exp u' / 2 ^ 51 ≤ 2 * E / 2 ^ 51 := by gcongr
    have g4 : |F.exp u' - Real.exp u'| ≤ 2 * E / 2 ^ 51 + E / 2 ^ 200 := g.trans (add_le_add g3 ht)
    norm_num at g4 hx ⊢
    linarith
  have hFb : |F.exp u'| ≤ 1.01 * E := by
    have := abs_sub_abs_le_abs_sub (F.exp u') E
    rw [abs_of_pos hE0] at this
    norm_num at hF ⊢
    linarith
  have hbig : ∀ k : ℝ, 0 ≤ k → k ≤ 2 ^ 100 → k * E ≤ 2 ^ 1000 := fun k hk0 hk => by
    calc k * E ≤ 2 ^ 100 * 2 ^ 820 := mul_le_mul hk hE2 hE0.le (by positivity)
      _ = 2 ^ 920 := by rw [← pow_add]
      _ ≤ _ := pow_le_pow_right₀ (by norm_num) (by norm_num)
  have hEF : (rndB F).exp (V.fin u') = .ok (V.fin (F.exp u')) := by
    refine if_neg ?_
    rw [not_le]
    refine lt_of_le_of_lt ((le_abs_self _).trans (hFb.trans (hbig _ (by norm_num) (by norm_num)))) ?_
    exact pow_lt_pow_right₀ (by norm_num) (by norm_num)
  have hP0 : |A' * F.exp u' - 1367 * E| ≤ 5 / 10 ^ 7 * E := by
    have := mul_err hAr hF (by norm_num : |(1367 : ℝ)| ≤ 1367) (le_of_eq (abs_of_pos hE0))
    refine this.trans ?_
    norm_num
    linarith
  have hP0b : |A' * F.exp u'| ≤ 1368 * E := by
    have := abs_sub_abs_le_abs_sub (A' * F.exp u') (1367 * E)
    rw [abs_of_pos (by positivity : 0 < 1367 * E)] at this
    norm_num at hP0
    linarith
  have hP : |F.rnd (A' * F.exp u') - 1367 * E| ≤ 6 / 10 ^ 7 * E := by
    have g1 := (F.rnd_err (A' * F.exp u')).trans (add_le_add (div_le_div_of_nonneg_right hP0b (by norm_num)) ht5)
    have g2 := abs_sub_le (F.rnd (A' * F.exp u')) (A' * F.exp u') (1367 * E)
    norm_num at g1 g2 hP0 ⊢
    linarith
  have hPb : |F.rnd (A' * F.exp u')| ≤ 1368 * E := by
    have := abs_sub_abs_le_abs_sub (F.rnd (A' * F.exp u')) (1367 * E)
    rw [abs_of_pos (by positivity : 0 < 1367 * E)] at this
    norm_num at hP
    linarith
  have hs : |F.sin a' - Real.sin a| ≤ 2.00001 / 10 ^ 5 := by
    have g1 := F.sin_err a'
    have g2 := (lip_sin a' a).trans haa
    have g3 := abs_sub_le (F.sin a') (Real.sin a') (Real.sin a)
    norm_num at g1 g2 ⊢
    linarith
  have hq : |F.rnd (A' * F.exp u') * F.sin a' - 1367 * E * Real.sin a| ≤ 0.02735 * E := by
    have := mul_err hP hs (le_of_eq (abs_of_pos (by positivity : 0 < 1367 * E))) (Real.abs_sin_le_one a)
    refine this.trans ?_
    norm_num
    linarith
  have hqb : |F.rnd (A' * F.exp u') * F.sin a'| ≤ 1368 * E := by
    rw [abs_mul]
    calc _ ≤ 1368 * E * 1 := mul_le_mul hPb (F.sin_le a') (abs_nonneg _) (by positivity)
      _ = _ := mul_one _
  refine ⟨F.rnd (F.rnd (A' * F.exp u') * F.sin a'), ?_, ?_⟩
  · refine (direct_uc_split (rndB F) h _ _ _ _ _ _ _ _).trans (bind_of_ok hKD (bind_of_ok hDEC (bind_of_ok hu
      (bind_of_ok hEF (bind_of_ok ha' (bind_of_ok (a := V.fin (F.sin a')) rfl (bind_of_ok hAA (congrArg Except.ok ?_))))))))
    have e1 : (rndB F).mul (V.fin A') (V.fin (F.exp u')) = V.fin (F.rnd (A' * F.exp u')) :=
      rnd_fin_big F (hP0b.trans (hbig _ (by norm_num) (by norm_num)))
    exact (congrArg (fun v => (rndB F).mul v (V.fin (F.sin a'))) e1).trans
      (rnd_fin_big F (hqb.trans (hbig _ (by norm_num) (by norm_num))))
  · have g1 := (F.rnd_err (F.rnd (A' * F.exp u') * F.sin a')).trans
      (add_le_add (div_le_div_of_nonneg_right hqb (by norm_num)) ht5)
    have g2 := abs_sub_le (F.rnd (F.rnd (A' * F.exp u') * F.sin a')) (F.rnd (A' * F.exp u') * F.sin a')
      (1367 * E * Real.sin a)
    norm_num at g1 g2 hq ⊢
    linarith

theorem elev_split (B : Backend) {d : DateTime} {c : Civil} (h : UtcFields d c) {x y z t p a : B.α}
    (ha : Solar.get_altitude B x y (.dt d) z t p = .ok a) :
    solarelevation_function_clear B x y (.dt d) t p z = elevC B a ∧
      solarelevation_function_overcast B x y (.dt d) z t p = elevO B a ∧
      global_irradiance_overcast B x y (.dt d) z t p = overOf B a := by
  unfold solarelevation_function_clear solarelevation_function_overcast global_irradiance_overcast
  rw [guard_denotes h.2, ha]
  exact ⟨rfl, rfl, rfl⟩

theorem diff_split (B : Backend) {d : DateTime} {c : Civil} (h : UtcFields d c) {x y z t p a kd : B.α} (TL : B.α)
    (ha : Solar.get_altitude B x y (.dt d) z t p = .ok a) (hk : mean_earth_sun_distance B (.dt d) = .ok kd) :
    diffuse_underclear B x y (.dt d) z t p TL = diffOf B kd TL a ∧
      diffuse_underovercast B x y (.dt d) z t p TL = diffOf B kd TL a := by
  unfold diffuse_underclear diffuse_underovercast
  rw [guard_denotes h.2, ha, hk]
  exact ⟨rfl, rfl⟩

theorem altE_rel {a' a : ℝ} (ha : |a| ≤ 95) (haa : |a' - a| ≤ 2 / 10 ^ 5) : altE.rel (V.fin a', V.fin a) := by
  have := abs_le.1 ha
  exact ⟨_, _, rfl, by push_cast; exact this.1, by push_cast; exact this.2, by push_cast; exact haa⟩

/-- The elevation functions and the overcast irradiance, by the computed altitude `a'` and the exact altitude `a`. -/
theorem elev_float (F : F64) {d : DateTime} {c : Civil} (h : UtcFields d c) {a' a : ℝ} {x y z t p : (rndB F).α}
    (ha' : Solar.get_altitude (rndB F) x y (.dt d) z t p = .ok (V.fin a')) (ha : |a| ≤ 95)
    (haa : |a' - a| ≤ 2 / 10 ^ 5) :
    (∃ r', solarelevation_function_clear (rndB F) x y (.dt d) t p z = .ok (V.fin r') ∧
      |r' - (0.038175 + 1.5458 * Real.sin a - 0.59980 * Real.sin a ^ 2)| ≤ 44 / 10 ^ 6) ∧
    (∃ r', solarelevation_function_overcast (rndB F) x y (.dt d) z t p = .ok (V.fin r') ∧
      |r' - (-0.0067133 + 0.78600 * Real.sin a + 0.22401 * Real.sin a ^ 2)| ≤ 21 / 10 ^ 6) ∧
    (∃ r', global_irradiance_overcast (rndB F) x y (.dt d) z t p = .ok (V.fin r') ∧ |r' - 572 * a| ≤ 115 / 10 ^ 4) := by
  obtain ⟨s1, s2, s3⟩ := elev_split (rndB F) h ha'
  have hr := altE_rel ha haa
  have hc : Real.cos (2 * a) = 1 - 2 * Real.sin a ^ 2 := by rw [Real.cos_two_mul, Real.cos_sq']; ring
  obtain ⟨u', u, hu, hue, _, _, eu, -, -, huu⟩ := ball_unary elevC_sim elevC_ok F 0 hr
  cases eu
  obtain ⟨v', v, hv, hve, _, _, ev, -, -, hvv⟩ := ball_unary elevO_sim elevO_ok F 0 hr
  cases ev
  obtain ⟨w', w, hw, hwe, _, _, ew, -, -, hww⟩ := ball_unary overOf_sim over_ok F 0 hr
  cases ew
  push_cast at huu hvv hww
  refine ⟨⟨u', s1.trans hu, ?_⟩, ⟨v', s2.trans hv, ?_⟩, ⟨w', s3.trans hw, ?_⟩⟩
  · have e : u = 0.038175 + 1.5458 * Real.sin a - 0.59980 * Real.sin a ^ 2 := by
      refine num_injective (Except.ok.inj (hue.symm.trans ?_))
      simp only [elevC, ok_bind, m_sin, m_ofNat, m_sci, m_mul, m_cos, m_sub, m_neg, m_add, pure_eq_ok]
      congr 2
      norm_num
      rw [hc]
      ring
    rwa [← e]
  · have e : v = -0.0067133 + 0.78600 * Real.sin a + 0.22401 * Real.sin a ^ 2 := by
      refine num_injective (Except.ok.inj (hve.symm.trans ?_))
      simp only [elevO, ok_bind, m_sin, m_ofNat, m_sci, m_mul, m_cos, m_sub, m_neg, m_add, pure_eq_ok]
      congr 2
      norm_num
      rw [hc]
      ring
    rwa [← e]
  · have e : w = 572 * a := by
      refine num_injective (Except.ok.inj (hwe.symm.trans ?_))
      simp only [overOf, m_ofNat, m_mul, pure_eq_ok]
      norm_num
    rwa [← e]

theorem diffOf_eval (tp TL a : ℝ) :
    diffOf (mathB tp) (num 1) (num TL) (num a) = .ok (num ((-21.657 + 41.752 * TL + 0.51905 * TL ^ 2) * a)) := by
  simp only [diffOf, m_sci, m_neg, m_mul, m_add, pure_eq_ok]
  congr 2
  ring

/-- The diffuse irradiance, by the computed altitude `a'` and the exact altitude `a`. -/
theorem diff_float (F : F64) {d : DateTime} {c : Civil} (h : UtcFields d c) {TL a' a : ℝ} {x y z t p : (rndB F).α}
    (h1 : 0 ≤ TL) (h2 : TL ≤ 10)
    (ha' : Solar.get_altitude (rndB F) x y (.dt d) z t p = .ok (V.fin a')) (ha : |a| ≤ 95)
    (haa : |a' - a| ≤ 2 / 10 ^ 5) :
    ∃ r', diffuse_underclear (rndB F) x y (.dt d) z t p (V.fin TL) = .ok (V.fin r') ∧
      diffuse_underovercast (rndB F) x y (.dt d) z t p (V.fin TL) = .ok (V.fin r') ∧
      |r' - (-21.657 + 41.752 * TL + 0.51905 * TL ^ 2) * a| ≤ 91 / 10 ^ 4 := by
  obtain ⟨KD', hKD, rKD⟩ := kd_float F 0 h
  obtain ⟨s1, s2⟩ := diff_split (rndB F) h (V.fin TL) ha' hKD
  obtain ⟨u', u, hu, hue, _, _, eu, -, -, huu⟩ := ball_ternary diffOf_sim diff_ok F 0 (y' := TL) (y := TL) rKD
    ⟨_, _, rfl, by push_cast; exact h1, by push_cast; exact h2, by simp⟩ (altE_rel ha haa)
  cases eu
  refine ⟨u', s1.trans hu, s2.trans hu, ?_⟩
  rw [num_injective (Except.ok.inj (hue.symm.trans (diffOf_eval 0 TL a)))] at huu
  push_cast at huu
  exact huu

theorem diff1_float (F : F64) {d : DateTime} {c : Civil} (h : UtcFields d c) {a' a : ℝ} {x y z t p : (rndB F).α}
    (ha' : Solar.get_altitude (rndB F) x y (.dt d) z t p = .ok (V.fin a')) (ha : |a| ≤ 95)
    (haa : |a' - a| ≤ 2 / 10 ^ 5) :
    ∃ r', diffuse_underclear (rndB F) x y (.dt d) z t p = .ok (V.fin r') ∧ |r' - 20.61405 * a| ≤ 42 / 10 ^ 5 := by
  obtain ⟨KD', hKD, rKD⟩ := kd_float F 0 h
  have e1 : (rndB F).lit TL_default = V.fin (1 : ℝ) := by
    have := lit_fin F 1 (by norm_num)
    push_cast at this
    have e : (TL_default : ℚ) = 1 := by norm_num [TL_default]
    rw [e]
    exact this
  obtain ⟨s1, -⟩ := diff_split (rndB F) h (V.fin 1) ha' hKD
  obtain ⟨u', u, hu, hue, _, _, eu, -, -, huu⟩ := ball_ternary diffOf_sim diff1_ok F 0 (y' := 1) (y := 1) rKD
    ⟨_, _, rfl, by push_cast; exact le_refl _, by push_cast; exact le_refl _, by simp⟩ (altE_rel ha haa)
  cases eu
  refine ⟨u', (congrArg (fun v => diffuse_underclear (rndB F) x y (.dt d) z t p v) e1).trans (s1.trans hu), ?_⟩
  rw [num_injective (Except.ok.inj (hue.symm.trans (diffOf_eval 0 1 a)))] at huu
  push_cast at huu
  norm_num at huu ⊢
  exact huu

/-- `global_irradiance_clear`. -/
theorem global_float (F : F64) {d : DateTime} {c : Civil} (h : UtcFields d c) {TY AM TL a a' : ℝ}
    (h1 : 360 ≤ TY) (h2 : TY ≤ 366) (hA : |AM| ≤ 40) (hT : |TL| ≤ 20) (hAT : |AM * TL| ≤ 20)
    {x y z : (rndB F).α} (ha' : Solar.get_altitude (rndB F) x y (.dt d) z = .ok (V.fin a')) (ha : |a| ≤ 95)
    (haa : |a' - a| ≤ 2 / 10 ^ 5) :
    ∃ r' DEC, (∀ t p, global_irradiance_clear (rndB F) x y (.dt d) (V.fin TY) (V.fin AM) (V.fin TL) z t p = .ok (V.fin r')) ∧
      declination_degree (mathB 0) (.dt d) (num TY) = .ok (num DEC) ∧
      |r' - (1367 * Real.exp (-0.8662 * AM * TL * DEC) * Real.sin a + 20.61405 * a)|
        ≤ 0.029 * Real.exp (-0.8662 * AM * TL * DEC) + 5 / 10 ^ 4 := by
  obtain ⟨u', DEC, hu, hD, huu⟩ := direct_uc_float F h h1 h2 hA hT hAT ha' haa
  obtain ⟨v', hv, hvv⟩ := diff1_float F h ha' ha haa
  have hE0 := Real.exp_pos (-0.8662 * AM * TL * DEC)
  have hEb : Real.exp (-0.8662 * AM * TL * DEC) ≤ 2 ^ 820 := by
    refine (exp_range ?_).2
    have hdb : |DEC| ≤ 23.45 := by
      have e := C81_declination_degree 0 TY d c h
      rw [if_neg (by linarith)] at e
      rw [num_injective (Except.ok.inj (hD.symm.trans e)), abs_mul, abs_of_pos (by norm_num)]
      have := Real.abs_sin_le_one (2 * Real.pi / TY * (yday c.date - 81))
      norm_num at *
      linarith
    rw [show -0.8662 * AM * TL * DEC = -0.8662 * ((AM * TL) * DEC) by ring, abs_mul, abs_mul, abs_neg,
      abs_of_pos (by norm_num : (0 : ℝ) < 0.8662)]
    have := mul_le_mul hAT hdb (abs_nonneg _) (by norm_num)
    norm_num at *
    linarith
  suffices hh : ∃ r', (∀ t p, global_irradiance_clear (rndB F) x y (.dt d) (V.fin TY) (V.fin AM) (V.fin TL) z t p
      = .ok (V.fin r')) ∧ |r' - (1367 * Real.exp (-0.8662 * AM * TL * DEC) * Real.sin a + 20.61405 * a)|
        ≤ 0.029 * Real.exp (-0.8662 * AM * TL * DEC) + 5 / 10 ^ 4 by
    obtain ⟨r', g1, g2⟩ := hh
    exact ⟨r', DEC, g1, hD, g2⟩
  generalize Real.exp (-0.8662 * AM * TL * DEC) = E at *
  have hs : |1367 * E * Real.sin a| ≤ 1367 * E := by
    rw [abs_mul, abs_of_pos (by positivity)]
    exact mul_le_of_le_one_right (by positivity) (Real.abs_sin_le_one a)
  have hub : |u'| ≤ 1368 * E := by
    have := abs_sub_abs_le_abs_sub u' (1367 * E * Real.sin a)
    norm_num at huu
    linarith
  have hvb : |v'| ≤ 2000 := by
    have := abs_sub_abs_le_abs_sub v' (20.61405 * a)
    rw [abs_mul, abs_of_pos (by norm_num : (0 : ℝ) < 20.61405)] at this
    norm_num at hvv this
    linarith
  have hb : |u' + v'| ≤ 1368 * E + 2000 := (abs_add_le _ _).trans (add_le_add hub hvb)
  have hbig : 1368 * E + 2000 ≤ 2 ^ 1000 := by
    have e : (2 : ℝ) ^ 1000 = 2 ^ 180 * 2 ^ 820 := by rw [← pow_add]
    have e0 : (1 : ℝ) ≤ 2 ^ 820 := one_le_pow₀ (by norm_num)
    rw [e]
    clear e
    generalize (2 : ℝ) ^ 820 = K at *
    norm_num
    linarith
  refine ⟨F.rnd (u' + v'), fun t p => ?_, ?_⟩
  · have g : ∀ q, direct_underclear (rndB F) x y (.dt d) (V.fin TY) (V.fin AM) (V.fin TL) z = .ok q →
        global_irradiance_clear (rndB F) x y (.dt d) (V.fin TY) (V.fin AM) (V.fin TL) z t p
          = diffuse_underclear (rndB F) x y (.dt d) z >>= fun s => .ok ((rndB F).add q s) := fun q hq => by
      unfold global_irradiance_clear
      rw [guard_denotes h.2]
      exact bind_of_ok (a := q) (f := fun q => diffuse_underclear (rndB F) x y (.dt d) z >>= fun s =>
        .ok ((rndB F).add q s)) hq rfl
    refine (g _ hu).trans (bind_of_ok hv (congrArg Except.ok ?_))
    exact rnd_fin_big F (hb.trans hbig)
  · have g1 := (F.err (u' + v')).trans (add_le_add (div_le_div_of_nonneg_right hb (by norm_num)) tiny_le)
    have g2 : F.rnd (u' + v') - (1367 * E * Real.sin a + 20.61405 * a)
        = (F.rnd (u' + v') - (u' + v')) + ((u' - 1367 * E * Real.sin a) + (v' - 20.61405 * a)) := by ring
    rw [g2]
    refine (abs_add_le _ _).trans ?_
    have g3 := abs_add_le (u' - 1367 * E * Real.sin a) (v' - 20.61405 * a)
    norm_num at g1 g3 huu hvv ⊢
    linarith

theorem clear_index_split (B : Backend) {d : DateTime} {c : Civil} (h : UtcFields d c) (g x y : B.α) :
    clear_index B g x y (.dt d) = extraterrestrial_irrad B x y (.dt d) >>= fun e => B.div g e := by
  unfold clear_index
  rw [guard_denotes h.2]
  rfl

/-- `direct_underclear` overflows when its exponent exceeds the range of a double. -/
theorem direct_uc_overflow (F : F64) {d : DateTime} {c : Civil} (h : UtcFields d c) {TY AM TL : ℝ}
    (h1 : 360 ≤ TY) (h2 : TY ≤ 366) (hA : |AM| ≤ 40) (hT : |TL| ≤ 20)
    (hx : 711 ≤ -0.8662 * AM * TL * (23.45 * Real.sin (2 * Real.pi / TY * (yday c.date - 81))))
    (x y z t p : (rndB F).α) :
    direct_underclear (rndB F) x y (.dt d) (V.fin TY) (V.fin AM) (V.fin TL) z t p = .error .overflow := by
  obtain ⟨KD', hKD, -⟩ := kd_float F 0 h
  obtain ⟨DEC', DEC, hDEC, hDECe, rDEC⟩ := dd_float F 0 h h1 h2
  have hA' := abs_le.1 hA
  have hT' := abs_le.1 hT
  obtain ⟨u', u, hu, hue, _, _, eu, -, -, huu⟩ := ball_ternary expoOf_sim expo_ok F 0 (x' := AM) (x := AM) (y' := TL) (y := TL)
    ⟨_, _, rfl, by push_cast; linarith, by push_cast; linarith, by simp⟩
    ⟨_, _, rfl, by push_cast; linarith, by push_cast; linarith, by simp⟩ rDEC
  cases eu
  push_cast at huu
  have euv : u = -0.8662 * AM * TL * DEC := by
    refine num_injective (Except.ok.inj (hue.symm.trans ?_))
    simp only [expoOf, m_sci, m_neg, m_mul, pure_eq_ok]
  have e := C81_declination_degree 0 TY d c h
  rw [if_neg (by linarith)] at e
  rw [← num_injective (Except.ok.inj (hDECe.symm.trans e)), ← euv] at hx
  have hu1 : 710.9 ≤ u' := by
    have := (abs_le.1 huu).1
    norm_num at *
    linarith
  have hbig : (2 : ℝ) ^ 1025 ≤ Real.exp u' := by
    have hl := Real.log_two_lt_d9
    have e2 : Real.exp (1025 * Real.log 2) = 2 ^ 1025 := by
      rw [show (1025 : ℝ) = ((1025 : ℕ) : ℝ) by norm_num, Real.exp_nat_mul, Real.exp_log (by norm_num)]
    rw [← e2]
    refine Real.exp_le_exp.2 ?_
    norm_num at *
    linarith
  have hF : (2 : ℝ) ^ 1024 ≤ F.exp u' := by
    have g := (abs_le.1 (F.exp_err u')).1
    have g1 : (1 : ℝ) / 2 ^ 1074 ≤ 1 / 4 := one_div_le_one_div_of_le (by norm_num)
      (le_trans (by norm_num : (4 : ℝ) ≤ 2 ^ 2) (pow_le_pow_right₀ (by norm_num) (by norm_num)))
    have g2 : (2 : ℝ) ^ 1025 = 2 * 2 ^ 1024 := by rw [pow_succ, mul_comm]
    have g3 : (1 : ℝ) ≤ 2 ^ 1024 := one_le_pow₀ (by norm_num)
    rw [g2] at hbig
    clear g2
    generalize (1 : ℝ) / 2 ^ 1074 = T at *
    generalize (2 : ℝ) ^ 1024 = K at *
    generalize Real.exp u' = X at *
    norm_num at g
    linarith
  refine (direct_uc_split (rndB F) h _ _ _ _ _ _ _ _).trans (bind_of_ok hKD (bind_of_ok hDEC (bind_of_ok hu ?_)))
  have hEF : (rndB F).exp (V.fin u') = .error .overflow := if_pos hF
  rw [hEF]
  rfl

end Chain
end Verif
