import Verif.Model.UnitTests
import Verif.Proofs.Interval
import Verif.Proofs.Sim2
import Verif.Props.NightRadiation

/-!
# C133: the unit tests, in exact arithmetic
-/

namespace Verif

open Pysolar Pysolar.UnitTests

namespace ScalarSim

variable {B B' : Backend} (S : ScalarSim B B')

/-- Related checks. -/
def rCheck (c : Check B) (c' : Check B') : Prop :=
  c.test = c'.test ∧ S.r c.first c'.first ∧ S.r c.second c'.second ∧ c.tol = c'.tol

/-- A list of checks, one by one. -/
macro "checks" : tactic =>
  `(tactic| repeat (first | exact List.Forall₂.nil | (refine List.Forall₂.cons ⟨rfl, ?_, ?_, rfl⟩ ?_ <;>
    [(dsimp only; sim; done); (dsimp only; sim; done); skip])))

theorem setUpD : RelM S.strict Eq (UnitTests.setUpD B) (UnitTests.setUpD B') := by
  have hw := S.rW_dt setUpDay
  unfold UnitTests.setUpD
  refine RelM.bind (S.toSim.get_delta_t hw) ?_
  rintro a _ rfl
  refine RelM.bind (S.toSim.get_leap_seconds hw) ?_
  rintro b _ rfl
  exact RelM.refl

theorem testSolar : RelM S.strict (List.Forall₂ S.rCheck) (UnitTests.testSolar B) (UnitTests.testSolar B') := by
  unfold UnitTests.testSolar
  refine RelM.bind (R := Eq) S.setUpD ?_
  rintro d _ rfl
  have hw := S.rW_dt d
  sim
  have hn := ‹S.rN _ _›
  have hl := hn.1
  have ho := hn.2
  checks

theorem testPressure : RelM S.strict S.rCheck (UnitTests.testPressure B) (UnitTests.testPressure B') := by
  unfold UnitTests.testPressure
  refine RelM.bind (R := S.r) ?_ fun p p' hp => ⟨rfl, by dsimp only; sim, hp, rfl⟩
  sim

theorem testApi : RelM S.strict (List.Forall₂ S.rCheck) (UnitTests.testApi B) (UnitTests.testApi B') := by
  have hw := S.rW_dt test_when
  unfold UnitTests.testApi
  refine RelM.bind (R := S.rP) (by sim) ?_
  rintro p1 p1' ⟨h1, h1'⟩
  refine RelM.bind (R := S.rP) (by sim) ?_
  rintro p2 p2' ⟨h2, h2'⟩
  refine RelM.bind (R := S.rP) (by sim) ?_
  rintro p3 p3' ⟨h3, h3'⟩
  sim
  refine List.Forall₂.cons ⟨rfl, h1, S.lit _, rfl⟩ <| List.Forall₂.cons ⟨rfl, h1', S.lit _, rfl⟩ <|
    List.Forall₂.cons ⟨rfl, h2, S.lit _, rfl⟩ <| List.Forall₂.cons ⟨rfl, h2', S.lit _, rfl⟩ <|
    List.Forall₂.cons ⟨rfl, h3, S.lit _, rfl⟩ <| List.Forall₂.cons ⟨rfl, h3', S.lit _, rfl⟩ <| ?_
  checks

theorem testAltitudeFast (hour : ℤ) :
    RelM S.strict S.rCheck (UnitTests.testAltitudeFast B hour) (UnitTests.testAltitudeFast B' hour) := by
  unfold UnitTests.testAltitudeFast
  refine RelM.bind (R := Eq) RelM.refl ?_
  rintro d _ rfl
  have hw := S.rW_dt d
  refine RelM.bind (R := S.r) (by sim) fun a a' ha => RelM.bind (R := S.r) (by sim) fun b b' hb => ⟨rfl, ha, hb, rfl⟩

theorem testAzimuthFast (hour : ℤ) :
    RelM S.strict S.rCheck (UnitTests.testAzimuthFast B hour) (UnitTests.testAzimuthFast B' hour) := by
  unfold UnitTests.testAzimuthFast
  refine RelM.bind (R := Eq) RelM.refl ?_
  rintro d _ rfl
  have hw := S.rW_dt d
  refine RelM.bind (R := S.r) (by sim) fun a a' ha => RelM.bind (R := S.r) (by sim) fun b b' hb => ⟨rfl, ha, hb, rfl⟩

theorem testHourAngle : RelM S.strict (List.Forall₂ S.rCheck) (UnitTests.testHourAngle B) (UnitTests.testHourAngle B') := by
  have hw := S.rW_dt hourAngleWhen
  unfold UnitTests.testHourAngle
  sim
  checks

end ScalarSim

namespace Props

open Pysolar.Solar Pysolar.Solartime

/-- `unittest` accepts the comparison. -/
def Passes {tp : ℝ} (c : Check (mathB tp)) : Prop :=
  ∃ x y : ℝ, c.first = num x ∧ c.second = num y ∧ |x - y| ≤ (c.tol : ℝ)

/-- The difference of two intervals. -/
def gap (c : Check ivB) : Iv := Iv.sub c.first c.second

/-- The comparison succeeds for all numbers in the intervals. -/
def near (c : Check ivB) : Bool :=
  match gap c with
  | .mk a b => decide (-(c.tol * Iv.one) ≤ a) && decide ((b : ℚ) ≤ c.tol * Iv.one)
  | .top => false

/-- The comparison fails for all numbers in the intervals. -/
def far (c : Check ivB) : Bool :=
  match gap c with
  | .mk a b => decide (c.tol * Iv.one < a) || decide ((b : ℚ) < -(c.tol * Iv.one))
  | .top => false

theorem gap_fin {tp : ℝ} {c : Check ivB} {c' : Check (mathB tp)} (h : (ivSim tp).rCheck c c') {a b : ℤ}
    (hg : gap c = .mk a b) : ∃ x y : ℝ, c'.first = num x ∧ c'.second = num y ∧
      (a : ℝ) ≤ (x - y) * Iv.one ∧ (x - y) * Iv.one ≤ b := by
  obtain ⟨-, h1, h2, -⟩ := h
  have h3 := Iv.sub_rel h1 h2
  have hg' : Iv.sub c.first c.second = .mk a b := hg
  rw [hg'] at h3
  obtain ⟨z, hz, h4, h5⟩ := h3
  cases hf : c.first with
  | top => rw [hf] at hg'; cases hg'
  | mk p q =>
    cases hs : c.second with
    | top => rw [hf, hs] at hg'; cases hg'
    | mk r s =>
      rw [hf] at h1
      rw [hs] at h2
      obtain ⟨x, hx, -, -⟩ := h1
      obtain ⟨y, hy, -, -⟩ := h2
      rw [hx, hy] at hz
      have e : x - y = z := V.fin.inj hz
      exact ⟨x, y, hx, hy, e ▸ h4, e ▸ h5⟩

theorem passes_of_near {tp : ℝ} {c : Check ivB} {c' : Check (mathB tp)} (h : (ivSim tp).rCheck c c')
    (hn : near c = true) : Passes c' := by
  unfold near at hn
  cases hg : gap c with
  | top => rw [hg] at hn; cases hn
  | mk a b =>
    rw [hg] at hn
    obtain ⟨x, y, hx, hy, h1, h2⟩ := gap_fin h hg
    have hw : (-(c.tol * Iv.one) ≤ a) ∧ ((b : ℚ) ≤ c.tol * Iv.one) := by simpa using hn
    have w1 : -((c.tol : ℝ) * Iv.one) ≤ a := by exact_mod_cast hw.1
    have w2 : (b : ℝ) ≤ c.tol * Iv.one := by exact_mod_cast hw.2
    refine ⟨x, y, hx, hy, ?_⟩
    rw [← h.2.2.2, abs_le]
    exact ⟨le_of_mul_le_mul_right (by linarith) Iv.one_pos, le_of_mul_le_mul_right (by linarith) Iv.one_pos⟩

theorem fails_of_far {tp : ℝ} {c : Check ivB} {c' : Check (mathB tp)} (h : (ivSim tp).rCheck c c')
    (hn : far c = true) : ¬ Passes c' := by
  unfold far at hn
  cases hg : gap c with
  | top => rw [hg] at hn; cases hn
  | mk a b =>
    rw [hg] at hn
    obtain ⟨x, y, hx, hy, h1, h2⟩ := gap_fin h hg
    have hw : (c.tol * Iv.one < a) ∨ ((b : ℚ) < -(c.tol * Iv.one)) := by simpa using hn
    rintro ⟨x', y', hx', hy', hd⟩
    have e1 : x' = x := V.fin.inj (hx'.symm.trans hx)
    have e2 : y' = y := V.fin.inj (hy'.symm.trans hy)
    rw [e1, e2, ← h.2.2.2, abs_le] at hd
    have hS := Iv.one_pos
    have d1 := mul_le_mul_of_nonneg_right hd.1 hS.le
    have d2 := mul_le_mul_of_nonneg_right hd.2 hS.le
    rcases hw with hw | hw
    · have w : (c.tol : ℝ) * Iv.one < a := by exact_mod_cast hw
      linarith
    · have w : (b : ℝ) < -((c.tol : ℝ) * Iv.one) := by exact_mod_cast hw
      linarith

/-- The comparison with another tolerance. -/
def loosen {B : Backend} (t : ℚ) (c : Check B) : Check B := { c with tol := t }

/-- All comparisons on a list satisfy a test; `false` after an exception. -/
def allOf (p : Check ivB → Bool) (m : Py (List (Check ivB))) : Bool :=
  match m with
  | .ok l => l.all p
  | .error _ => false

/-- A run of comparisons ends without an exception and all are accepted. -/
def AllPass {tp : ℝ} (m : Py (List (Check (mathB tp)))) : Prop := ∃ l, m = .ok l ∧ ∀ c ∈ l, Passes c

theorem allPass_of_near {tp : ℝ} {m : Py (List (Check ivB))} {m' : Py (List (Check (mathB tp)))}
    (h : RelM False (List.Forall₂ (ivSim tp).rCheck) m m') (hv : allOf near m = true) : AllPass m' := by
  cases m with
  | error e => cases hv
  | ok k =>
    obtain ⟨l, rfl, hl⟩ := h.of_ok rfl
    refine ⟨l, rfl, fun c hc => ?_⟩
    obtain ⟨i, hi, rfl⟩ := List.getElem_of_mem hc
    have hi' : i < k.length := hl.length_eq ▸ hi
    exact passes_of_near (hl.get hi' hi) (List.all_eq_true.1 hv _ (List.getElem_mem hi'))

theorem loosen_rel {tp : ℝ} (t : ℚ) {m : Py (List (Check ivB))} {m' : Py (List (Check (mathB tp)))}
    (h : RelM False (List.Forall₂ (ivSim tp).rCheck) m m') :
    RelM False (List.Forall₂ (ivSim tp).rCheck) (m >>= fun l => pure (l.map (loosen t)))
      (m' >>= fun l => pure (l.map (loosen t))) := by
  refine RelM.bind h fun l l' hl => ?_
  show List.Forall₂ _ _ _
  rw [List.forall₂_map_left_iff, List.forall₂_map_right_iff]
  exact hl.imp fun a b hab => ⟨hab.1, hab.2.1, hab.2.2.1, rfl⟩

theorem pressure_rel (tp : ℝ) : RelM False (List.Forall₂ (ivSim tp).rCheck) (do let c ← testPressure ivB; return [c])
    (do let c ← testPressure (mathB tp); return [c]) := by
  refine RelM.bind (ivSim tp).testPressure fun a b h => ?_
  show List.Forall₂ _ _ _
  exact List.Forall₂.cons h List.Forall₂.nil

/-! ## The evaluations -/

set_option maxRecDepth 100000 in
theorem iv_testSolar : allOf near (testSolar ivB) = true := by decide +kernel

set_option maxRecDepth 100000 in
theorem iv_testPressure : allOf near (do let c ← testPressure ivB; return [c]) = true := by decide +kernel

/-- The comparisons of a list, with tolerance 1.6e-7, and those that fail. -/
def verdicts (m : Py (List (Check ivB))) : Option (Bool × List Bool) :=
  match m with
  | .ok l => some ((l.map (loosen (16 / 10 ^ 8))).all near, l.map far)
  | .error _ => none

set_option maxRecDepth 100000 in
theorem iv_api : verdicts (testApi ivB) = some (true, [true, false, true, true, true, false, true, true]) := by
  decide +kernel

theorem iv_testApi : allOf near (do let l ← testApi ivB; return l.map (loosen (16 / 10 ^ 8))) = true := by
  have h := iv_api
  cases hm : testApi ivB with
  | error e => rw [hm] at h; cases h
  | ok l =>
    rw [hm] at h
    exact (Prod.mk.inj (Option.some.inj h)).1

theorem iv_testApi_far : (match testApi ivB with | .ok l => l.map far | .error _ => [])
    = [true, false, true, true, true, false, true, true] := by
  have h := iv_api
  cases hm : testApi ivB with
  | error e => rw [hm] at h; cases h
  | ok l =>
    rw [hm] at h
    exact (Prod.mk.inj (Option.some.inj h)).2

set_option maxRecDepth 100000 in
theorem iv_testHourAngle : allOf near (testHourAngle ivB) = true := by decide +kernel

/-- `get_position` returns what `get_azimuth` and `get_altitude` return. -/
theorem of_position {B : Backend} {x y z t p az al : B.α} {w : When B} (h : get_position B x y w z t p = .ok (az, al)) :
    get_azimuth B x y w z = .ok az ∧ get_altitude B x y w z t p = .ok al := by
  unfold get_position at h
  obtain ⟨u, hu, h⟩ := bind_ok_inv h
  obtain ⟨⟨dec, H⟩, hq, h⟩ := bind_ok_inv h
  obtain ⟨e, he, h⟩ := bind_ok_inv h
  obtain ⟨r, hr, h⟩ := bind_ok_inv h
  obtain ⟨a, ha, h⟩ := bind_ok_inv h
  cases h
  unfold get_azimuth get_altitude
  exact ⟨bind_of_ok hu (bind_of_ok hq ha), bind_of_ok hu (bind_of_ok hq (bind_of_ok he (bind_of_ok hr rfl)))⟩

/-- The comparisons of `testGetAltitudeFast` and `testGetAzimuthFast` in one pass of their loops. -/
def fastChecks (B : Backend) (hour : ℤ) : Py (List (Check B)) := do
  let c ← testAltitudeFast B hour
  let c' ← testAzimuthFast B hour
  return [c, c']

/-- The same with one call of `get_position`. -/
def fastShared (B : Backend) (hour : ℤ) : Py (List (Check B)) := do
  let d ← nzDay.add (3600000000 * hour)
  let q ← get_position B (B.lit (-43)) (B.lit 172) (.dt d)
  let al ← get_altitude_fast B (B.lit (-43)) (B.lit 172) (.dt d)
  let az ← get_azimuth_fast B (B.lit (-43)) (B.lit 172) (.dt d)
  return [⟨"testGetAltitudeFast", al, q.2, 1⟩, ⟨"testGetAzimuthFast", az, q.1, 1.5⟩]

theorem fastShared_rel {B B' : Backend} (S : ScalarSim B B') (hour : ℤ) :
    RelM S.strict (List.Forall₂ S.rCheck) (fastShared B hour) (fastShared B' hour) := by
  unfold fastShared
  refine RelM.bind (R := Eq) RelM.refl ?_
  rintro d _ rfl
  have hw := S.rW_dt d
  refine RelM.bind (R := S.rP) (by sim) ?_
  rintro q q' ⟨h1, h2⟩
  refine RelM.bind (R := S.r) (by sim) fun a a' ha => RelM.bind (R := S.r) (by sim) fun b b' hb => ?_
  exact List.Forall₂.cons ⟨rfl, ha, h2, rfl⟩ (List.Forall₂.cons ⟨rfl, hb, h1, rfl⟩ List.Forall₂.nil)

theorem fastChecks_of_shared {B : Backend} {hour : ℤ} {l : List (Check B)} (h : fastShared B hour = .ok l) :
    fastChecks B hour = .ok l := by
  unfold fastShared at h
  obtain ⟨d, hd, h⟩ := bind_ok_inv h
  obtain ⟨⟨az, al⟩, hq, h⟩ := bind_ok_inv h
  obtain ⟨a, ha, h⟩ := bind_ok_inv h
  obtain ⟨b, hb, h⟩ := bind_ok_inv h
  cases h
  obtain ⟨h1, h2⟩ := of_position hq
  unfold fastChecks testAltitudeFast testAzimuthFast
  exact bind_of_ok (bind_of_ok hd (bind_of_ok ha (bind_of_ok h2 rfl)))
    (bind_of_ok (bind_of_ok hd (bind_of_ok hb (bind_of_ok h1 rfl))) rfl)

set_option maxRecDepth 100000 in
theorem iv_fast_a : ∀ h ∈ ([7, 8, 9, 10] : List ℤ), allOf near (fastShared ivB h) = true := by decide +kernel

set_option maxRecDepth 100000 in
theorem iv_fast_b : ∀ h ∈ ([11, 12, 13, 14] : List ℤ), allOf near (fastShared ivB h) = true := by decide +kernel

set_option maxRecDepth 100000 in
theorem iv_fast_c : ∀ h ∈ ([15, 16, 17, 18] : List ℤ), allOf near (fastShared ivB h) = true := by decide +kernel

theorem iv_fast (h : ℤ) (h1 : 7 ≤ h) (h2 : h < 19) : allOf near (fastShared ivB h) = true := by
  by_cases ha : h < 11
  · refine iv_fast_a h ?_
    simp only [List.mem_cons, List.not_mem_nil, or_false]
    omega
  by_cases hb : h < 15
  · refine iv_fast_b h ?_
    simp only [List.mem_cons, List.not_mem_nil, or_false]
    omega
  · refine iv_fast_c h ?_
    simp only [List.mem_cons, List.not_mem_nil, or_false]
    omega

/-! ## The claim -/

/-- C133: the comparisons made by test/test_solar.py and test/test_hour_angle.py succeed for the exact values of the
formulas. -/
def C133Claim (tp : ℝ) : Prop :=
  AllPass (testSolar (mathB tp)) ∧ AllPass (do let c ← testPressure (mathB tp); return [c]) ∧
  Passes (testTemperature (mathB tp)) ∧ AllPass (testApi (mathB tp)) ∧
  (∀ hour : ℤ, 7 ≤ hour → hour < 19 → AllPass (fastChecks (mathB tp) hour)) ∧ AllPass (testHourAngle (mathB tp))

/-- C133, what holds: all comparisons succeed but those of `testGetPosition`, `testGetAltitude` and `testGetAzimuth`,
which would succeed with a tolerance of 1.6e-7 instead of 0.5e-7 degrees. -/
theorem C133_partial (tp : ℝ) :
    AllPass (testSolar (mathB tp)) ∧ AllPass (do let c ← testPressure (mathB tp); return [c]) ∧
    Passes (testTemperature (mathB tp)) ∧
    AllPass (do let l ← testApi (mathB tp); return l.map (loosen (16 / 10 ^ 8))) ∧
    (∀ hour : ℤ, 7 ≤ hour → hour < 19 → AllPass (fastChecks (mathB tp) hour)) ∧ AllPass (testHourAngle (mathB tp)) := by
  refine ⟨allPass_of_near (ivSim tp).testSolar iv_testSolar,
    allPass_of_near (pressure_rel tp) iv_testPressure,
    ?_, allPass_of_near (loosen_rel _ (ivSim tp).testApi) iv_testApi, ?_,
    allPass_of_near (ivSim tp).testHourAngle iv_testHourAngle⟩
  · refine ⟨277.96, 277.95995, ?_, ?_, ?_⟩
    · show (mathB tp).lit 277.9600 = _
      rw [m_lit]
      norm_num
    · show Elevation.get_temperature_with_elevation (mathB tp) ((mathB tp).lit 1567.7) = _
      unfold Elevation.get_temperature_with_elevation Constants.standard_temperature
        Constants.earth_temperature_lapse_rate
      simp only [m_lit, m_mul, m_add]
      norm_num
    · show _ ≤ ((places 4 : ℚ) : ℝ)
      unfold places
      rw [abs_le]
      norm_num
  · intro hour h1 h2
    obtain ⟨l, hl, hp⟩ := allPass_of_near (fastShared_rel (ivSim tp) hour) (iv_fast hour h1 h2)
    exact ⟨l, fastChecks_of_shared hl, hp⟩

/-- C133, the counterexample: six of the eight comparisons of `testGetPosition`, `testGetAltitude` and `testGetAzimuth`
fail. The expected values carry the rounding errors of the run they were taken from. -/
theorem C133_refuted (tp : ℝ) : ¬ C133Claim tp := by
  rintro ⟨-, -, -, ⟨l, hl, hp⟩, -⟩
  have h := (ivSim tp).testApi
  have hv := iv_testApi_far
  cases hm : testApi ivB with
  | error e => rw [hm] at hv; cases hv
  | ok k =>
    rw [hm] at h hv
    obtain ⟨l', hl', hf⟩ := h.of_ok rfl
    have e : l = l' := Except.ok.inj (hl.symm.trans hl')
    subst e
    dsimp only at hv
    have hk : k.length = 8 := by have := congrArg List.length hv; simpa using this
    have h0 : 0 < k.length := by omega
    have h0' : 0 < l.length := hf.length_eq ▸ h0
    have hfar : far k[0] = true := by
      have : (k.map far)[0]'(by simp [h0]) = true := by simp only [hv]; rfl
      simpa using this
    exact fails_of_far (hf.get h0 h0') hfar (hp _ (List.getElem_mem h0'))

end Props

end Verif
