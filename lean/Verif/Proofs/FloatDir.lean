import Verif.Proofs.FloatPos
import Verif.Proofs.SkyAngles

/-!
# Elevation angle and azimuth in floating-point arithmetic
-/

namespace Verif

open Verif.Spec Verif.Props Pysolar Pysolar.Solar Pysolar.Constants Pysolar.Solartime

theorem bind_of_error {β γ : Type} {m : Py β} {e : PyErr} {f : β → Py γ} (h : m = .error e) :
    (m >>= f) = .error e := by
  subst h
  rfl

namespace Chain

open Ball hiding deg rad num

def tdec0 : Ball := .num (-57) 57 0
def tlha0 : Ball := .deg 362 0
def sinElev : Ball := .num (-2) 2 (75 / 10 ^ 16)
def azYb : Ball := .num (-1) 1 (35 / 10 ^ 16)
def azXb : Ball := .num (-5) 5 (135 / 10 ^ 16)

/-- The argument of `asin` in `get_topocentric_elevation_angle`. -/
def elevArg (B : Backend) (latitude dec H : B.α) : Py B.α := do
  let latitude_rad := B.radians latitude
  let tsd_rad := B.radians dec
  let tlha_rad := B.radians H
  return ((← B.sin latitude_rad) * (← B.sin tsd_rad))
    + (← B.cos latitude_rad) * (← B.cos tsd_rad) * (← B.cos tlha_rad)

/-- The arguments of `atan2` in `get_topocentric_azimuth_angle`. -/
def azY (B : Backend) (H : B.α) : Py B.α := B.sin (B.radians H)

def azX (B : Backend) (H latitude dec : B.α) : Py B.α := do
  let tlha_rad := B.radians H
  let latitude_rad := B.radians latitude
  let tsd_rad := B.radians dec
  return (← B.cos tlha_rad) * (← B.sin latitude_rad) - (← B.tan tsd_rad) * (← B.cos latitude_rad)

theorem elevArg_sim {B B' : Backend} (S : Sim B B') {x x'} (hx : S.r x x') {y y'} (hy : S.r y y') {z z'} (hz : S.r z z') :
    RelM S.strict S.r (elevArg B x y z) (elevArg B' x' y' z') := by
  unfold elevArg
  sim

theorem azX_sim {B B' : Backend} (S : Sim B B') {x x'} (hx : S.r x x') {y y'} (hy : S.r y y') {z z'} (hz : S.r z z') :
    RelM S.strict S.r (azX B x y z) (azX B' x' y' z') := by
  unfold azX
  sim

theorem azY_sim {B B' : Backend} (S : Sim B B') {x x'} (hx : S.r x x') :
    RelM S.strict S.r (azY B x) (azY B' x') := by
  unfold azY
  sim

theorem tea_split (B : Backend) (x y z : B.α) :
    get_topocentric_elevation_angle B x y z
      = elevArg B x y z >>= fun s => B.asin s >>= fun t => .ok (B.degrees t) := by
  unfold get_topocentric_elevation_angle elevArg
  simp only []
  cases B.sin (B.radians x) with
  | error e => rfl
  | ok a =>
  cases B.sin (B.radians y) with
  | error e => rfl
  | ok b =>
  cases B.cos (B.radians x) with
  | error e => rfl
  | ok c =>
  cases B.cos (B.radians y) with
  | error e => rfl
  | ok d =>
  cases B.cos (B.radians z) <;> rfl

theorem taa_split (B : Backend) (x y z : B.α) :
    get_topocentric_azimuth_angle B x y z
      = azY B x >>= fun a => azX B x y z >>= fun b => B.atan2 a b >>= fun t => .ok ((180.0 + B.degrees t) %. 360) := by
  unfold get_topocentric_azimuth_angle azY azX
  simp only []
  cases B.sin (B.radians x) with
  | error e => rfl
  | ok a =>
  cases B.cos (B.radians x) with
  | error e => rfl
  | ok b =>
  cases B.sin (B.radians y) with
  | error e => rfl
  | ok c =>
  cases B.tan (B.radians z) with
  | error e => rfl
  | ok d =>
  cases B.cos (B.radians y) <;> rfl

theorem sinElev_ok : inside (elevArg B latIn tdec0 tlha0) sinElev = true := by decide +kernel
theorem azY_ok : inside (azY B tlha0) azYb = true := by decide +kernel
theorem azX_ok : inside (azX B tlha0 latIn tdec0) azXb = true := by decide +kernel
theorem deg_ok : stronger (B.degrees (.num (-2) 2 (1 / 10 ^ 15))) (.num (-120) 120 (1 / 10 ^ 12)) = true := by
  decide +kernel
theorem az_ok : stronger (B.modq ((180.0 + B.degrees (.rad 4 (1 / 10 ^ 15)) : B.α)) 360) (.deg 361 (1 / 10 ^ 12)) = true := by
  decide +kernel

/-- The computed argument of `asin` against the exact one for the same angles. -/
theorem elevArg_rel (F : F64) (tp : ℝ) {φ δ H : ℝ} (hφ : |φ| ≤ 90) (hδ : |δ| ≤ 57) (hH : |H| ≤ 362) :
    ∃ s, elevArg (rndB F) (V.fin φ) (V.fin δ) (V.fin H) = .ok (V.fin s) ∧
      |s - (sunENU φ H δ).z| ≤ 75 / 10 ^ 16 := by
  have h1 := abs_le.1 hφ
  have h2 := abs_le.1 hδ
  have a : latIn.rel (dup F tp φ) := dup_rel F tp (by push_cast; linarith) (by push_cast; linarith)
  have b : tdec0.rel (dup F tp δ) := dup_rel F tp (by push_cast; linarith) (by push_cast; linarith)
  have c : tlha0.rel (dup F tp H) := ⟨H, H, rfl, by push_cast; exact hH, 0, by simp⟩
  obtain ⟨p, hp, hr⟩ := ok_of_inside (elevArg_sim (x := latIn) (x' := dup F tp φ) (y := tdec0) (y' := dup F tp δ)
    (z := tlha0) (z' := dup F tp H) (ballSim F tp).toSim a b c) sinElev_ok
  obtain ⟨s, s', rfl, -, -, he⟩ := hr
  obtain ⟨y, hy, hyr⟩ := RelM.of_ok (elevArg_sim (x := dup F tp φ) (x' := V.fin φ) (y := dup F tp δ) (y' := V.fin δ)
    (z := dup F tp H) (z' := V.fin H) (pairSnd (rndB F) (mathB tp) rfl).toSim rfl rfl rfl) hp
  obtain ⟨x, hx, hxr⟩ := RelM.of_ok (elevArg_sim (x := dup F tp φ) (x' := V.fin φ) (y := dup F tp δ) (y' := V.fin δ)
    (z := dup F tp H) (z' := V.fin H) (pairFst (rndB F) (mathB tp) rfl).toSim rfl rfl rfl) hp
  have e : elevArg (mathB tp) (num φ) (num δ) (num H) = .ok (num (sunENU φ H δ).z) := by
    simp [elevArg, up_eq]
  have e2 := Except.ok.inj (e.symm.trans hy)
  rw [← hyr] at e2
  have e3 : (sunENU φ H δ).z = s' := V.fin.inj e2
  refine ⟨s, ?_, ?_⟩
  · rw [hx, ← hxr]
  · rw [e3]
    refine he.trans (le_of_eq ?_)
    push_cast
    rfl

/-- The elevation angle for given declination and hour angle: it is off by at most 7.3e-6 degrees, and `asin` fails
only if the sun is that close to the zenith or the nadir. -/
theorem tea_float (F : F64) {φ δ H : ℝ} (hφ : |φ| ≤ 90) (hδ : |δ| ≤ 57) (hH : |H| ≤ 362) :
    (∃ e, get_topocentric_elevation_angle (rndB F) (V.fin φ) (V.fin δ) (V.fin H) = .ok (V.fin e) ∧
      |e - deg (Real.arcsin (sunENU φ H δ).z)| ≤ 73 / 10 ^ 7) ∨
    (get_topocentric_elevation_angle (rndB F) (V.fin φ) (V.fin δ) (V.fin H) = .error .valueError ∧
      90 - 73 / 10 ^ 7 ≤ |deg (Real.arcsin (sunENU φ H δ).z)|) := by
  obtain ⟨s, hs, he⟩ := elevArg_rel F 0 hφ hδ hH
  have hz := unit_z (sunENU_unit φ H δ)
  set z := (sunENU φ H δ).z with hzd
  have hzabs : |z| ≤ 1 := abs_le.2 hz
  have hp57 := pi57
  have hη : ∀ t, |t| ≤ 1264 / 10 ^ 10 → |deg t| ≤ 7.25e-6 := by
    intro t ht
    unfold deg
    rw [show t * 180 / Real.pi = t * (180 / Real.pi) by ring, abs_mul, abs_of_pos (by linarith [hp57.1] : 0 < 180 / Real.pi)]
    calc |t| * (180 / Real.pi) ≤ 1264 / 10 ^ 10 * 57.295779513083 :=
          mul_le_mul ht hp57.2.le (by linarith [hp57.1]) (by norm_num)
      _ ≤ _ := by norm_num
  have hdsub : ∀ a b : ℝ, deg a - deg b = deg (a - b) := fun a b => by unfold deg; ring
  by_cases h1 : -1 ≤ s ∧ s ≤ 1
  · left
    have hsabs : |s| ≤ 1 := abs_le.2 h1
    have hc := arcsin_close (η := 1264 / 10 ^ 10) hsabs hzabs he (by norm_num) (by norm_num) (by norm_num)
    have ha := F.asin_err s hsabs
    have hb : (Ball.num (-2) 2 (1 / 10 ^ 15)).rel (V.fin (F.asin s), V.fin (Real.arcsin s)) := by
      have h2 := Real.arcsin_le_pi_div_two s
      have h3 := Real.neg_pi_div_two_le_arcsin s
      have h4 := Real.pi_le_four
      refine ⟨_, _, rfl, by push_cast; linarith, by push_cast; linarith, ?_⟩
      push_cast
      refine ha.trans (by norm_num)
    obtain ⟨x, y, hxy, -, -, hd⟩ := rel_of_stronger (degrees_rel F 0 hb) deg_ok
    have hy : y = deg (Real.arcsin s) := by
      have := congrArg Prod.snd hxy
      exact (V.fin.inj this).symm
    have hx : (rndB F).degrees (V.fin (F.asin s)) = V.fin x := congrArg Prod.fst hxy
    refine ⟨x, ?_, ?_⟩
    · refine (tea_split _ _ _ _).trans (bind_of_ok hs ?_)
      refine bind_of_ok (a := V.fin (F.asin s)) ?_ (congrArg Except.ok hx)
      show (if -1 ≤ s ∧ s ≤ 1 then _ else _) = _
      rw [if_pos h1]
    · have h5 : x - deg (Real.arcsin z) = (x - y) + deg (Real.arcsin s - Real.arcsin z) := by
        rw [← hdsub, hy]; ring
      rw [h5]
      refine (abs_add_le _ _).trans ?_
      have := hη _ hc
      push_cast at hd
      norm_num at hd this ⊢
      linarith
  · right
    refine ⟨?_, ?_⟩
    · refine (tea_split _ _ _ _).trans (bind_of_ok hs ?_)
      exact bind_of_error (if_neg h1)
    · have hcase : 1 < s ∨ s < -1 := by
        by_contra hcon
        push Not at hcon
        exact h1 ⟨hcon.2, hcon.1⟩
      have he' := abs_le.1 he
      rcases hcase with h2 | h2
      · have hc := arcsin_close (a := 1) (b := z) (ε := 75 / 10 ^ 16) (η := 1264 / 10 ^ 10) (by simp) hzabs
          (by rw [abs_of_nonneg (by linarith [hz.2])]; linarith) (by norm_num) (by norm_num) (by norm_num)
        have h3 := abs_le.1 (hη _ hc)
        rw [← hdsub, Real.arcsin_one, deg_pi_div_two] at h3
        refine le_trans ?_ (le_abs_self _)
        norm_num at h3 ⊢
        linarith
      · have hc := arcsin_close (a := -1) (b := z) (ε := 75 / 10 ^ 16) (η := 1264 / 10 ^ 10) (by simp) hzabs
          (by rw [abs_sub_comm, abs_of_nonneg (by linarith [hz.1])]; linarith) (by norm_num) (by norm_num) (by norm_num)
        have h3 := abs_le.1 (hη _ hc)
        rw [← hdsub, Real.arcsin_neg, Real.arcsin_one, show deg (-(Real.pi / 2)) = -deg (Real.pi / 2) by unfold deg; ring,
          deg_pi_div_two] at h3
        refine le_trans ?_ (neg_le_abs _)
        norm_num at h3 ⊢
        linarith

/-! ## The azimuth -/

/-- A computed remainder modulo 360 lies between 0 and 360, where 360 itself may be reached by rounding. -/
theorem rnd_mod_range (F : F64) {w : V} {a : ℝ} (h : (rndB F).modq w 360 = V.fin a) : 0 ≤ a ∧ a ≤ 360 := by
  have h' : V.rnd F (V.modq w 360) = V.fin a := h
  cases w with
  | fin t =>
    have hm : V.modq (.fin t) 360 = .fin (mod360 t) := by
      simp [V.modq, mod360]
    rw [hm] at h'
    have h1 := mod360_nonneg t
    have h2 := mod360_lt t
    have e0 : F.rnd 0 = 0 := by simpa using F.rnd_int 0 (by norm_num)
    have e1 : F.rnd 360 = 360 := by simpa using F.rnd_int 360 (by norm_num)
    have hr : V.rnd F (.fin (mod360 t)) = .fin (F.rnd (mod360 t)) :=
      V.rnd_fin F (by rw [abs_of_nonneg h1]; exact h2.le.trans (by norm_num))
    have e : a = F.rnd (mod360 t) := V.fin.inj (h'.symm.trans hr)
    rw [e]
    constructor
    · have := F.rnd_mono h1
      rwa [e0] at this
    · have := F.rnd_mono h2.le
      rwa [e1] at this
  | pinf => cases h'
  | ninf => cases h'
  | nan => cases h'

theorem azArgs_radius {φ H δ : ℝ} (hδ : |δ| ≤ 57) :
    Real.cos (Spec.rad (deg (Real.arcsin (sunENU φ H δ).z))) ^ 2
      ≤ (Real.cos (Spec.rad H) * Real.sin (Spec.rad φ) - Real.tan (Spec.rad δ) * Real.cos (Spec.rad φ)) ^ 2
        + Real.sin (Spec.rad H) ^ 2 := by
  have hδ' := abs_le.1 hδ
  have hc := cos_rad_pos (x := δ) (by linarith) (by linarith)
  have hz := unit_z (sunENU_unit φ H δ)
  rw [rad_deg, Real.cos_arcsin, Real.sq_sqrt (by nlinarith [hz.1, hz.2])]
  have hu := sunENU_unit φ H δ
  have hx : (sunENU φ H δ).x = -(Real.cos (Spec.rad δ) * Real.sin (Spec.rad H)) := by
    simp [sunENU, toHorizon, sph]
  have hy : (sunENU φ H δ).y = -(Real.cos (Spec.rad δ)
      * (Real.cos (Spec.rad H) * Real.sin (Spec.rad φ) - Real.tan (Spec.rad δ) * Real.cos (Spec.rad φ))) := by
    rw [Real.tan_eq_sin_div_cos]
    simp only [sunENU, toHorizon, sph]
    field_simp
    ring
  set X := Real.cos (Spec.rad H) * Real.sin (Spec.rad φ) - Real.tan (Spec.rad δ) * Real.cos (Spec.rad φ)
  set Y := Real.sin (Spec.rad H)
  simp only [Vec3.dot] at hu
  rw [hx, hy] at hu
  have e : 1 - (sunENU φ H δ).z ^ 2 = Real.cos (Spec.rad δ) ^ 2 * (X ^ 2 + Y ^ 2) := by linarith
  rw [e]
  have h1 := Real.cos_sq_le_one (Spec.rad δ)
  nlinarith [sq_nonneg X, sq_nonneg Y]

theorem azArgs_rel (F : F64) (tp : ℝ) {φ δ H : ℝ} (hφ : |φ| ≤ 90) (hδ : |δ| ≤ 57) (hH : |H| ≤ 362) :
    ∃ y x, azY (rndB F) (V.fin H) = .ok (V.fin y) ∧ azX (rndB F) (V.fin H) (V.fin φ) (V.fin δ) = .ok (V.fin x) ∧
      |y - Real.sin (Spec.rad H)| ≤ 35 / 10 ^ 16 ∧
      |x - (Real.cos (Spec.rad H) * Real.sin (Spec.rad φ) - Real.tan (Spec.rad δ) * Real.cos (Spec.rad φ))|
        ≤ 135 / 10 ^ 16 := by
  have h1 := abs_le.1 hφ
  have h2 := abs_le.1 hδ
  have hc := cos_rad_pos (x := δ) (by linarith) (by linarith)
  have a : latIn.rel (dup F tp φ) := dup_rel F tp (by push_cast; linarith) (by push_cast; linarith)
  have b : tdec0.rel (dup F tp δ) := dup_rel F tp (by push_cast; linarith) (by push_cast; linarith)
  have c : tlha0.rel (dup F tp H) := ⟨H, H, rfl, by push_cast; exact hH, 0, by simp⟩
  obtain ⟨p, hp, hr⟩ := ok_of_inside (azX_sim (x := tlha0) (x' := dup F tp H) (y := latIn) (y' := dup F tp φ)
    (z := tdec0) (z' := dup F tp δ) (ballSim F tp).toSim c a b) azX_ok
  obtain ⟨q, hq, hqr⟩ := ok_of_inside (azY_sim (x := tlha0) (x' := dup F tp H) (ballSim F tp).toSim c) azY_ok
  obtain ⟨x, x', rfl, -, -, hex⟩ := hr
  obtain ⟨y, y', rfl, -, -, hey⟩ := hqr
  obtain ⟨u, hu, hur⟩ := RelM.of_ok (azX_sim (x := dup F tp H) (x' := V.fin H) (y := dup F tp φ) (y' := V.fin φ)
    (z := dup F tp δ) (z' := V.fin δ) (pairSnd (rndB F) (mathB tp) rfl).toSim rfl rfl rfl) hp
  obtain ⟨v, hv, hvr⟩ := RelM.of_ok (azX_sim (x := dup F tp H) (x' := V.fin H) (y := dup F tp φ) (y' := V.fin φ)
    (z := dup F tp δ) (z' := V.fin δ) (pairFst (rndB F) (mathB tp) rfl).toSim rfl rfl rfl) hp
  obtain ⟨u', hu', hur'⟩ := RelM.of_ok (azY_sim (x := dup F tp H) (x' := V.fin H)
    (pairSnd (rndB F) (mathB tp) rfl).toSim rfl) hq
  obtain ⟨v', hv', hvr'⟩ := RelM.of_ok (azY_sim (x := dup F tp H) (x' := V.fin H)
    (pairFst (rndB F) (mathB tp) rfl).toSim rfl) hq
  have e : azX (mathB tp) (num H) (num φ) (num δ) = .ok (num (Real.cos (Spec.rad H) * Real.sin (Spec.rad φ)
      - tanP tp (Spec.rad δ) * Real.cos (Spec.rad φ))) := by
    simp [azX]
  rw [tanP, if_neg hc.ne'] at e
  have e' : azY (mathB tp) (num H) = .ok (num (Real.sin (Spec.rad H))) := by simp [azY]
  have e2 := Except.ok.inj (e.symm.trans hu)
  rw [← hur] at e2
  have e2' := Except.ok.inj (e'.symm.trans hu')
  rw [← hur'] at e2'
  refine ⟨y, x, ?_, ?_, ?_, ?_⟩
  · rw [hv', ← hvr']
  · rw [hv, ← hvr]
  · rw [V.fin.inj e2']
    refine hey.trans (le_of_eq ?_)
    push_cast
    rfl
  · rw [V.fin.inj e2]
    refine hex.trans (le_of_eq ?_)
    push_cast
    rfl

/-- The azimuth for given declination and hour angle: between 0 and 360, and off by at most 5e-12 degrees divided by
the cosine of the elevation angle. -/
theorem taa_float (F : F64) (tp : ℝ) {φ δ H : ℝ} (hφ : |φ| ≤ 90) (hδ : |δ| ≤ 57) (hH : |H| ≤ 362) :
    ∃ a A, get_topocentric_azimuth_angle (rndB F) (V.fin H) (V.fin φ) (V.fin δ) = .ok (V.fin a) ∧
      get_topocentric_azimuth_angle (mathB tp) (num H) (num φ) (num δ) = .ok (num A) ∧ 0 ≤ a ∧ a ≤ 360 ∧
      ∃ k : ℤ, |Real.cos (Spec.rad (deg (Real.arcsin (sunENU φ H δ).z)))| * |a - A - 360 * k| ≤ 7 / 10 ^ 12 := by
  obtain ⟨y, x, hy, hx, hye, hxe⟩ := azArgs_rel F tp hφ hδ hH
  have hrad := azArgs_radius (φ := φ) (H := H) hδ
  have hδ' := abs_le.1 hδ
  have hc := cos_rad_pos (x := δ) (by linarith) (by linarith)
  have hA := taa_eval (tp := tp) H φ δ
  rw [tanP, if_neg hc.ne'] at hA
  set X := Real.cos (Spec.rad H) * Real.sin (Spec.rad φ) - Real.tan (Spec.rad δ) * Real.cos (Spec.rad φ)
  set Y := Real.sin (Spec.rad H)
  set ρ := Real.cos (Spec.rad (deg (Real.arcsin (sunENU φ H δ).z))) with hρ
  have hρ0 : 0 ≤ ρ := by rw [hρ, rad_deg]; exact Real.cos_arcsin_nonneg _
  have hρ1 : ρ ≤ 1 := Real.cos_le_one _
  set A := mod360 (180 + deg (Complex.arg ⟨X, Y⟩)) with hAd
  have hat := F.atan2_err y x
  have hpi := Real.pi_lt_d2
  -- the computed angle against the exact angle of the computed arguments
  have hb : (Ball.rad 4 (1 / 10 ^ 15)).rel (V.fin (F.atan2 y x), V.fin (Complex.arg ⟨x, y⟩)) := by
    refine ⟨_, _, rfl, ?_, 0, ?_⟩
    · have h5 := Complex.abs_arg_le_pi ⟨x, y⟩
      push_cast
      calc |F.atan2 y x| = |(F.atan2 y x - Complex.arg ⟨x, y⟩) + Complex.arg ⟨x, y⟩| := by ring_nf
        _ ≤ _ := abs_add_le _ _
        _ ≤ 4 := by
          norm_num at hat hpi ⊢
          linarith
    · push_cast
      simp only [mul_zero, sub_zero]
      exact hat.trans (by norm_num)
  obtain ⟨a, A', haA, -, k, hk⟩ := rel_of_stronger (modq_rel F tp 360 (add_rel F tp (lit_rel F tp 180.0)
    (degrees_rel F tp hb))) az_ok
  have ha : (rndB F).modq ((180.0 : (rndB F).α) + (rndB F).degrees (V.fin (F.atan2 y x))) 360 = V.fin a :=
    congrArg Prod.fst haA
  have hA' : A' = mod360 (180 + deg (Complex.arg ⟨x, y⟩)) := by
    have h1 : (mathB tp).modq ((180.0 : (mathB tp).α) + (mathB tp).degrees (num (Complex.arg ⟨x, y⟩))) 360 = V.fin A' :=
      congrArg Prod.snd haA
    have h2 : (mathB tp).modq ((180.0 : (mathB tp).α) + (mathB tp).degrees (num (Complex.arg ⟨x, y⟩))) 360
        = num (mod360 (180 + deg (Complex.arg ⟨x, y⟩))) := by
      simp
      norm_num
    exact V.fin.inj (h1.symm.trans h2)
  push_cast at hk
  refine ⟨a, A, (taa_split _ _ _ _).trans (bind_of_ok hy (bind_of_ok hx (congrArg Except.ok ha))), hA, ?_, ?_, ?_⟩
  · exact (rnd_mod_range F ha).1
  · exact (rnd_mod_range F ha).2
  · have hm : ∀ t, ∃ j : ℤ, mod360 t = t + 360 * j := fun t => ⟨-⌊t / 360⌋, by unfold mod360; push_cast; ring⟩
    obtain ⟨j1, hj1⟩ := hm (180 + deg (Complex.arg ⟨x, y⟩))
    obtain ⟨j2, hj2⟩ := hm (180 + deg (Complex.arg ⟨X, Y⟩))
    have hp := Real.pi_pos
    have hp57 := pi57
    by_cases hsmall : ρ ≤ 35 / 10 ^ 15
    · refine ⟨round ((a - A) / 360), ?_⟩
      have h1 := abs_sub_round ((a - A) / 360)
      have h2 : |a - A - 360 * (round ((a - A) / 360) : ℝ)| ≤ 180 := by
        rw [show a - A - 360 * (round ((a - A) / 360) : ℝ) = 360 * ((a - A) / 360 - round ((a - A) / 360)) by ring,
          abs_mul, abs_of_pos (by norm_num : (0 : ℝ) < 360)]
        linarith
      rw [abs_of_nonneg hρ0]
      calc ρ * |a - A - 360 * (round ((a - A) / 360) : ℝ)| ≤ 35 / 10 ^ 15 * 180 :=
            mul_le_mul hsmall h2 (abs_nonneg _) (by norm_num)
        _ ≤ _ := by norm_num
    · push Not at hsmall
      obtain ⟨i, hi⟩ := arg_close hxe hye (lt_trans (by norm_num) hsmall) hrad (by linarith)
      refine ⟨k + j1 - j2 + i, ?_⟩
      have e : a - A - 360 * ((k + j1 - j2 + i : ℤ) : ℝ) = (a - A' - 360 * k)
          + deg (Complex.arg ⟨x, y⟩ - Complex.arg ⟨X, Y⟩ - 2 * Real.pi * i) := by
        rw [hA', hAd, hj1, hj2]
        unfold deg
        push_cast
        field_simp
        ring
      rw [e, abs_of_nonneg hρ0]
      have hi' : |deg (Complex.arg ⟨x, y⟩ - Complex.arg ⟨X, Y⟩ - 2 * Real.pi * i)| ≤ 57.3 * (2 * ((135 / 10 ^ 16 + 35 / 10 ^ 16) / ρ)) := by
        unfold deg
        rw [mul_div_assoc, abs_mul, abs_of_pos (by linarith [hp57.1] : 0 < 180 / Real.pi), mul_comm]
        exact mul_le_mul (by linarith [hp57.2]) hi (abs_nonneg _) (by norm_num)
      calc ρ * |(a - A' - 360 * k) + deg (Complex.arg ⟨x, y⟩ - Complex.arg ⟨X, Y⟩ - 2 * Real.pi * i)|
          ≤ ρ * (1 / 10 ^ 12 + 57.3 * (2 * ((135 / 10 ^ 16 + 35 / 10 ^ 16) / ρ))) :=
            mul_le_mul_of_nonneg_left ((abs_add_le _ _).trans (add_le_add hk hi')) hρ0
        _ = ρ * (1 / 10 ^ 12) + 57.3 * (2 * (135 / 10 ^ 16 + 35 / 10 ^ 16)) := by
            have : ρ ≠ 0 := ne_of_gt (lt_trans (by norm_num) hsmall)
            field_simp
        _ ≤ _ := by nlinarith

end Chain

end Verif
