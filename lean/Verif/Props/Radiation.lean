import Verif.Props.Fast
import Mathlib.Analysis.Complex.ExponentialBounds

/-!
# C39-C42, C45: radiation and extraterrestrial irradiance
-/

namespace Verif.Props

open Verif.Spec Pysolar Pysolar.Radiation Pysolar.Numeric Real

variable {tp : ℝ}

theorem m_zero : (@OfNat.ofNat (mathB tp).α 0 (Backend.instOfNatα 0)) = num 0 := by
  rw [m_ofNat]; congr 1; exact Nat.cast_zero

theorem m_one : (@OfNat.ofNat (mathB tp).α 1 (Backend.instOfNatα 1)) = num 1 := by
  rw [m_ofNat]; congr 1; exact Nat.cast_one

/-! ## C39 -/

noncomputable def fluxF (n : ℝ) : ℝ := 1160 + 75 * sin (2 * π / 365 * (n - 275))
noncomputable def depthF (n : ℝ) : ℝ := 0.174 + 0.035 * sin (2 * π / 365 * (n - 100))

theorem flux_eval (n : ℝ) : get_apparent_extraterrestrial_flux (mathB tp) (num n) = .ok (num (fluxF n)) := by
  have h : ((365 : ℚ) : ℝ) = 365 := by norm_num
  simp only [get_apparent_extraterrestrial_flux, m_ofNat, m_pi, m_mul, m_divq, m_sub, m_sin, ok_bind, m_add,
    pure_eq_ok, fluxF, h]
  norm_num

theorem depth_eval (n : ℝ) : get_optical_depth (mathB tp) (num n) = .ok (num (depthF n)) := by
  have h : ((365 : ℚ) : ℝ) = 365 := by norm_num
  simp only [get_optical_depth, m_ofNat, m_sci, m_pi, m_mul, m_divq, m_sub, m_sin, ok_bind, m_add,
    pure_eq_ok, depthF, h]
  norm_num

theorem fluxF_bounds (n : ℝ) : 1085 ≤ fluxF n ∧ fluxF n ≤ 1235 := by
  have := abs_le.mp (abs_sin_le_one (2 * π / 365 * (n - 275)))
  unfold fluxF
  constructor <;> linarith

theorem depthF_bounds (n : ℝ) : 0.139 ≤ depthF n ∧ depthF n ≤ 0.209 := by
  have := abs_le.mp (abs_sin_le_one (2 * π / 365 * (n - 100)))
  unfold depthF
  norm_num
  constructor <;> linarith

/-- C39. -/
theorem C39_ranges (tp n : ℝ) :
    (∃ x, get_apparent_extraterrestrial_flux (mathB tp) (num n) = .ok (num x) ∧ 1085 ≤ x ∧ x ≤ 1235) ∧
    (∃ x, get_optical_depth (mathB tp) (num n) = .ok (num x) ∧ 0.139 ≤ x ∧ x ≤ 0.209) :=
  ⟨⟨_, flux_eval n, fluxF_bounds n⟩, ⟨_, depth_eval n, depthF_bounds n⟩⟩

/-- C39: the ranges are attained (day 275 + 365/4, and so on), so they cannot be narrowed. -/
theorem C39_attained (tp : ℝ) :
    get_apparent_extraterrestrial_flux (mathB tp) (num (275 + 365 / 4)) = .ok (num 1235) ∧
    get_apparent_extraterrestrial_flux (mathB tp) (num (275 - 365 / 4)) = .ok (num 1085) ∧
    get_optical_depth (mathB tp) (num (100 + 365 / 4)) = .ok (num 0.209) ∧
    get_optical_depth (mathB tp) (num (100 - 365 / 4)) = .ok (num 0.139) := by
  have e1 : ∀ a : ℝ, 2 * π / 365 * (a + 365 / 4 - a) = π / 2 := fun a => by ring
  have e2 : ∀ a : ℝ, 2 * π / 365 * (a - 365 / 4 - a) = -(π / 2) := fun a => by ring
  rw [flux_eval, flux_eval, depth_eval, depth_eval]
  unfold fluxF depthF
  rw [e1, e2, e1, e2, sin_neg, sin_pi_div_two]
  norm_num

/-! ## C40, C41 -/

/-- The value of `get_radiation_direct` when the sine of the altitude is not zero. -/
theorem direct_eval {d : DateTime} {c : Civil} (h : UtcFields d c) {alt : ℝ} (hs : sin (rad alt) ≠ 0)
    (he : exp (-(depthF (yday c.date) / sin (rad alt))) < 2 ^ 1024) :
    get_radiation_direct (mathB tp) (.dt d) (num alt)
      = .ok (num (if 0 < alt then fluxF (yday c.date) * exp (-(depthF (yday c.date) / sin (rad alt))) else 0)) := by
  have hx : -1 * depthF (yday c.date) * (1 / sin (rad alt)) = -(depthF (yday c.date) / sin (rad alt)) := by
    ring
  have ham : get_air_mass_ratio (mathB tp) (num alt) = .ok (num (1 / sin (rad alt))) := by
    simp only [get_air_mass_ratio, m_ofNat, m_radians, m_sin, ok_bind, m_div _ hs]
    norm_num
  simp only [get_radiation_direct, yday_eval h, ok_bind, flux_eval, depth_eval, ham, m_zero, m_one, m_neg, m_mul,
    hx, m_exp he, m_lt, m_ofC, pure_eq_ok]
  split_ifs
  · rw [m_mul, mul_one]
  · rw [m_mul, mul_zero]

theorem direct_eval_overflow {d : DateTime} {c : Civil} (h : UtcFields d c) {alt : ℝ} (hs : sin (rad alt) ≠ 0)
    (he : 2 ^ 1024 ≤ exp (-(depthF (yday c.date) / sin (rad alt)))) :
    get_radiation_direct (mathB tp) (.dt d) (num alt) = .error .overflow := by
  have hx : -1 * depthF (yday c.date) * (1 / sin (rad alt)) = -(depthF (yday c.date) / sin (rad alt)) := by
    ring
  have ham : get_air_mass_ratio (mathB tp) (num alt) = .ok (num (1 / sin (rad alt))) := by
    simp only [get_air_mass_ratio, m_ofNat, m_radians, m_sin, ok_bind, m_div _ hs]
    norm_num
  simp only [get_radiation_direct, yday_eval h, ok_bind, flux_eval, depth_eval, ham, m_zero, m_one, m_neg, m_mul,
    hx, m_exp_err he, error_bind]

theorem sin_rad_pos' {a : ℝ} (h1 : 0 < a) (h2 : a ≤ 90) : 0 < sin (rad a) :=
  sin_rad_pos h1 (by linarith)

theorem sin_rad_lt {a b : ℝ} (h1 : -90 ≤ a) (h : a < b) (h2 : b ≤ 90) : sin (rad a) < sin (rad b) := by
  apply sin_lt_sin_of_lt_of_le_pi_div_two
  · rw [← rad_90, ← rad_neg, rad_le_rad]; exact h1
  · rw [← rad_90, rad_le_rad]; exact h2
  · rw [rad_lt_rad]; exact h

theorem exp_small {x : ℝ} (h : x ≤ 0) : exp x < 2 ^ 1024 :=
  (exp_le_one_iff.mpr h).trans_lt (one_lt_pow₀ (by norm_num) (by norm_num))

/-- C40: by day, the direct radiation is `flux * exp(-depth / sin altitude)`, strictly between 0 and the flux. -/
theorem C40_range (tp : ℝ) (d : DateTime) (c : Civil) (h : UtcFields d c) (alt : ℝ) (h1 : 0 < alt)
    (h2 : alt ≤ 90) :
    ∃ flux depth r, get_apparent_extraterrestrial_flux (mathB tp) (num (yday c.date)) = .ok (num flux) ∧
      get_optical_depth (mathB tp) (num (yday c.date)) = .ok (num depth) ∧
      get_radiation_direct (mathB tp) (.dt d) (num alt) = .ok (num r) ∧
      r = flux * exp (-(depth / sin (rad alt))) ∧ 0 < r ∧ r < flux := by
  have hs := sin_rad_pos' h1 h2
  have hd := depthF_bounds (yday c.date)
  have hf := fluxF_bounds (yday c.date)
  have hd0 : 0 < depthF (yday c.date) := lt_of_lt_of_le (by norm_num) hd.1
  have hx : -(depthF (yday c.date) / sin (rad alt)) < 0 := neg_lt_zero.mpr (div_pos hd0 hs)
  have he := direct_eval (tp := tp) h hs.ne' (exp_small hx.le)
  rw [if_pos h1] at he
  refine ⟨_, _, _, flux_eval _, depth_eval _, he, rfl, ?_, ?_⟩
  · exact mul_pos (by linarith) (exp_pos _)
  · have := exp_lt_one_iff.mpr hx
    nlinarith

/-- C40: strictly increasing in the altitude. -/
theorem C40_increasing (tp : ℝ) (d : DateTime) (c : Civil) (h : UtcFields d c) (a b : ℝ) (h1 : 0 < a)
    (hab : a < b) (h2 : b ≤ 90) :
    ∃ r s, get_radiation_direct (mathB tp) (.dt d) (num a) = .ok (num r) ∧
      get_radiation_direct (mathB tp) (.dt d) (num b) = .ok (num s) ∧ r < s := by
  obtain ⟨f, k, r, hf, hk, hr, er, -, -⟩ := C40_range tp d c h a h1 (by linarith)
  obtain ⟨f', k', s, hf', hk', hs, es, -, -⟩ := C40_range tp d c h b (by linarith) h2
  rw [hf] at hf'
  rw [hk] at hk'
  have e1 := num_injective (Except.ok.inj hf')
  have e2 := num_injective (Except.ok.inj hk')
  subst e1 e2
  refine ⟨r, s, hr, hs, ?_⟩
  rw [er, es]
  rw [flux_eval] at hf
  rw [depth_eval] at hk
  rw [← num_injective (Except.ok.inj hf), ← num_injective (Except.ok.inj hk)]
  have hd0 : 0 < depthF (yday c.date) := lt_of_lt_of_le (by norm_num) (depthF_bounds _).1
  have hf0 : 0 < fluxF (yday c.date) := lt_of_lt_of_le (by norm_num) (fluxF_bounds _).1
  apply mul_lt_mul_of_pos_left _ hf0
  rw [exp_lt_exp, neg_lt_neg_iff]
  exact div_lt_div_of_pos_left hd0 (sin_rad_pos' h1 (by linarith)) (sin_rad_lt (by linarith) hab h2)

example : UtcFields sampleDT sampleUTC := sample_utc

theorem two_pow_le_exp {x : ℝ} (h : 1024 ≤ x) : (2 : ℝ) ^ 1024 ≤ exp x := by
  calc (2 : ℝ) ^ 1024 ≤ exp 1 ^ 1024 := by
        apply pow_le_pow_left₀ (by norm_num)
        have := exp_one_gt_d9
        norm_num at *
        linarith
    _ = exp 1024 := by rw [← exp_nat_mul]; norm_num
    _ ≤ exp x := exp_le_exp.mpr h

theorem exp_lt_two_pow {x : ℝ} (h : x ≤ 704) : exp x < (2 : ℝ) ^ 1024 := by
  have h1 : exp 1 ^ 88 < (2 : ℝ) ^ 128 := by
    calc exp 1 ^ 88 < 2.7182818286 ^ 88 :=
          pow_lt_pow_left₀ exp_one_lt_d9 (exp_pos 1).le (by norm_num)
      _ < 2 ^ 128 := by norm_num
  calc exp x ≤ exp 704 := exp_le_exp.mpr h
    _ = (exp 1 ^ 88) ^ 8 := by rw [← exp_nat_mul, ← exp_nat_mul]; norm_num
    _ < (2 ^ 128) ^ 8 := pow_lt_pow_left₀ h1 (by positivity) (by norm_num)
    _ = 2 ^ 1024 := by rw [← pow_mul]

/-- C41 is false: just below the horizon, `math.exp` overflows before the result is multiplied by 0.
Witness: any datetime, altitude -0.001 degrees. -/
theorem C41_refuted (tp : ℝ) : ¬ ∀ (d : DateTime) (c : Civil) (alt : ℝ), UtcFields d c → -90 ≤ alt → alt ≤ 0 →
    get_radiation_direct (mathB tp) (.dt d) (num alt) = .ok (num 0) := by
  intro hall
  have h := hall sampleDT sampleUTC (-0.001) sample_utc (by norm_num) (by norm_num)
  have hs0 : 0 < sin (rad 0.001) := sin_rad_pos' (by norm_num) (by norm_num)
  have hs1 : sin (rad 0.001) ≤ 0.00003 := by
    have hr : 0 ≤ rad 0.001 := by rw [← rad_zero, rad_le_rad]; norm_num
    refine (sin_le hr).trans ?_
    have := pi_lt_four
    unfold rad
    norm_num at *
    linarith
  have e : sin (rad (-0.001)) = -sin (rad 0.001) := by rw [rad_neg, sin_neg]
  have hd := (depthF_bounds (yday sampleUTC.date)).1
  rw [direct_eval_overflow sample_utc (by rw [e]; linarith)] at h
  · simp at h
  · apply two_pow_le_exp
    rw [e, div_neg, neg_neg, le_div_iff₀ hs0]
    norm_num at *
    linarith

/-- C41, what holds: at altitude 0 and at every altitude in [-90, -0.0171] the result is 0; in between it is 0
if `exp(depth / |sin altitude|)` is a float, and otherwise `OverflowError` is raised.  Missing from the full
statement (`∀ alt ∈ [-90, 0]`, result 0): the band (-0.0171, 0), where the function may raise. -/
theorem C41_zero_partial (tp : ℝ) (d : DateTime) (c : Civil) (h : UtcFields d c) (alt : ℝ) (h1 : -90 ≤ alt)
    (h2 : alt ≤ -0.0171 ∨ alt = 0) : get_radiation_direct (mathB tp) (.dt d) (num alt) = .ok (num 0) := by
  rcases h2 with h2 | rfl
  · have hs : sin (rad (-alt)) ≥ sin (rad 0.0171) := by
      rcases (show 0.0171 ≤ -alt by linarith).eq_or_lt with h' | h'
      · rw [← h']
      · exact (sin_rad_lt (by norm_num) h' (by linarith)).le
    have hlow : (0.000297 : ℝ) < sin (rad 0.0171) := by
      have hr : 0 < rad 0.0171 := by rw [← rad_zero, rad_lt_rad]; norm_num
      have hr1 : 0.000298 < rad 0.0171 := by
        have := pi_gt_d4
        unfold rad
        norm_num at *
        linarith
      have hr2 : rad 0.0171 < 0.0003 := by
        have := pi_lt_d4
        unfold rad
        norm_num at *
        linarith
      have := sin_gt_sub_cube hr
      generalize rad 0.0171 = x at *
      have h3 : x ^ 3 ≤ 0.0003 ^ 3 := pow_le_pow_left₀ hr.le hr2.le 3
      norm_num at *
      linarith
    have e : sin (rad alt) = -sin (rad (-alt)) := by rw [rad_neg, sin_neg, neg_neg]
    have hpos : 0 < sin (rad (-alt)) := lt_of_lt_of_le (lt_trans (by norm_num) hlow) hs
    rw [direct_eval h (by rw [e]; linarith), if_neg (by norm_num at *; linarith)]
    apply exp_lt_two_pow
    rw [e, div_neg, neg_neg, div_le_iff₀ hpos]
    have := (depthF_bounds (yday c.date)).2
    norm_num at *
    linarith
  · have hd : 0 < depthF (yday c.date) := lt_of_lt_of_le (by norm_num) (depthF_bounds _).1
    have ham : get_air_mass_ratio (mathB tp) (num 0) = .ok (mathB tp).inf := by
      simp only [get_air_mass_ratio, m_radians, rad_zero, m_sin, sin_zero, ok_bind, m_div_zero]
    have hexp : (mathB tp).exp ((num (-1 * depthF (yday c.date)) : (mathB tp).α) * (mathB tp).inf) = .ok (num 0) := by
      change (mathB tp).exp (V.infMul (-1 * depthF (yday c.date)) V.pinf) = _
      unfold V.infMul
      rw [if_neg (by linarith), if_pos (by linarith)]
      rfl
    simp only [get_radiation_direct, yday_eval h, ok_bind, flux_eval, depth_eval, ham, m_zero, m_one, m_neg, m_mul,
      hexp, m_lt, m_ofC, pure_eq_ok]
    simp

/-- C41, what holds in between: 0 or `OverflowError`, and which. -/
theorem C41_band_partial (tp : ℝ) (d : DateTime) (c : Civil) (h : UtcFields d c) (alt : ℝ) (h1 : -90 ≤ alt)
    (h2 : alt < 0) :
    ∃ depth, get_optical_depth (mathB tp) (num (yday c.date)) = .ok (num depth) ∧
      (exp (depth / |sin (rad alt)|) < 2 ^ 1024 →
        get_radiation_direct (mathB tp) (.dt d) (num alt) = .ok (num 0)) ∧
      (2 ^ 1024 ≤ exp (depth / |sin (rad alt)|) →
        get_radiation_direct (mathB tp) (.dt d) (num alt) = .error .overflow) := by
  have hs : sin (rad alt) < 0 := by
    have := sin_rad_lt h1 h2 (by norm_num)
    rwa [rad_zero, sin_zero] at this
  refine ⟨_, depth_eval _, ?_, ?_⟩
  · rw [abs_of_neg hs, div_neg]
    intro he
    rw [direct_eval h hs.ne he, if_neg (by linarith)]
  · rw [abs_of_neg hs, div_neg]
    exact direct_eval_overflow h hs.ne

/-! ## C42, C45 -/

/-- The factor for the eccentricity of the orbit. -/
noncomputable def eccF (n : ℝ) : ℝ :=
  1.00010 + 0.034221 * cos (2 * π * (n - 1) / 365) + 0.001280 * sin (2 * π * (n - 1) / 365)
    + 0.000719 * cos (2 * (2 * π * (n - 1) / 365)) + 0.000077 * sin (2 * (2 * π * (n - 1) / 365))

theorem eccF_bounds (n : ℝ) : 0.9638 ≤ eccF n ∧ eccF n ≤ 1.0364 := by
  have h1 := abs_le.mp (abs_cos_le_one (2 * π * (n - 1) / 365))
  have h2 := abs_le.mp (abs_sin_le_one (2 * π * (n - 1) / 365))
  have h3 := abs_le.mp (abs_cos_le_one (2 * (2 * π * (n - 1) / 365)))
  have h4 := abs_le.mp (abs_sin_le_one (2 * (2 * π * (n - 1) / 365)))
  unfold eccF
  norm_num
  constructor <;> linarith

theorem extra_eval {d : DateTime} {c : Civil} (h : UtcFields d c) (lat lon SC : ℝ) :
    Util.extraterrestrial_irrad (mathB tp) (num lat) (num lon) (.dt d) (num SC)
      = .ok (num (if 0 < (sunENU lat (haF lon c) (decF (yday c.date))).z
          then SC * (sunENU lat (haF lon c) (decF (yday c.date))).z * eccF (yday c.date) else 0)) := by
  have hy : Util.utcYday (B := mathB tp) (.dt d) = .ok (num (yday c.date)) := by
    simp [Util.utcYday, utctimetuple_dt, utctimetuple_of_utcFields h]
  have h1 : ((365.0 : ℚ) : ℝ) = 365 := by norm_num
  have h2 : sin (rad lat) * sin (rad (decF (yday c.date)))
      + cos (rad lat) * cos (rad (decF (yday c.date))) * cos (rad (haF lon c))
      = (sunENU lat (haF lon c) (decF (yday c.date))).z := by
    rw [← up_eq, add_comm]
  simp only [Util.extraterrestrial_irrad, guard_denotes h.2, ok_bind, hy, m_ofNat, m_sci, m_pi, m_mul, m_sub,
    m_divq, m_cos, m_sin, decl_eval, ha_eval h, m_radians, m_add, m_lt, m_truth, h1, h2, eccF, pure_eq_ok]
  by_cases hz : 0 < (sunENU lat (haF lon c) (decF (yday c.date))).z
  · simp only [hz, if_true]
    norm_num
    exact fun hn => absurd hz (not_lt.mpr hn)
  · simp only [hz, if_false]
    norm_num
    exact fun hp => absurd hp hz

/-- C42, in terms of the altitude returned by `get_altitude_fast`. -/
theorem C42_extraterrestrial (tp : ℝ) (d : DateTime) (c : Civil) (h : UtcFields d c) (lat lon SC : ℝ)
    (hSC : 0 < SC) :
    ∃ alt r, Solar.get_altitude_fast (mathB tp) (num lat) (num lon) (.dt d) = .ok (num alt) ∧
      Util.extraterrestrial_irrad (mathB tp) (num lat) (num lon) (.dt d) (num SC) = .ok (num r) ∧
      (alt ≤ 0 → r = 0) ∧
      (0 < alt → 0 < r ∧ 0.9638 * SC * sin (rad alt) ≤ r ∧ r ≤ 1.0364 * SC * sin (rad alt) ∧ r ≤ 1.0364 * SC) := by
  obtain ⟨_, _, alt, hd, hH, ha, hl, hu, hs, -⟩ := C36_altitude_fast tp d c h lat lon
  rw [decl_eval] at hd
  rw [ha_eval h] at hH
  rw [← num_injective (Except.ok.inj hd), ← num_injective (Except.ok.inj hH)] at hs
  refine ⟨alt, _, ha, extra_eval h lat lon SC, ?_, ?_⟩
  · intro h0
    rw [if_neg]
    rw [← hs, not_lt]
    rcases h0.eq_or_lt with rfl | h0
    · rw [rad_zero, sin_zero]
    · have := sin_rad_lt hl h0 (by norm_num)
      rw [rad_zero, sin_zero] at this
      exact this.le
  · intro h0
    have hz := sin_rad_pos' h0 hu
    have he := eccF_bounds (yday c.date)
    have he0 : 0 < eccF (yday c.date) := lt_of_lt_of_le (by norm_num) he.1
    rw [← hs, if_pos hz]
    have h1 := sin_le_one (rad alt)
    have hp : 0 < SC * sin (rad alt) := mul_pos hSC hz
    have hple : SC * sin (rad alt) ≤ SC := by nlinarith
    norm_num at *
    refine ⟨by positivity, by nlinarith, by nlinarith, by nlinarith⟩

/-- C45: the clear index. -/
theorem C45_clear_index (tp : ℝ) (d : DateTime) (c : Civil) (h : UtcFields d c) (lat lon ghi : ℝ) :
    ∃ alt e, Solar.get_altitude_fast (mathB tp) (num lat) (num lon) (.dt d) = .ok (num alt) ∧
      Util.extraterrestrial_irrad (mathB tp) (num lat) (num lon) (.dt d) = .ok (num e) ∧
      (Util.clear_index (mathB tp) (num ghi) (num lat) (num lon) (.dt d) = .error .zeroDivision ↔ alt ≤ 0) ∧
      (0 < alt → Util.clear_index (mathB tp) (num ghi) (num lat) (num lon) (.dt d) = .ok (num (ghi / e))) := by
  obtain ⟨alt, e, ha, he, h0, h1⟩ := C42_extraterrestrial tp d c h lat lon (Util.SC_default : ℚ)
    (by norm_num [Util.SC_default])
  refine ⟨alt, e, ha, he, ?_, ?_⟩
  · rw [Util.clear_index, guard_denotes h.2]
    change (Util.extraterrestrial_irrad (mathB tp) (num lat) (num lon) (.dt d)) = _ at he
    rw [he]
    simp only [ok_bind]
    constructor
    · intro hx
      by_contra hn
      rw [m_div _ (h1 (not_le.mp hn)).1.ne'] at hx
      simp at hx
    · intro hx
      rw [h0 hx, m_div_zero]
  · intro hx
    rw [Util.clear_index, guard_denotes h.2]
    change (Util.extraterrestrial_irrad (mathB tp) (num lat) (num lon) (.dt d)) = _ at he
    rw [he]
    exact m_div _ (h1 hx).1.ne'

/-- C45: the diffuse ratio. -/
theorem C45_diffuse_ratio (tp diff ghi : ℝ) :
    (Util.diffuse_ratio (mathB tp) (num diff) (num ghi) = .error .zeroDivision ↔ ghi = 0) ∧
    (ghi ≠ 0 → Util.diffuse_ratio (mathB tp) (num diff) (num ghi) = .ok (num (diff / ghi))) := by
  refine ⟨⟨fun hx => ?_, fun hx => ?_⟩, fun hx => m_div _ hx⟩
  · by_contra hn
    rw [Util.diffuse_ratio, m_div _ hn] at hx
    simp at hx
  · rw [hx]
    exact m_div_zero _

end Verif.Props
