import Verif.Proofs.FloatIrr
import Verif.Props.FloatAltitude
import Verif.Props.Radiation

/-!
# C117: the irradiance functions of util.py in double precision

`F : F64` is any correctly rounding double-precision arithmetic with accurate elementary functions (`binary64` is one).
Where a function uses the altitude, the computed altitude `a'` and the exact altitude `a` are taken to be 2e-5 degrees
apart, which is what C86 proves of `get_altitude`.
-/

namespace Verif.Props

open Verif.Spec Verif.Chain Pysolar Pysolar.Util Pysolar.Numeric

/-- C117: the mean distance from the sun is 1 up to one rounding error of the last place. -/
theorem C117_mean_distance (F : F64) (d : DateTime) (c : Civil) (h : UtcFields d c) :
    ∃ r, mean_earth_sun_distance (rndB F) (.dt d) = .ok (flt F r) ∧ |r - 1| ≤ 2 / 10 ^ 16 := by
  obtain ⟨r, h1, _, _, e, -, -, h2⟩ := kd_float F 0 h
  cases e
  push_cast at h2
  exact ⟨r, h1, h2⟩

/-- C117: the declination for a year of `TY` days. -/
theorem C117_declination (F : F64) (d : DateTime) (c : Civil) (h : UtcFields d c) (TY : ℝ) (h1 : 360 ≤ TY) (h2 : TY ≤ 366) :
    ∃ r, declination_degree (rndB F) (.dt d) (flt F TY) = .ok (flt F r) ∧
      |r - 23.45 * Real.sin (2 * Real.pi / TY * (yday c.date - 81))| ≤ 8 / 10 ^ 14 := by
  obtain ⟨r, x, g1, g2, _, _, e, -, -, g3⟩ := dd_float F 0 h h1 h2
  cases e
  have e := C81_declination_degree 0 TY d c h
  rw [if_neg (by linarith)] at e
  rw [num_injective (Except.ok.inj (g2.symm.trans e))] at g3
  push_cast at g3
  exact ⟨r, g1, g3⟩

/-- The altitude of `get_altitude_fast` and the quantity compared with 0 by `extraterrestrial_irrad`. -/
theorem fast_below {lat lon : ℝ} {c : Civil} (h : altF lat lon c ≤ -(1 / 10 ^ 11)) :
    (sunENU lat (haF lon c) (decF (yday c.date))).z ≤ -28 / 10 ^ 15 := by
  have hz := unit_z (sunENU_unit lat (haF lon c) (decF (yday c.date)))
  set z := (sunENU lat (haF lon c) (decF (yday c.date))).z with hzd
  have e : altF lat lon c = deg (Real.arcsin z) := rfl
  have h1 : Real.arcsin z ≤ -(1 / 10 ^ 13) := by
    rw [e] at h
    unfold deg at h
    have hp := Real.pi_gt_three
    have hp2 := Real.pi_lt_d2
    rw [div_le_iff₀ (by linarith)] at h
    norm_num at *
    linarith
  have h2 : -(Real.pi / 2) ≤ Real.arcsin z := Real.neg_pi_div_two_le_arcsin z
  have h3 : Real.sin (Real.arcsin z) = z := Real.sin_arcsin hz.1 hz.2
  have h4 := Real.mul_le_sin (x := -Real.arcsin z) (by linarith) (by linarith)
  rw [Real.sin_neg, h3] at h4
  have hp2 := Real.pi_lt_d2
  have h5 : (0.6 : ℝ) ≤ 2 / Real.pi := by
    rw [le_div_iff₀ Real.pi_pos]
    norm_num at *
    linarith
  have h6 : 0.6 * -Real.arcsin z ≤ 2 / Real.pi * -Real.arcsin z := mul_le_mul_of_nonneg_right h5 (by linarith)
  norm_num at *
  linarith

/-- C117: the extraterrestrial irradiance is never negative, is within 7e-11 W/m² of the exact value, and is 0 when the
sun is below the horizon. -/
theorem C117_extraterrestrial (F : F64) (tp : ℝ) (d : DateTime) (c : Civil) (h : UtcFields d c) (lat lon SC : ℝ)
    (hlat : |lat| ≤ 90) (hlon : |lon| ≤ 360) (h1 : 0 ≤ SC) (h2 : SC ≤ 2000) :
    ∃ alt r r', Solar.get_altitude_fast (mathB tp) (num lat) (num lon) (.dt d) = .ok (num alt) ∧
      extraterrestrial_irrad (mathB tp) (num lat) (num lon) (.dt d) (num SC) = .ok (num r) ∧
      extraterrestrial_irrad (rndB F) (flt F lat) (flt F lon) (.dt d) (flt F SC) = .ok (flt F r') ∧
      |r' - r| ≤ 7 / 10 ^ 11 ∧ 0 ≤ r' ∧ (alt ≤ -(1 / 10 ^ 11) → r' = 0) := by
  obtain ⟨r, r', g1, g2, g3, g4, g5⟩ := extra_float F tp h hlat hlon h1 h2
  exact ⟨_, r, r', altF_eval h lat lon, g1, g2, g3, g4, fun ha => g5 (fast_below ha)⟩

/-- C117: the clear index raises with the sun below the horizon and is accurate with an exact extraterrestrial
irradiance of at least 1 W/m². -/
theorem C117_clear_index (F : F64) (tp : ℝ) (d : DateTime) (c : Civil) (h : UtcFields d c) (lat lon ghi : ℝ)
    (hlat : |lat| ≤ 90) (hlon : |lon| ≤ 360) (hg : |ghi| ≤ 10 ^ 9) :
    ∃ alt r, Solar.get_altitude_fast (mathB tp) (num lat) (num lon) (.dt d) = .ok (num alt) ∧
      extraterrestrial_irrad (mathB tp) (num lat) (num lon) (.dt d) = .ok (num r) ∧
      (alt ≤ -(1 / 10 ^ 11) →
        clear_index (rndB F) (flt F ghi) (flt F lat) (flt F lon) (.dt d) = .error .zeroDivision) ∧
      (1 ≤ r → ∃ q, clear_index (rndB F) (flt F ghi) (flt F lat) (flt F lon) (.dt d) = .ok (flt F q) ∧
        |q - ghi / r| ≤ 8 / 10 ^ 11 * |ghi| + 1 / 2 ^ 110) := by
  have e0 : (SC_default : ℚ) = 1367 := by norm_num [SC_default]
  obtain ⟨alt, r, r', g0, g1, g2, g3, g4, g5⟩ := C117_extraterrestrial F tp d c h lat lon 1367 hlat hlon (by norm_num)
    (by norm_num)
  have f1 : (rndB F).lit SC_default = flt F 1367 := by
    have := lit_fin F 1367 (by norm_num)
    rw [e0]
    push_cast at this
    exact this
  have f2 : (mathB tp).lit SC_default = num 1367 := by
    rw [m_lit, e0]
    norm_num
  have k1 : extraterrestrial_irrad (mathB tp) (num lat) (num lon) (.dt d) = .ok (num r) := by
    rw [← f2] at g1
    exact g1
  have k2 : extraterrestrial_irrad (rndB F) (flt F lat) (flt F lon) (.dt d) = .ok (flt F r') :=
    (congrArg (fun v => extraterrestrial_irrad (rndB F) (flt F lat) (flt F lon) (.dt d) v) f1).trans g2
  refine ⟨alt, r, g0, k1, fun ha => ?_, fun hr => ?_⟩
  · refine (clear_index_split (rndB F) h _ _ _).trans (bind_of_ok k2 ?_)
    rw [g5 ha]
    exact if_pos rfl
  · have hr' : 0.99 ≤ r' := by
      have := (abs_le.1 g3).1
      norm_num at *
      linarith
    have hr0 : 0 < r' := lt_of_lt_of_le (by norm_num) hr'
    have q1 : |ghi / r'| ≤ 1.02 * |ghi| := by
      rw [abs_div, abs_of_pos hr0, div_le_iff₀ hr0]
      have h0 := abs_nonneg ghi
      have := mul_le_mul_of_nonneg_left hr' h0
      norm_num at this ⊢
      linarith
    have q2 : |ghi / r' - ghi / r| ≤ 7.2 / 10 ^ 11 * |ghi| := by
      have e : ghi / r' - ghi / r = ghi * ((r - r') / (r * r')) := by
        field_simp
      rw [e, abs_mul, mul_comm, abs_div, abs_sub_comm]
      refine mul_le_mul_of_nonneg_right ?_ (abs_nonneg _)
      have hm : 0.99 ≤ r * r' := by nlinarith
      rw [abs_of_pos (lt_of_lt_of_le (by norm_num) hm), div_le_iff₀ (lt_of_lt_of_le (by norm_num) hm)]
      norm_num at *
      linarith
    refine ⟨F.rnd (ghi / r'), (clear_index_split (rndB F) h _ _ _).trans (bind_of_ok k2 ?_), ?_⟩
    · refine (if_neg hr0.ne').trans (congrArg Except.ok ?_)
      refine rnd_fin_big F ?_
      have e1 : (10 : ℝ) ^ 10 ≤ 2 ^ 1000 := le_trans (by norm_num : (10 : ℝ) ^ 10 ≤ 2 ^ 40) (pow_le_pow_right₀ (by norm_num) (by norm_num))
      generalize (2 : ℝ) ^ 1000 = K at *
      norm_num at *
      linarith
    · have p1 := F.err (ghi / r')
      have p2 := tiny_le
      have p3 := abs_sub_le (F.rnd (ghi / r')) (ghi / r') (ghi / r)
      have p4 : |ghi / r'| / 2 ^ 53 ≤ 1.02 * |ghi| / 2 ^ 53 := by gcongr
      norm_num at q2 p1 p2 p3 p4 ⊢
      linarith [abs_nonneg ghi]

/-- C117: the solar elevation functions and the irradiance under an overcast sky, from an altitude known to 2e-5 degrees.
As in C69 the altitude in degrees is taken for radians. -/
theorem C117_elevation (F : F64) (d : DateTime) (c : Civil) (h : UtcFields d c) (lat lon elev T P a' a : ℝ)
    (ha' : Solar.get_altitude (rndB F) (flt F lat) (flt F lon) (.dt d) (flt F elev) (flt F T) (flt F P) = .ok (flt F a'))
    (ha : |a| ≤ 95) (haa : |a' - a| ≤ 2 / 10 ^ 5) :
    ∃ x y z, solarelevation_function_clear (rndB F) (flt F lat) (flt F lon) (.dt d) (flt F T) (flt F P) (flt F elev)
        = .ok (flt F x) ∧
      solarelevation_function_overcast (rndB F) (flt F lat) (flt F lon) (.dt d) (flt F elev) (flt F T) (flt F P)
        = .ok (flt F y) ∧
      global_irradiance_overcast (rndB F) (flt F lat) (flt F lon) (.dt d) (flt F elev) (flt F T) (flt F P)
        = .ok (flt F z) ∧
      |x - (0.038175 + 1.5458 * Real.sin a - 0.59980 * Real.sin a ^ 2)| ≤ 44 / 10 ^ 6 ∧
      |y - (-0.0067133 + 0.78600 * Real.sin a + 0.22401 * Real.sin a ^ 2)| ≤ 21 / 10 ^ 6 ∧
      |z - 572 * a| ≤ 115 / 10 ^ 4 := by
  obtain ⟨⟨x, g1, g2⟩, ⟨y, g3, g4⟩, ⟨z, g5, g6⟩⟩ := elev_float F h ha' ha haa
  exact ⟨x, y, z, g1, g3, g5, g2, g4, g6⟩

/-- C117: the diffuse irradiance, the same number under a clear and an overcast sky, for a turbidity from 0 to 10. -/
theorem C117_diffuse (F : F64) (d : DateTime) (c : Civil) (h : UtcFields d c) (lat lon elev T P TL a' a : ℝ)
    (h1 : 0 ≤ TL) (h2 : TL ≤ 10)
    (ha' : Solar.get_altitude (rndB F) (flt F lat) (flt F lon) (.dt d) (flt F elev) (flt F T) (flt F P) = .ok (flt F a'))
    (ha : |a| ≤ 95) (haa : |a' - a| ≤ 2 / 10 ^ 5) :
    ∃ r, diffuse_underclear (rndB F) (flt F lat) (flt F lon) (.dt d) (flt F elev) (flt F T) (flt F P) (flt F TL)
        = .ok (flt F r) ∧
      diffuse_underovercast (rndB F) (flt F lat) (flt F lon) (.dt d) (flt F elev) (flt F T) (flt F P) (flt F TL)
        = .ok (flt F r) ∧
      |r - (-21.657 + 41.752 * TL + 0.51905 * TL ^ 2) * a| ≤ 91 / 10 ^ 4 :=
  diff_float F h h1 h2 ha' ha haa

/-- C117: the direct irradiance under a clear sky, relative to the exponential it contains. -/
theorem C117_direct (F : F64) (d : DateTime) (c : Civil) (h : UtcFields d c) (lat lon elev T P TY AM TL a' a : ℝ)
    (h1 : 360 ≤ TY) (h2 : TY ≤ 366) (hA : |AM| ≤ 40) (hT : |TL| ≤ 20) (hAT : |AM * TL| ≤ 20)
    (ha' : Solar.get_altitude (rndB F) (flt F lat) (flt F lon) (.dt d) (flt F elev) (flt F T) (flt F P) = .ok (flt F a'))
    (haa : |a' - a| ≤ 2 / 10 ^ 5) :
    ∃ r E, E = Real.exp (-0.8662 * AM * TL * (23.45 * Real.sin (2 * Real.pi / TY * (yday c.date - 81)))) ∧
      direct_underclear (rndB F) (flt F lat) (flt F lon) (.dt d) (flt F TY) (flt F AM) (flt F TL) (flt F elev) (flt F T)
        (flt F P) = .ok (flt F r) ∧
      |r - 1367 * E * Real.sin a| ≤ 0.028 * E := by
  obtain ⟨r, D, g1, g2, g3⟩ := direct_uc_float F h h1 h2 hA hT hAT ha' haa
  have e := C81_declination_degree 0 TY d c h
  rw [if_neg (by linarith)] at e
  rw [num_injective (Except.ok.inj (g2.symm.trans e))] at g3
  exact ⟨r, _, rfl, g1, g3⟩

/-- C117: the global irradiance under a clear sky. The temperature and pressure given are not used, nor is `TL` in the
diffuse part. -/
theorem C117_global (F : F64) (d : DateTime) (c : Civil) (h : UtcFields d c) (lat lon elev T P TY AM TL a' a : ℝ)
    (h1 : 360 ≤ TY) (h2 : TY ≤ 366) (hA : |AM| ≤ 40) (hT : |TL| ≤ 20) (hAT : |AM * TL| ≤ 20)
    (ha' : Solar.get_altitude (rndB F) (flt F lat) (flt F lon) (.dt d) (flt F elev) = .ok (flt F a'))
    (ha : |a| ≤ 95) (haa : |a' - a| ≤ 2 / 10 ^ 5) :
    ∃ r E, E = Real.exp (-0.8662 * AM * TL * (23.45 * Real.sin (2 * Real.pi / TY * (yday c.date - 81)))) ∧
      global_irradiance_clear (rndB F) (flt F lat) (flt F lon) (.dt d) (flt F TY) (flt F AM) (flt F TL) (flt F elev)
        (flt F T) (flt F P) = .ok (flt F r) ∧
      |r - (1367 * E * Real.sin a + 20.61405 * a)| ≤ 0.029 * E + 5 / 10 ^ 4 := by
  obtain ⟨r, D, g1, g2, g3⟩ := global_float F h h1 h2 hA hT hAT ha' ha haa
  have e := C81_declination_degree 0 TY d c h
  rw [if_neg (by linarith)] at e
  rw [num_injective (Except.ok.inj (g2.symm.trans e))] at g3
  exact ⟨r, _, rfl, g1 _ _, g3⟩

/-- C117: outside that range the direct irradiance, and the global one with it, ends in an OverflowError as soon as the
exponent reaches 711, whatever the place. -/
theorem C117_overflow (F : F64) (d : DateTime) (c : Civil) (h : UtcFields d c) (lat lon elev T P : V) (TY AM TL : ℝ)
    (h1 : 360 ≤ TY) (h2 : TY ≤ 366) (hA : |AM| ≤ 40) (hT : |TL| ≤ 20)
    (hx : 711 ≤ -0.8662 * AM * TL * (23.45 * Real.sin (2 * Real.pi / TY * (yday c.date - 81)))) :
    direct_underclear (rndB F) lat lon (.dt d) (flt F TY) (flt F AM) (flt F TL) elev T P = .error .overflow ∧
      global_irradiance_clear (rndB F) lat lon (.dt d) (flt F TY) (flt F AM) (flt F TL) elev T P = .error .overflow := by
  refine ⟨direct_uc_overflow F h h1 h2 hA hT hx _ _ _ _ _, ?_⟩
  have g : ∀ B : Backend, ∀ x y TY AM TL z t p : B.α, ∀ e,
      direct_underclear B x y (.dt d) TY AM TL z = .error e →
      global_irradiance_clear B x y (.dt d) TY AM TL z t p = .error e := fun B x y TY AM TL z t p e he => by
    unfold global_irradiance_clear
    rw [guard_denotes h.2, ok_bind, he]
    rfl
  exact g _ _ _ _ _ _ _ _ _ _ (direct_uc_overflow F h h1 h2 hA hT hx _ _ _ _ _)

/-- The hypotheses are met: at latitude -45 there is, at every time, a longitude where the altitude is known as required. -/
theorem C117_applies (F : F64) (d : DateTime) (c : Civil) (h : UtcFields d c) :
    ∃ lon a' a : ℝ, Solar.get_altitude (rndB F) (flt F (-45)) (flt F lon) (.dt d) (flt F 0) = .ok (flt F a') ∧
      Solar.get_altitude (mathB (10 ^ 6)) (num (-45)) (num lon) (.dt d) (num 0) = .ok (num a) ∧
      |a| ≤ 95 ∧ |a' - a| ≤ 2 / 10 ^ 5 := by
  have htp : (10 : ℝ) ^ 6 ≤ |10 ^ 6| := le_abs_self _
  obtain ⟨-, h1, h2⟩ := afternoon_south (10 ^ 6) h.1
  set l := raOf (10 ^ 6) c - astOf c + 0.1 with hl
  have hmod : mod360 l = l + 360 * ((-⌊l / 360⌋ : ℤ) : ℝ) := by
    unfold mod360
    push_cast
    ring
  obtain ⟨p1, p2⟩ := topo_periodic (10 ^ 6) (-45) l 0 c (-⌊l / 360⌋)
  rw [← hmod] at p1 p2
  have hm : 0 ≤ mod360 l ∧ mod360 l < 360 := ⟨mod360_nonneg l, mod360_lt l⟩
  obtain ⟨dec, H, e, q1, q2, q3⟩ := C86_default F (10 ^ 6) htp d c h (-45) (mod360 l) 0
    (.inl (by rw [abs_neg, abs_of_pos] <;> norm_num)) (by rw [abs_of_nonneg hm.1]; exact hm.2.le) (by norm_num)
  have q1' := q1
  rw [topo_eval h, p1, p2] at q1
  have hp := Except.ok.inj q1
  have r1 := num_injective (congrArg Prod.fst hp)
  have r2 := num_injective (congrArg Prod.snd hp)
  have q2' := q2
  rw [← r1, ← r2, tea_eval] at q2
  have he : teaOf (10 ^ 6) (-45) l 0 c = e := num_injective (Except.ok.inj q2)
  rw [he] at h1 h2
  obtain ⟨alt', alt, a1, a2, a3⟩ := q3 (by rw [abs_of_pos h1]; norm_num at *; linarith)
    (.inr (.inr (by norm_num at *; linarith)))
  refine ⟨_, _, _, a1, a2, ?_, a3⟩
  have hz := (C30_zenith_zero e (by norm_num at *; linarith)).1 (by norm_num at *; linarith)
  obtain ⟨r, k1, k2, -⟩ := C30_sign (10 ^ 6) (Constants.standard_pressure : ℚ) (Constants.standard_temperature : ℚ) e (by norm_num)
    (by norm_num [Constants.standard_pressure]) (by norm_num [Constants.standard_temperature]) (by norm_num at *; linarith)
    (by linarith) hz.ne
  have k3 := C30_bound (10 ^ 6) e r (by norm_num) (by linarith) k1
  have k4 := k2 hz
  obtain ⟨_, _, e2, m1, m2, m3, m4⟩ := C31_exceptions (10 ^ 6) d c h (-45) (mod360 l) 0 (Constants.standard_temperature : ℚ)
    (Constants.standard_pressure : ℚ)
  have m5 := Except.ok.inj (q1'.symm.trans m1)
  rw [← num_injective (congrArg Prod.fst m5), ← num_injective (congrArg Prod.snd m5)] at m2
  have m6 := num_injective (Except.ok.inj (q2'.symm.trans m2))
  have m7 : alt = e + r := by
    by_cases hbad : ((Constants.standard_temperature : ℚ) : ℝ) = 0 ∨ e2 = -5.11 ∨ tanP (10 ^ 6) (rad (e2 + 10.3 / (e2 + 5.11))) = 0
    · have := m3.2 hbad
      have := a2.symm.trans this
      simp at this
    · obtain ⟨r2, n1, n2⟩ := m4 hbad
      rw [← m6] at n1 n2
      rw [← num_injective (Except.ok.inj (k1.symm.trans n1))] at n2
      exact num_injective (Except.ok.inj (a2.symm.trans n2))
  rw [m7, abs_le]
  norm_num at *
  constructor <;> linarith

/-- Direct and global irradiance in binary64 arithmetic on 18 February 2007. -/
example : ∃ lon r, global_irradiance_clear (rndB binary64) (flt binary64 (-45)) (flt binary64 lon) (.dt sampleDT)
    (flt binary64 365) (flt binary64 2) (flt binary64 1) (flt binary64 0) (flt binary64 288) (flt binary64 101000)
      = .ok (flt binary64 r) := by
  obtain ⟨lon, a', a, h1, -, h2, h3⟩ := C117_applies binary64 sampleDT sampleUTC sample_utc
  obtain ⟨r, E, -, h4, -⟩ := C117_global binary64 _ _ sample_utc (-45) lon 0 288 101000 365 2 1 a' a (by norm_num)
    (by norm_num) (by norm_num) (by norm_num) (by norm_num) h1 h2 h3
  exact ⟨lon, r, h4⟩

/-- With an air mass of 40 and a turbidity of 20 the direct irradiance overflows on that day. -/
example : direct_underclear (rndB binary64) (flt binary64 0) (flt binary64 0) (.dt sampleDT) (flt binary64 365)
    (flt binary64 40) (flt binary64 20) = .error .overflow := by
  refine (C117_overflow binary64 _ _ sample_utc _ _ _ _ _ 365 40 20 (by norm_num) (by norm_num) (by norm_num)
    (by norm_num) ?_).1
  have e : (yday sampleUTC.date : ℝ) = 49 := by
    have : yday sampleUTC.date = 49 := by decide
    rw [this]
    norm_num
  have hp := Real.pi_pos
  have h1 := Real.mul_le_sin (x := 64 * Real.pi / 365) (by positivity) (by linarith)
  have e2 : 2 / Real.pi * (64 * Real.pi / 365) = 128 / 365 := by field_simp; norm_num
  rw [e, show 2 * Real.pi / 365 * (49 - 81) = -(64 * Real.pi / 365) by ring, Real.sin_neg]
  rw [e2] at h1
  norm_num at *
  linarith

end Verif.Props
