import Verif.Props.Refraction
import Verif.Props.SolarTestDay
import Verif.Props.FloatAltitude

/-!
# C159: the altitude under different atmospheres
-/

namespace Verif.Props

open Verif.Spec Pysolar Pysolar.Solar Pysolar.Constants Real

/-- C159: where `get_altitude` returns under the standard atmosphere, it returns under every atmosphere of temperature not 0,
and the lift above the true elevation angle is that of the standard atmosphere times the ratio of the pressures divided by
the ratio of the temperatures. -/
theorem C159_atmosphere (tp : ℝ) (d : DateTime) (c : Civil) (h : UtcFields d c) (lat lon elev alt : ℝ)
    (ha : get_altitude (mathB tp) (num lat) (num lon) (.dt d) (num elev) (num standard_temperature)
      (num standard_pressure) = .ok (num alt)) :
    ∃ dec H tea,
      get_topocentric_position (mathB tp) (num lat) (num lon) (.dt d) (num elev) = .ok (num dec, num H) ∧
      get_topocentric_elevation_angle (mathB tp) (num lat) (num dec) (num H) = .ok (num tea) ∧
      ∀ T P : ℝ, T ≠ 0 →
        get_altitude (mathB tp) (num lat) (num lon) (.dt d) (num elev) (num T) (num P)
          = .ok (num (tea + P / (standard_pressure : ℚ) * ((standard_temperature : ℚ) / T) * (alt - tea))) := by
  obtain ⟨dec, H, tea, h1, h2, hz, hv⟩ := C31_exceptions tp d c h lat lon elev standard_temperature standard_pressure
  refine ⟨dec, H, tea, h1, h2, fun T P hT => ?_⟩
  have hns : ¬ (((standard_temperature : ℚ) : ℝ) = 0 ∨ tea = -5.11 ∨ tanP tp (rad (tea + 10.3 / (tea + 5.11))) = 0) := by
    intro hx
    rw [hz.mpr hx] at ha
    cases ha
  obtain ⟨r, hr, hr'⟩ := hv hns
  have er : alt = tea + r := num_injective (Except.ok.inj (ha.symm.trans hr'))
  push Not at hns
  obtain ⟨dec', H', tea', h1', h2', -, hv'⟩ := C31_exceptions tp d c h lat lon elev T P
  have e1 := Except.ok.inj (h1.symm.trans h1')
  rw [Prod.mk.injEq, num_inj, num_inj] at e1
  obtain ⟨rfl, rfl⟩ := e1
  obtain rfl : tea = tea' := num_injective (Except.ok.inj (h2.symm.trans h2'))
  obtain ⟨s, hs, hs'⟩ := hv' (by push Not; exact ⟨hT, hns.2⟩)
  rw [hs']
  congr 2
  rw [er, add_sub_cancel_left]
  congr 1
  have hn3 : tanP tp (refrArg tea) ≠ 0 := hns.2.2
  rw [refr_eval hns.2.1 hns.1 hn3] at hr
  rw [refr_eval hns.2.1 hT hn3] at hs
  rw [← num_injective (Except.ok.inj hr), ← num_injective (Except.ok.inj hs)]
  have hp : ((standard_pressure : ℚ) : ℝ) ≠ 0 := by norm_num [standard_pressure]
  have ht := hns.1
  split_ifs
  · field_simp
  · ring

/-- C159: without air the altitude is the true elevation angle. -/
theorem C159_vacuum (tp : ℝ) (d : DateTime) (c : Civil) (h : UtcFields d c) (lat lon elev T alt : ℝ)
    (ha : get_altitude (mathB tp) (num lat) (num lon) (.dt d) (num elev) (num T) (num 0) = .ok (num alt)) :
    ∃ dec H, get_topocentric_position (mathB tp) (num lat) (num lon) (.dt d) (num elev) = .ok (num dec, num H) ∧
      get_topocentric_elevation_angle (mathB tp) (num lat) (num dec) (num H) = .ok (num alt) := by
  obtain ⟨dec, H, tea, h1, h2, hz, hv⟩ := C31_exceptions tp d c h lat lon elev T 0
  have hns : ¬ (T = 0 ∨ tea = -5.11 ∨ tanP tp (rad (tea + 10.3 / (tea + 5.11))) = 0) := by
    intro hx
    rw [hz.mpr hx] at ha
    cases ha
  obtain ⟨r, hr, hr'⟩ := hv hns
  push Not at hns
  have hn3 : tanP tp (refrArg tea) ≠ 0 := hns.2.2
  rw [refr_eval hns.2.1 hns.1 hn3] at hr
  have r0 : r = 0 := by
    rw [← num_injective (Except.ok.inj hr)]
    split_ifs <;> simp
  have : alt = tea + r := num_injective (Except.ok.inj (ha.symm.trans hr'))
  rw [r0, add_zero] at this
  exact ⟨dec, H, h1, this ▸ h2⟩

/-- C159: denser or colder air never lowers the sun, at true elevation angles up to 89.891 degrees. -/
theorem C159_monotone (tp : ℝ) (htp : tp ≠ 0) (d : DateTime) (c : Civil) (h : UtcFields d c)
    (lat lon elev T T' P P' alt alt' : ℝ) (hT' : 0 < T') (hTT : T' ≤ T) (hP : 0 ≤ P) (hPP : P ≤ P')
    (ha : get_altitude (mathB tp) (num lat) (num lon) (.dt d) (num elev) (num T) (num P) = .ok (num alt))
    (ha' : get_altitude (mathB tp) (num lat) (num lon) (.dt d) (num elev) (num T') (num P') = .ok (num alt')) :
    ∃ dec H tea,
      get_topocentric_position (mathB tp) (num lat) (num lon) (.dt d) (num elev) = .ok (num dec, num H) ∧
      get_topocentric_elevation_angle (mathB tp) (num lat) (num dec) (num H) = .ok (num tea) ∧
      (tea ≤ 89.891 → tea ≤ alt ∧ alt ≤ alt') := by
  have hT : 0 < T := hT'.trans_le hTT
  obtain ⟨dec, H, tea, h1, h2, hz, hv⟩ := C31_exceptions tp d c h lat lon elev T P
  refine ⟨dec, H, tea, h1, h2, fun hb => ?_⟩
  have hns : ¬ (T = 0 ∨ tea = -5.11 ∨ tanP tp (rad (tea + 10.3 / (tea + 5.11))) = 0) := by
    intro hx
    rw [hz.mpr hx] at ha
    cases ha
  obtain ⟨r, hr, hr'⟩ := hv hns
  push Not at hns
  obtain ⟨dec', H', tea', h1', h2', -, hv'⟩ := C31_exceptions tp d c h lat lon elev T' P'
  have e1 := Except.ok.inj (h1.symm.trans h1')
  rw [Prod.mk.injEq, num_inj, num_inj] at e1
  obtain ⟨rfl, rfl⟩ := e1
  obtain rfl : tea = tea' := num_injective (Except.ok.inj (h2.symm.trans h2'))
  obtain ⟨s, hs, hs'⟩ := hv' (by push Not; exact ⟨hT'.ne', hns.2⟩)
  have er : alt = tea + r := num_injective (Except.ok.inj (ha.symm.trans hr'))
  have es : alt' = tea + s := num_injective (Except.ok.inj (ha'.symm.trans hs'))
  rw [er, es]
  rcases lt_or_ge tea (-0.83337) with hlow | hlow
  · rw [num_injective (C30_zero_below _ _ _ _ hlow _ hr), num_injective (C30_zero_below _ _ _ _ hlow _ hs)]
    simp
  · have hb90 : tea + 10.3 / (tea + 5.11) < 90 := (C30_zenith_zero tea hlow).1 hb
    obtain ⟨u, hu, hu0, -⟩ := C30_sign tp 1 1 tea htp one_pos one_pos hlow (by norm_num at hb ⊢; linarith) hb90.ne
    have hu0 := hu0 hb90
    have hn3 : tanP tp (refrArg tea) ≠ 0 := hns.2.2
    rw [refr_eval hns.2.1 one_ne_zero hn3] at hu
    rw [refr_eval hns.2.1 hns.1 hn3] at hr
    rw [refr_eval hns.2.1 hT'.ne' hn3] at hs
    have hu := num_injective (Except.ok.inj hu)
    have hr := num_injective (Except.ok.inj hr)
    have hs := num_injective (Except.ok.inj hs)
    rw [if_pos (by simpa using hlow)] at hu hr hs
    have r1 : r = P / T * u := by rw [← hr, ← hu]; field_simp
    have s1 : s = P' / T' * u := by rw [← hs, ← hu]; field_simp
    rw [r1, s1]
    have q : P / T ≤ P' / T' := by gcongr; exact hP.trans hPP
    have q0 : 0 ≤ P / T := by positivity
    constructor
    · have := mul_nonneg q0 hu0.le
      linarith
    · have := mul_le_mul_of_nonneg_right q hu0.le
      linarith

/-- C159 in double precision: denser or colder air does not lower the sun by more than 0.00004 degrees (twice the error
bound of `C86`), outside the same small ranges of true elevation angles as there. -/
theorem C159_double (F : F64) (tp : ℝ) (htp : 10 ^ 6 ≤ |tp|) (d : DateTime) (c : Civil) (h : UtcFields d c)
    (lat lon elev P P' T T' : ℝ) (hlat : LatOk F tp lat) (hlon : |lon| ≤ 360) (helev : |elev| ≤ 50000)
    (hP1 : 1 ≤ P) (hP : P ≤ P') (hP2 : P' ≤ 120000) (hT1 : 180 ≤ T') (hT : T' ≤ T) (hT2 : T ≤ 340) :
    ∃ dec H e,
      get_topocentric_position (mathB tp) (num lat) (num lon) (.dt d) (num elev) = .ok (num dec, num H) ∧
      get_topocentric_elevation_angle (mathB tp) (num lat) (num dec) (num H) = .ok (num e) ∧
      (-90 + 1 / 10 ^ 5 < e → e ≤ 89.891 → (e ≤ -5.31 ∨ (-4.89 ≤ e ∧ e ≤ -0.83341) ∨ -0.83333 ≤ e) →
        ∃ alt alt',
          get_altitude (rndB F) (flt F lat) (flt F lon) (.dt d) (flt F elev) (flt F T) (flt F P) = .ok (flt F alt) ∧
          get_altitude (rndB F) (flt F lat) (flt F lon) (.dt d) (flt F elev) (flt F T') (flt F P') = .ok (flt F alt') ∧
          e - 2 / 10 ^ 5 ≤ alt ∧ alt ≤ alt' + 4 / 10 ^ 5) := by
  obtain ⟨dec, H, e, h1, h2, k⟩ := C86_altitude F tp htp d c h lat lon elev P P T T hlat hlon helev hP1 (hP.trans hP2)
    (by simp) (hT1.trans hT) hT2 (by simp)
  obtain ⟨dec', H', e', h1', h2', k'⟩ := C86_altitude F tp htp d c h lat lon elev P' P' T' T' hlat hlon helev
    (hP1.trans hP) hP2 (by simp) hT1 (hT.trans hT2) (by simp)
  have q := Except.ok.inj (h1.symm.trans h1')
  rw [Prod.mk.injEq, num_inj, num_inj] at q
  obtain ⟨rfl, rfl⟩ := q
  obtain rfl : e = e' := num_injective (Except.ok.inj (h2.symm.trans h2'))
  refine ⟨dec, H, e, h1, h2, fun l0 l1 reg => ?_⟩
  have ab : |e| < 90 - 1 / 10 ^ 5 := by
    rw [abs_lt]
    constructor
    · linarith
    · norm_num at l1 ⊢
      linarith
  obtain ⟨a, x, ha, hx, hax⟩ := k ab reg
  obtain ⟨a', x', ha', hx', hax'⟩ := k' ab reg
  have tp0 : tp ≠ 0 := by
    rintro rfl
    norm_num at htp
  obtain ⟨dec', H', e', h1', h2', m⟩ := C159_monotone tp tp0 d c h lat lon elev T T' P P' x x' (by linarith) hT
    (by linarith) hP hx hx'
  have q := Except.ok.inj (h1.symm.trans h1')
  rw [Prod.mk.injEq, num_inj, num_inj] at q
  obtain ⟨rfl, rfl⟩ := q
  obtain rfl : e = e' := num_injective (Except.ok.inj (h2.symm.trans h2'))
  obtain ⟨m1, m2⟩ := m l1
  rw [abs_le] at hax hax'
  exact ⟨a, a', ha, ha', by linarith [hax.1], by linarith [hax.2, hax'.1]⟩

/-- Non-vacuity: 1 June 2020, 12:05 UTC at the place of `solar_test` (`C159_atmosphere` then covers thin cold air). -/
example : ∃ alt alt', get_altitude (mathB 1) (num 42.364908) (num (-71.112828)) (.dt (utcDT (runT 0))) (num 0)
      (num standard_temperature) (num standard_pressure) = .ok (num alt) ∧
    get_altitude (mathB 1) (num 42.364908) (num (-71.112828)) (.dt (utcDT (runT 0))) (num 0) (num 270) (num 90000)
      = .ok (num alt') := by
  obtain ⟨alt, ha, -⟩ := run_alt 1 (by norm_num) 0 (by norm_num)
  have e0 : (0 : (mathB 1).α) = num 0 := by simp
  rw [e0] at ha
  obtain ⟨-, -, tea, -, -, k⟩ := C159_atmosphere 1 _ _ (utcDT_fields (c := runT 0) (civil_valid_of_check (by decide)))
    42.364908 (-71.112828) 0 alt ha
  exact ⟨alt, _, ha, k 270 90000 (by norm_num)⟩

end Verif.Props
