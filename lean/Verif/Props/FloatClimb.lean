import Verif.Props.Climb
import Verif.Props.FloatAltitude

/-!
# C142: the climb of the sun survives double precision
-/

namespace Verif.Props

open Verif.Spec Pysolar Pysolar.Solar Pysolar.Solartime Pysolar.Constants Real

/-- Refraction takes away less than 40 percent of a difference of elevation angles. -/
theorem refr_rate {tp a b r s : ℝ} (htp : tp ≠ 0) (hab : a < b) (hb : b ≤ 89.5)
    (hr : get_refraction_correction (mathB tp) (num standard_pressure) (num standard_temperature) (num a)
      = .ok (num r))
    (hs : get_refraction_correction (mathB tp) (num standard_pressure) (num standard_temperature) (num b)
      = .ok (num s)) : 0.6 * (b - a) ≤ (b + s) - (a + r) := by
  have hb' : b ≤ 90 := by norm_num at *; linarith
  have hT : ((standard_temperature : ℚ) : ℝ) ≠ 0 := by norm_num [standard_temperature]
  have np : ∀ {x : ℝ}, -0.83337 ≤ x → x ≤ 89.5 → x + 10.3 / (x + 5.11) ≠ 90 := fun h1 h2 =>
    ((C30_zenith_zero _ h1).1 (by norm_num at *; linarith)).ne
  have above : ∀ {a r : ℝ}, -0.83337 ≤ a → a < b →
      get_refraction_correction (mathB tp) (num standard_pressure) (num standard_temperature) (num a) = .ok (num r) →
      0.6 * (b - a) ≤ (b + s) - (a + r) := by
    intro a r h1 hab hr
    have h2 : -0.83337 ≤ b := h1.trans hab.le
    have ha : a ≤ 90 := hab.le.trans hb'
    have hrv := refr_value (P := standard_pressure) htp hT h1 ha (cos_refrArg_ne h1 ha (np h1 (hab.le.trans hb)))
    have hsv := refr_value (P := standard_pressure) htp hT h2 hb' (cos_refrArg_ne h2 hb' (np h2 hb))
    rw [hr] at hrv
    rw [hs] at hsv
    rw [num_injective (Except.ok.inj hsv), num_injective (Except.ok.inj hrv)]
    set K : ℝ := (standard_pressure : ℝ) * 2.830 * 1.02 / (1010 * (standard_temperature : ℝ) * 60) with hKd
    have hK : K ≤ 0.016752 := by
      rw [hKd]; norm_num [standard_temperature, standard_pressure]
    have hK0 : 0 < K := by
      rw [hKd]; norm_num [standard_temperature, standard_pressure]
    have hsa := sin_bennett h1 ha
    have hsb := sin_bennett h2 hb'
    have hsa0 : 0 < sin (refrArg a) := lt_trans (by norm_num) hsa
    have hsb0 : 0 < sin (refrArg b) := lt_trans (by norm_num) hsb
    have hcot : cos (refrArg a) / sin (refrArg a) - cos (refrArg b) / sin (refrArg b)
        = sin (refrArg b - refrArg a) / (sin (refrArg a) * sin (refrArg b)) := by
      rw [sin_sub]
      field_simp
    have hd := bennett_sub_le h1 hab.le
    have hd0 := bennett_lt h1 hab
    have hx0 : 0 < rad (bennett b - bennett a) := by
      rw [← rad_zero, rad_lt_rad]; linarith
    have h4 : 0 < b - a := sub_pos.mpr hab
    have hxle : sin (refrArg b - refrArg a) ≤ 0.0175 * (b - a) := by
      rw [refrArg_eq, refrArg_eq, ← rad_sub]
      refine (sin_lt hx0).le.trans ((rad_le_rad.mpr hd).trans ?_)
      have := pi_lt_d4
      unfold rad
      rw [div_le_iff₀ (by norm_num)]
      calc (b - a) * π ≤ (b - a) * 3.1416 := by gcongr
        _ ≤ _ := by norm_num; linarith
    have hprod : 0.00075 ≤ sin (refrArg a) * sin (refrArg b) :=
      calc (0.00075 : ℝ) ≤ 0.02748 * 0.02748 := by norm_num
        _ ≤ _ := mul_le_mul hsa.le hsb.le (by norm_num) hsa0.le
    have hq : sin (refrArg b - refrArg a) / (sin (refrArg a) * sin (refrArg b)) ≤ 0.0175 * (b - a) / 0.00075 := by
      calc sin (refrArg b - refrArg a) / (sin (refrArg a) * sin (refrArg b))
          ≤ 0.0175 * (b - a) / (sin (refrArg a) * sin (refrArg b)) := by gcongr
        _ ≤ _ := by gcongr
    have hlt : K * (sin (refrArg b - refrArg a) / (sin (refrArg a) * sin (refrArg b)))
        ≤ 0.016752 * (0.0175 * (b - a) / 0.00075) := by
      calc K * (sin (refrArg b - refrArg a) / (sin (refrArg a) * sin (refrArg b)))
          ≤ K * (0.0175 * (b - a) / 0.00075) := by gcongr
        _ ≤ _ := by gcongr
    rw [← hcot] at hlt
    norm_num at hlt ⊢
    linarith
  rcases lt_or_ge a (-0.83337) with h1 | h1
  · rw [num_injective (C30_zero_below _ _ _ _ h1 _ hr)]
    rcases lt_or_ge b (-0.83337) with h2 | h2
    · rw [num_injective (C30_zero_below _ _ _ _ h2 _ hs)]
      norm_num
      linarith
    · obtain ⟨r0, hr0, h0⟩ := refr_threshold htp
      rcases h2.eq_or_lt with h3 | h3
      · rw [← h3] at hs ⊢
        rw [← num_injective (Except.ok.inj (hr0.symm.trans hs))]
        norm_num at *
        linarith
      · have := above le_rfl h3 hr0
        norm_num at *
        linarith
  · exact above h1 hab hr

/-- Refraction does not lift a sun below 89.5 degrees above 89.9 degrees. -/
theorem lifted_below {tp e r : ℝ} (htp : tp ≠ 0) (he : e ≤ 89.5)
    (hr : get_refraction_correction (mathB tp) (num standard_pressure) (num standard_temperature) (num e)
      = .ok (num r)) : e + r < 89.9 := by
  have hz := (C30_zenith_zero 89.9 (by norm_num)).2 (by norm_num)
  obtain ⟨s, hs, -, h⟩ := C30_sign tp standard_pressure standard_temperature 89.9 htp (by norm_num [standard_pressure])
    (by norm_num [standard_temperature]) (by norm_num) (by norm_num) hz.ne'
  have h := h hz
  have hlt : e < 89.9 := by norm_num at *; linarith
  rcases lt_or_ge e (-0.83337) with h1 | h1
  · rw [num_injective (C30_zero_below _ _ _ _ h1 _ hr)]
    linarith
  · have := C66_order tp e 89.9 r s htp hlt (by norm_num) ((C30_zenith_zero e h1).1 (by norm_num at *; linarith)).ne hz.ne' hr hs
    linarith

/-- At standard conditions refraction does not lower a sun below 89.5 degrees. -/
theorem lift_nonneg {tp e r : ℝ} (htp : tp ≠ 0) (he : e ≤ 89.5)
    (hr : get_refraction_correction (mathB tp) (num standard_pressure) (num standard_temperature) (num e)
      = .ok (num r)) : 0 ≤ r := by
  rcases lt_or_ge e (-0.83337) with h1 | h1
  · rw [num_injective (C30_zero_below _ _ _ _ h1 _ hr)]
  · have hz := (C30_zenith_zero e h1).1 (by norm_num at *; linarith)
    obtain ⟨s, hs, h, -⟩ := C30_sign tp standard_pressure standard_temperature e htp (by norm_num [standard_pressure])
      (by norm_num [standard_temperature]) h1 (by norm_num at *; linarith) hz.ne
    rw [num_injective (Except.ok.inj (hr.symm.trans hs))]
    exact (h hz).le

/-- The climb in double precision, with its least amount. -/
theorem climb_double (F : F64) (tp : ℝ) (htp : 10 ^ 6 ≤ |tp|) (d d' : DateTime) (c c' : Civil) (h : UtcFields d c)
    (h' : UtcFields d' c') (hy : c'.year = c.year) (hm : c'.month = c.month)
    (hlt : c.micros + 15000000 ≤ c'.micros) (hy1 : 1901 ≤ c.year) (hy2 : c.year ≤ 2099)
    (lat lon elev : ℝ) (hlat : |lat| ≤ 66) (hlon : |lon| ≤ 360) (he : |elev| ≤ 50000) (day : ℤ) :
    ∃ dec H e dec' H' e',
      get_topocentric_position (mathB tp) (num lat) (num lon) (.dt d) (num elev) = .ok (num dec, num H) ∧
      get_topocentric_elevation_angle (mathB tp) (num lat) (num dec) (num H) = .ok (num e) ∧
      get_topocentric_position (mathB tp) (num lat) (num lon) (.dt d') (num elev) = .ok (num dec', num H') ∧
      get_topocentric_elevation_angle (mathB tp) (num lat) (num dec') (num H') = .ok (num e') ∧
      ((e ≤ -5.31 ∨ (-4.89 ≤ e ∧ e ≤ -0.83341) ∨ -0.83333 ≤ e) →
        (e' ≤ -5.31 ∨ (-4.89 ≤ e' ∧ e' ≤ -0.83341) ∨ -0.83333 ≤ e') →
        (24 * day + 0.5 ≤ meanSolar lon c → meanSolar lon c' ≤ 24 * day + 11.5 → ∃ alt alt',
          get_altitude (rndB F) (flt F lat) (flt F lon) (.dt d) (flt F elev) = .ok (flt F alt) ∧
          get_altitude (rndB F) (flt F lat) (flt F lon) (.dt d') (flt F elev) = .ok (flt F alt') ∧ e - 2 / 10 ^ 5 ≤ alt ∧
            alt + 9 / 10 ^ 6 ≤ alt' ∧ alt' ≤ 89.91) ∧
        (24 * day + 12.5 ≤ meanSolar lon c → meanSolar lon c' ≤ 24 * day + 23.5 → ∃ alt alt',
          get_altitude (rndB F) (flt F lat) (flt F lon) (.dt d) (flt F elev) = .ok (flt F alt) ∧
          get_altitude (rndB F) (flt F lat) (flt F lon) (.dt d') (flt F elev) = .ok (flt F alt') ∧ e' - 2 / 10 ^ 5 ≤ alt' ∧
            alt' + 9 / 10 ^ 6 ≤ alt ∧ alt ≤ 89.91)) := by
  have htp0 : tp ≠ 0 := by rintro rfl; norm_num at htp
  obtain ⟨dec, H, e, dec', H', e', p1, p2, p1', p2', q, q'⟩ := clock_elev (tp := tp) (lon := lon) h h' hy hm
    (by omega) hy1 hy2 hlat he day
  refine ⟨dec, H, e, dec', H', e', p1, p2, p1', p2', fun hz hz' => ?_⟩
  have hh : (8.3 / 10 ^ 5 : ℝ) ≤ 0.02 * (((c'.micros - c.micros : ℤ) : ℝ) / 3600000000) := by
    have : (15000000 : ℝ) ≤ ((c'.micros - c.micros : ℤ) : ℝ) := by exact_mod_cast (by omega : (15000000 : ℤ) ≤ c'.micros - c.micros)
    norm_num at *
    linarith
  have ok : LatOk F tp lat := .inl (by norm_num at *; linarith)
  have get : ∀ {d : DateTime} {c : Civil} {dec H e : ℝ}, UtcFields d c →
      get_topocentric_position (mathB tp) (num lat) (num lon) (.dt d) (num elev) = .ok (num dec, num H) →
      get_topocentric_elevation_angle (mathB tp) (num lat) (num dec) (num H) = .ok (num e) →
      |e| ≤ 89.5 → (e ≤ -5.31 ∨ (-4.89 ≤ e ∧ e ≤ -0.83341) ∨ -0.83333 ≤ e) →
      ∃ r alt, get_refraction_correction (mathB tp) (num standard_pressure) (num standard_temperature) (num e)
          = .ok (num r) ∧
        get_altitude (rndB F) (flt F lat) (flt F lon) (.dt d) (flt F elev) = .ok (flt F alt) ∧
        |alt - (e + r)| ≤ 2 / 10 ^ 5 := by
    intro d c dec H e h q1 q2 h90 hreg
    obtain ⟨dec', H', e', x1, x2, x3⟩ := C86_default F tp htp d c h lat lon elev ok hlon he
    rw [q1] at x1
    have y := Prod.mk.inj (Except.ok.inj x1)
    rw [← num_injective y.1, ← num_injective y.2, q2] at x2
    have z := num_injective (Except.ok.inj x2)
    subst z
    obtain ⟨alt', alt, f1, f2, f3⟩ := x3 (by norm_num at *; linarith) hreg
    obtain ⟨-, r, hr, hv⟩ := altitude_parts h q1 q2 f2
    rw [hv] at f3
    exact ⟨r, alt', hr, f1, f3⟩
  refine ⟨fun u1 u2 => ?_, fun u1 u2 => ?_⟩
  · obtain ⟨x, x', y⟩ := q u1 u2
    obtain ⟨r, alt, hr, g1, g2⟩ := get h p1 p2 x hz
    obtain ⟨r', alt', hr', g1', g2'⟩ := get h' p1' p2' x' hz'
    refine ⟨alt, alt', g1, g1', ?_⟩
    have k := refr_rate htp0 (by norm_num at *; linarith) (abs_le.mp x').2 hr hr'
    have k' := lifted_below htp0 (abs_le.mp x').2 hr'
    have k0 := lift_nonneg htp0 (abs_le.mp x).2 hr
    have g2 := abs_le.mp g2
    have g2' := abs_le.mp g2'
    refine ⟨?_, ?_, ?_⟩ <;> norm_num at * <;> linarith
  · obtain ⟨x, x', y⟩ := q' u1 u2
    obtain ⟨r, alt, hr, g1, g2⟩ := get h p1 p2 x hz
    obtain ⟨r', alt', hr', g1', g2'⟩ := get h' p1' p2' x' hz'
    refine ⟨alt, alt', g1, g1', ?_⟩
    have k := refr_rate htp0 (by norm_num at *; linarith) (abs_le.mp x).2 hr' hr
    have k' := lifted_below htp0 (abs_le.mp x).2 hr
    have k0 := lift_nonneg htp0 (abs_le.mp x').2 hr'
    have g2 := abs_le.mp g2
    have g2' := abs_le.mp g2'
    refine ⟨?_, ?_, ?_⟩ <;> norm_num at * <;> linarith

/-- C142: computed in double precision, with the default pressure and temperature: from half past midnight to half
past eleven in local mean solar time the altitude of a datetime at least 15 seconds later is strictly larger, from
half past twelve to half past eleven at night strictly smaller; the years 1901 to 2099, up to 66 degrees of latitude.
As in C86, the two exact elevation angles must not lie at the threshold of the refraction formula or near its
poles 5.1 degrees below the horizon. -/
theorem C142_double (F : F64) (tp : ℝ) (htp : 10 ^ 6 ≤ |tp|) (d d' : DateTime) (c c' : Civil) (h : UtcFields d c)
    (h' : UtcFields d' c') (hy : c'.year = c.year) (hm : c'.month = c.month)
    (hlt : c.micros + 15000000 ≤ c'.micros) (hy1 : 1901 ≤ c.year) (hy2 : c.year ≤ 2099)
    (lat lon elev : ℝ) (hlat : |lat| ≤ 66) (hlon : |lon| ≤ 360) (he : |elev| ≤ 50000) (day : ℤ) :
    ∃ dec H e dec' H' e',
      get_topocentric_position (mathB tp) (num lat) (num lon) (.dt d) (num elev) = .ok (num dec, num H) ∧
      get_topocentric_elevation_angle (mathB tp) (num lat) (num dec) (num H) = .ok (num e) ∧
      get_topocentric_position (mathB tp) (num lat) (num lon) (.dt d') (num elev) = .ok (num dec', num H') ∧
      get_topocentric_elevation_angle (mathB tp) (num lat) (num dec') (num H') = .ok (num e') ∧
      ((e ≤ -5.31 ∨ (-4.89 ≤ e ∧ e ≤ -0.83341) ∨ -0.83333 ≤ e) →
        (e' ≤ -5.31 ∨ (-4.89 ≤ e' ∧ e' ≤ -0.83341) ∨ -0.83333 ≤ e') →
        (24 * day + 0.5 ≤ meanSolar lon c → meanSolar lon c' ≤ 24 * day + 11.5 → ∃ alt alt',
          get_altitude (rndB F) (flt F lat) (flt F lon) (.dt d) (flt F elev) = .ok (flt F alt) ∧
          get_altitude (rndB F) (flt F lat) (flt F lon) (.dt d') (flt F elev) = .ok (flt F alt') ∧ alt < alt') ∧
        (24 * day + 12.5 ≤ meanSolar lon c → meanSolar lon c' ≤ 24 * day + 23.5 → ∃ alt alt',
          get_altitude (rndB F) (flt F lat) (flt F lon) (.dt d) (flt F elev) = .ok (flt F alt) ∧
          get_altitude (rndB F) (flt F lat) (flt F lon) (.dt d') (flt F elev) = .ok (flt F alt') ∧ alt' < alt)) := by
  obtain ⟨dec, H, e, dec', H', e', p1, p2, p1', p2', k⟩ := climb_double F tp htp d d' c c' h h' hy hm hlt hy1 hy2 lat lon elev hlat
    hlon he day
  refine ⟨dec, H, e, dec', H', e', p1, p2, p1', p2', fun z z' => ⟨fun u v => ?_, fun u v => ?_⟩⟩
  · obtain ⟨alt, alt', x, y, -, hl, -⟩ := (k z z').1 u v
    exact ⟨alt, alt', x, y, lt_of_lt_of_le (by norm_num) hl⟩
  · obtain ⟨alt, alt', x, y, -, hl, -⟩ := (k z z').2 u v
    exact ⟨alt, alt', x, y, lt_of_lt_of_le (by norm_num) hl⟩

/-- Seen from the equator, the sun is up between nine and half past nine. -/
theorem up_at_nine {tp : ℝ} {d : DateTime} {c : Civil} (h : UtcFields d c) (hy1 : 1901 ≤ c.year) (hy2 : c.year ≤ 2099)
    (day : ℤ) (m1 : 24 * day + 9 ≤ meanSolar 0 c) (m2 : meanSolar 0 c ≤ 24 * day + 9.5) {dec H e : ℝ}
    (q1 : get_topocentric_position (mathB tp) (num 0) (num 0) (.dt d) (num 0) = .ok (num dec, num H))
    (q2 : get_topocentric_elevation_angle (mathB tp) (num 0) (num dec) (num H) = .ok (num e)) : 0 ≤ e := by
  obtain ⟨k, hk⟩ := hour_mean h hy1 hy2 (by norm_num) (by norm_num) (by norm_num) q1
  have hk := abs_le.mp hk
  have hH : 0 < cos (rad H) := by
    rw [← cos_rad_add_turns H (k - day)]
    apply cos_rad_pos
    · push_cast; norm_num at *; linarith
    · push_cast; norm_num at *; linarith
  rw [topo_eval h] at q1
  have a := abs_le.mp (topo_small tp h.1 (lon := 0) (by norm_num : (-90 : ℝ) < 0) (by norm_num) (by norm_num : |(0 : ℝ)| ≤ 50000)).1
  have b := abs_le.mp (decOf_bound h.1)
  have hd : 0 < cos (rad dec) := by
    rw [← num_injective (Prod.mk.inj (Except.ok.inj q1)).1]
    apply cos_rad_pos <;> norm_num at * <;> linarith
  rw [tea_eval] at q2
  rw [← num_injective (Except.ok.inj q2), ← deg_zero, deg_le_deg, arcsin_nonneg, ← up_eq, deg_zero, rad_zero, sin_zero, cos_zero]
  have := mul_pos hd hH
  linarith

/-- At the equator on 21 June 2000 the altitude in double precision grows from nine o'clock to half past nine. -/
example (F : F64) : ∃ alt alt',
    get_altitude (rndB F) (flt F 0) (flt F 0) (.dt (utcDT ⟨2000, 6, 21, 9, 0, 0, 0⟩)) (flt F 0) = .ok (flt F alt) ∧
    get_altitude (rndB F) (flt F 0) (flt F 0) (.dt (utcDT ⟨2000, 6, 21, 9, 30, 0, 0⟩)) (flt F 0) = .ok (flt F alt') ∧
    alt < alt' := by
  have h : UtcFields (utcDT ⟨2000, 6, 21, 9, 0, 0, 0⟩) ⟨2000, 6, 21, 9, 0, 0, 0⟩ :=
    utcDT_fields (civil_valid_of_check (by decide))
  have h' : UtcFields (utcDT ⟨2000, 6, 21, 9, 30, 0, 0⟩) ⟨2000, 6, 21, 9, 30, 0, 0⟩ :=
    utcDT_fields (civil_valid_of_check (by decide))
  have m : meanSolar 0 ⟨2000, 6, 21, 9, 0, 0, 0⟩ = 24 * ((ymd2ord 2000 6 21 : ℤ) : ℝ) + 9 := by
    unfold meanSolar Civil.micros
    push_cast
    ring
  have m' : meanSolar 0 ⟨2000, 6, 21, 9, 30, 0, 0⟩ = 24 * ((ymd2ord 2000 6 21 : ℤ) : ℝ) + 9.5 := by
    unfold meanSolar Civil.micros
    push_cast
    ring
  obtain ⟨dec, H, e, dec', H', e', p1, p2, p1', p2', q⟩ := C142_double F (10 ^ 6) (by norm_num) _ _ _ _ h h' rfl rfl
    (by decide) (by decide) (by decide) 0 0 0 (by norm_num) (by norm_num) (by norm_num) (ymd2ord 2000 6 21)
  have e0 := up_at_nine h (by decide) (by decide) (ymd2ord 2000 6 21) m.ge (by rw [m]; norm_num) p1 p2
  have e0' := up_at_nine h' (by decide) (by decide) (ymd2ord 2000 6 21) (by rw [m']; norm_num) m'.le p1' p2'
  exact (q (.inr (.inr (by norm_num; linarith))) (.inr (.inr (by norm_num; linarith)))).1 (by rw [m]; norm_num)
    (by rw [m']; norm_num)

end Verif.Props
