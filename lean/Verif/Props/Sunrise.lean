import Verif.Proofs.SunriseEval
import Verif.Props.Time

/-!
# C48-C53: sunrise, transit and sunset
-/

namespace Verif.Props

open Verif.Spec Pysolar Pysolar.Util Real

variable {tp : ℝ}

/-! ## Lemmas -/

theorem half_day_bounds (x : ℝ) : 0 ≤ arccos x * (12 / π) ∧ arccos x * (12 / π) ≤ 12 := by
  have h0 := arccos_nonneg x
  have h1 := arccos_le_pi x
  have hp := pi_pos
  refine ⟨by positivity, ?_⟩
  calc arccos x * (12 / π) ≤ π * (12 / π) := by gcongr
    _ = 12 := by field_simp

theorem cos_90833 : cos (rad 90.833) = sin (rad (-0.833)) := by
  rw [show (90.833 : ℝ) = 90 + 0.833 by norm_num, rad_add, rad_90, rad_neg, sin_neg, add_comm, cos_add_pi_div_two]

theorem decl_range (n : ℝ) : -90 < sunriseDeclination n ∧ sunriseDeclination n < 90 := by
  have := abs_le.mp (sunriseDeclination_abs n)
  constructor <;> linarith

theorem tanP_of_pos {x : ℝ} (h : 0 < cos x) : tanP tp x = sin x / cos x := by
  rw [tanP, if_neg h.ne', tan_eq_sin_div_cos]

theorem onHorizon_iff {lat dec H : ℝ} (h1 : 0 < cos (rad lat)) (h2 : 0 < cos (rad dec)) :
    OnHorizon lat dec H ↔ cos (rad H) = cosHalfDay tp lat dec := by
  unfold OnHorizon cosHalfDay
  rw [← up_eq, ← cos_90833, tanP_of_pos h1, tanP_of_pos h2]
  have e : cos (rad 90.833) / (cos (rad lat) * cos (rad dec))
      - sin (rad lat) / cos (rad lat) * (sin (rad dec) / cos (rad dec))
      = (cos (rad 90.833) - sin (rad lat) * sin (rad dec)) / (cos (rad lat) * cos (rad dec)) := by
    field_simp
  rw [e, eq_div_iff (mul_pos h1 h2).ne']
  constructor <;> intro h <;> linarith

theorem exists_onHorizon_iff {lat dec : ℝ} (h1 : 0 < cos (rad lat)) (h2 : 0 < cos (rad dec)) :
    (∃ H, OnHorizon lat dec H) ↔ -1 ≤ cosHalfDay tp lat dec ∧ cosHalfDay tp lat dec ≤ 1 := by
  constructor
  · rintro ⟨H, h⟩
    rw [onHorizon_iff (tp := tp) h1 h2] at h
    rw [← h]
    exact ⟨neg_one_le_cos _, cos_le_one _⟩
  · intro h
    refine ⟨deg (arccos (cosHalfDay tp lat dec)), ?_⟩
    rw [onHorizon_iff (tp := tp) h1 h2, rad_deg, cos_arccos h.1 h.2]

theorem year_near {c : Civil} (h : c.Valid) (h2 : 2 ≤ c.year) (h3 : c.year ≤ 9998) {us : ℤ}
    (hu : |us| ≤ 10 * usPerDay) :
    1 ≤ (civilOfMicros (c.micros + us)).year ∧ (civilOfMicros (c.micros + us)).year ≤ 9999 := by
  set c' := civilOfMicros (c.micros + us) with hc'
  have hv' : c'.FieldsValid := civilOfMicros_valid _
  have hm : c'.micros = c.micros + us := micros_civilOfMicros _
  have d1 := micros_div h.2.2
  have d2 := micros_div hv'
  have o1 := ymd2ord_eq c.date
  have o2 := ymd2ord_eq c'.date
  have y1 := yday_bounds (c := c.date) h.2.2.1
  have y2 := yday_bounds (c := c'.date) hv'.1
  have s1 := daysBeforeYear_succ c.year
  have s2 := daysBeforeYear_succ c'.year
  simp only [Civil.date] at o1 o2 y1 y2
  rw [abs_le] at hu
  simp only [usPerDay] at *
  constructor
  · by_contra hn
    have m1 := daysBeforeYear_mono (y := c'.year + 1) (y' := 1) (by omega)
    have m2 := daysBeforeYear_mono (y := 2) (y' := c.year) (by omega)
    have e1 : daysBeforeYear 1 = 0 := by decide
    have e2 : daysBeforeYear 2 = 365 := by decide
    omega
  · by_contra hn
    have m1 := daysBeforeYear_mono (y := 10000) (y' := c'.year) (by omega)
    have m2 := daysBeforeYear_mono (y := c.year + 1) (y' := 9999) (by omega)
    have e1 : daysBeforeYear 10000 = 3652059 := by decide
    have e2 : daysBeforeYear 9999 = 3651694 := by decide
    omega

theorem noonHour_abs {d : DateTime} (hv : d.Valid) {lon : ℝ} (hl : |lon| ≤ 180) (n : ℝ) :
    |noonHour (utcOffsetSeconds d) lon n| ≤ 49 := by
  have ho : |(utcOffsetSeconds d : ℝ)| ≤ 86400 := by
    unfold utcOffsetSeconds
    cases h : d.utcoffset with
    | none => norm_num
    | some o =>
      have := hv.2 o h
      simp only [usPerDay] at this
      have a : (-(86400 * 1000000) : ℝ) < o := by exact_mod_cast this.1
      have b : (o : ℝ) < 86400 * 1000000 := by exact_mod_cast this.2
      push_cast
      rw [abs_le]
      constructor <;> linarith
  have he := abs_le.mp (equationOfTime_abs n)
  rw [abs_le] at ho hl
  unfold noonHour
  rw [abs_le]
  norm_num at he
  constructor <;> linarith

theorem add_near {d : DateTime} (hv : d.Valid) (h2 : 2 ≤ d.civil.year) (h3 : d.civil.year ≤ 9998) {x : ℝ}
    (hx : |x| ≤ 61) : ∃ us r, tdHoursV (.fin x) = .ok us ∧ (sameDay d).add us = .ok r := by
  have hr := abs_le.mp (roundHalfEven_bounds (hourMicros x))
  rw [abs_le] at hx
  have hb : |roundHalfEven (hourMicros x)| ≤ 10 * usPerDay := by
    have h1 : (roundHalfEven (hourMicros x) : ℝ) ≤ 10 * (86400 * 1000000) := by
      unfold hourMicros at *; linarith
    have h2 : (-(10 * (86400 * 1000000)) : ℝ) ≤ roundHalfEven (hourMicros x) := by
      unfold hourMicros at *; linarith
    rw [abs_le]
    simp only [usPerDay]
    exact ⟨by exact_mod_cast h2, by exact_mod_cast h1⟩
  have hs : (sameDay d).civil.Valid := by
    refine ⟨hv.1.1, hv.1.2.1, hv.1.2.2.1, ?_⟩
    simp [sameDay]
  have hy := year_near hs h2 h3 hb
  refine ⟨roundHalfEven (hourMicros x), ⟨civilOfMicros ((sameDay d).civil.micros + roundHalfEven (hourMicros x)), false, d.tz⟩,
    ?_, ?_⟩
  · have hb' := abs_le.mp hb
    simp only [usPerDay] at hb'
    unfold tdHoursV
    dsimp only
    rw [show x * 3600000000 = hourMicros x from rfl, if_pos]
    simp only [usPerDay]
    constructor <;> omega
  · unfold DateTime.add civilChecked
    dsimp only
    rw [if_pos hy]
    rfl

/-! ## C48 -/

/-- C48: whenever the function returns, sunrise, transit and sunset are in this order on the clock, transit is in
the middle up to two microseconds of rounding, sunset is at most 24 hours after sunrise, and all three carry the
`tzinfo` of the argument. -/
theorem C48_ordered (tp lat lon : ℝ) (d sr ss tr : DateTime)
    (h : get_sunrise_sunset_transit (mathB tp) (num lat) (num lon) (.dt d) = .ok (sr, ss, tr)) :
    sr.civil.micros ≤ tr.civil.micros ∧ tr.civil.micros ≤ ss.civil.micros ∧
      |(tr.civil.micros - sr.civil.micros) - (ss.civil.micros - tr.civil.micros)| ≤ 2 ∧
      ss.civil.micros - sr.civil.micros ≤ usPerDay ∧
      sr.tz = d.tz ∧ ss.tz = d.tz ∧ tr.tz = d.tz := by
  obtain ⟨noon, ha, -, -, -, hha, -, htz, -, h1, h2, h3⟩ := sunrise_inv h
  have hb := half_day_bounds (cosHalfDay tp lat (sunriseDeclination (yday d.civil.date)))
  rw [← hha] at hb
  have b1 := abs_le.mp (roundHalfEven_bounds (hourMicros (noon - ha)))
  have b2 := abs_le.mp (roundHalfEven_bounds (hourMicros (noon + ha)))
  have b3 := abs_le.mp (roundHalfEven_bounds (hourMicros noon))
  have m1 : roundHalfEven (hourMicros (noon - ha)) ≤ roundHalfEven (hourMicros noon) :=
    roundHalfEven_mono (by unfold hourMicros; linarith)
  have m2 : roundHalfEven (hourMicros noon) ≤ roundHalfEven (hourMicros (noon + ha)) :=
    roundHalfEven_mono (by unfold hourMicros; linarith)
  have m3 : roundHalfEven (hourMicros (noon + ha)) ≤ roundHalfEven (hourMicros (noon - ha)) + usPerDay := by
    rw [← roundHalfEven_add_even _ (n := usPerDay) (by decide)]
    refine roundHalfEven_mono ?_
    unfold hourMicros usPerDay
    push_cast
    linarith
  rw [h1, h2, h3]
  refine ⟨by omega, by omega, ?_, by omega, htz⟩
  have r1 : (-2 : ℝ) ≤ 2 * roundHalfEven (hourMicros noon) - roundHalfEven (hourMicros (noon - ha))
      - roundHalfEven (hourMicros (noon + ha)) := by unfold hourMicros at *; linarith
  have r2 : 2 * roundHalfEven (hourMicros noon) - roundHalfEven (hourMicros (noon - ha))
      - roundHalfEven (hourMicros (noon + ha)) ≤ (2 : ℝ) := by unfold hourMicros at *; linarith
  have i1 : -2 ≤ 2 * roundHalfEven (hourMicros noon) - roundHalfEven (hourMicros (noon - ha))
      - roundHalfEven (hourMicros (noon + ha)) := by exact_mod_cast r1
  have i2 : 2 * roundHalfEven (hourMicros noon) - roundHalfEven (hourMicros (noon - ha))
      - roundHalfEven (hourMicros (noon + ha)) ≤ 2 := by exact_mod_cast r2
  rw [abs_le]
  omega

/-! ## C49 -/

/-- C49: the returned times are the solar noon of the clock minus and plus a half-day `ha` of 0 to 12 hours, to the
nearest microsecond; and at the hour angles of this half-day (15 degrees per hour) the library's own altitude formula
gives exactly -0.833 degrees. -/
theorem C49_altitude (tp lat lon : ℝ) (hlat : |lat| < 90) (d sr ss tr : DateTime)
    (h : get_sunrise_sunset_transit (mathB tp) (num lat) (num lon) (.dt d) = .ok (sr, ss, tr)) :
    ∃ ha, 0 ≤ ha ∧ ha ≤ 12 ∧
      (let midnight : ℤ := Civil.micros ⟨d.civil.year, d.civil.month, d.civil.day, 0, 0, 0, 0⟩
       let n : ℝ := yday d.civil.date
       let noon : ℝ := noonHour (utcOffsetSeconds d) lon n
       |((sr.civil.micros - midnight : ℤ) : ℝ) - hourMicros (noon - ha)| ≤ 1 / 2 ∧
       |((ss.civil.micros - midnight : ℤ) : ℝ) - hourMicros (noon + ha)| ≤ 1 / 2 ∧
       |((tr.civil.micros - midnight : ℤ) : ℝ) - hourMicros noon| ≤ 1 / 2 ∧
       Solar.get_topocentric_elevation_angle (mathB tp) (num lat) (num (sunriseDeclination n)) (num (-(15 * ha)))
         = .ok (num (-0.833)) ∧
       Solar.get_topocentric_elevation_angle (mathB tp) (num lat) (num (sunriseDeclination n)) (num (15 * ha))
         = .ok (num (-0.833))) := by
  obtain ⟨noon, ha, hn, -, hx, hha, -, -, -, h1, h2, h3⟩ := sunrise_inv h
  have hb := half_day_bounds (cosHalfDay tp lat (sunriseDeclination (yday d.civil.date)))
  rw [← hha] at hb
  rw [abs_lt] at hlat
  have c1 := cos_rad_pos hlat.1 hlat.2
  have hd := decl_range (yday d.civil.date)
  have c2 := cos_rad_pos hd.1 hd.2
  have hr : rad (15 * ha) = arccos (cosHalfDay tp lat (sunriseDeclination (yday d.civil.date))) := by
    rw [hha]; unfold rad; have := pi_pos.ne'; field_simp; ring
  have hcos : cos (rad (15 * ha)) = cosHalfDay tp lat (sunriseDeclination (yday d.civil.date)) := by
    rw [hr, cos_arccos hx.1 hx.2]
  have z1 : (sunENU lat (15 * ha) (sunriseDeclination (yday d.civil.date))).z = sin (rad (-0.833)) :=
    (onHorizon_iff (tp := tp) c1 c2).mpr hcos
  have z2 : (sunENU lat (-(15 * ha)) (sunriseDeclination (yday d.civil.date))).z = sin (rad (-0.833)) :=
    (onHorizon_iff (tp := tp) c1 c2).mpr (by rw [rad_neg, cos_neg, hcos])
  have has : deg (arcsin (sin (rad (-0.833)))) = -0.833 := by
    rw [arcsin_sin, deg_rad]
    · rw [← rad_90, ← rad_neg, rad_le_rad]; norm_num
    · rw [← rad_90, rad_le_rad]; norm_num
  refine ⟨ha, hb.1, hb.2, ?_⟩
  dsimp only
  rw [← hn, h1, h2, h3, tea_eval, tea_eval, z1, z2, has]
  have e : ∀ r : ℤ, (sameDay d).civil.micros + r
      - Civil.micros ⟨d.civil.year, d.civil.month, d.civil.day, 0, 0, 0, 0⟩ = r := fun r => by
    simp [sameDay]
  simp only [e]
  exact ⟨roundHalfEven_bounds _, roundHalfEven_bounds _, roundHalfEven_bounds _, trivial, trivial⟩

/-! ## C50 -/

/-- C50: away from the poles, and for a datetime with a time zone, `ValueError` is raised exactly when no hour angle
puts the sun at the altitude -0.833 degrees. -/
theorem C50_value_error (tp lat lon : ℝ) (hlat : |lat| < 90) (d : DateTime) (hd : d.tz.isSome) :
    get_sunrise_sunset_transit (mathB tp) (num lat) (num lon) (.dt d) = .error .valueError ↔
      ¬ ∃ H, OnHorizon lat (sunriseDeclination (yday d.civil.date)) H := by
  rw [abs_lt] at hlat
  have c1 := cos_rad_pos hlat.1 hlat.2
  have hdec := decl_range (yday d.civil.date)
  have c2 := cos_rad_pos hdec.1 hdec.2
  rw [exists_onHorizon_iff (tp := tp) c1 c2, sunrise_eval hd]
  by_cases hx : -1 ≤ cosHalfDay tp lat (sunriseDeclination (yday d.civil.date)) ∧
      cosHalfDay tp lat (sunriseDeclination (yday d.civil.date)) ≤ 1
  · rw [ha_eval_ok (mul_pos c1 c2).ne' hx]
    simp only [hx, and_self, not_true_eq_false, iff_false, ok_bind, m_sub, m_add, m_tdHours]
    have key : ∀ (x : ℝ) (β : Type) (f : DateTime → Py β), (∀ r, f r ≠ .error .valueError) →
        (tdHoursV (.fin x) >>= fun us => (sameDay d).add us >>= f) ≠ .error .valueError := by
      intro x β f hf
      cases h1 : tdHoursV (.fin x) with
      | error e => rw [tdHours_err h1]; simp
      | ok us =>
        cases h2 : (sameDay d).add us with
        | error e => simp only [ok_bind, h2]; rw [add_err h2]; simp
        | ok r => simp only [ok_bind, h2]; exact hf r
    exact key _ _ _ fun a => key _ _ _ fun b => key _ _ _ fun c => by simp
  · rw [ha_eval_value (mul_pos c1 c2).ne' hx]
    simp [hx]

/-- C50: otherwise the function returns, or the date leaves the years 1 to 9999 (`OverflowError`). -/
theorem C50_returns_or_overflows (tp lat lon : ℝ) (hlat : |lat| < 90) (d : DateTime) (hd : d.tz.isSome)
    (hH : ∃ H, OnHorizon lat (sunriseDeclination (yday d.civil.date)) H) :
    (∃ r, get_sunrise_sunset_transit (mathB tp) (num lat) (num lon) (.dt d) = .ok r) ∨
      get_sunrise_sunset_transit (mathB tp) (num lat) (num lon) (.dt d) = .error .overflow := by
  rw [abs_lt] at hlat
  have c1 := cos_rad_pos hlat.1 hlat.2
  have hdec := decl_range (yday d.civil.date)
  have c2 := cos_rad_pos hdec.1 hdec.2
  rw [exists_onHorizon_iff (tp := tp) c1 c2] at hH
  rw [sunrise_eval hd, ha_eval_ok (mul_pos c1 c2).ne' hH]
  simp only [ok_bind, m_sub, m_add, m_tdHours]
  have key : ∀ (x : ℝ) (β : Type) (f : DateTime → Py β), (∀ r, (∃ y, f r = .ok y) ∨ f r = .error .overflow) →
      (∃ y, (tdHoursV (.fin x) >>= fun us => (sameDay d).add us >>= f) = .ok y) ∨
        (tdHoursV (.fin x) >>= fun us => (sameDay d).add us >>= f) = .error .overflow := by
    intro x β f hf
    cases h1 : tdHoursV (.fin x) with
    | error e => rw [tdHours_err h1]; simp
    | ok us =>
      cases h2 : (sameDay d).add us with
      | error e => simp only [ok_bind, h2]; rw [add_err h2]; simp
      | ok r => simp only [ok_bind, h2]; exact hf r
  exact key _ _ _ fun a => key _ _ _ fun b => key _ _ _ fun c => .inl ⟨_, rfl⟩

/-- C50: it does return for every valid datetime of the years 2 to 9998 and longitude within 180 degrees. -/
theorem C50_returns (tp lat lon : ℝ) (hlat : |lat| < 90) (hlon : |lon| ≤ 180) (d : DateTime) (hd : d.tz.isSome)
    (hv : d.Valid) (hy2 : 2 ≤ d.civil.year) (hy : d.civil.year ≤ 9998)
    (hH : ∃ H, OnHorizon lat (sunriseDeclination (yday d.civil.date)) H) :
    ∃ sr ss tr, get_sunrise_sunset_transit (mathB tp) (num lat) (num lon) (.dt d) = .ok (sr, ss, tr) := by
  rw [abs_lt] at hlat
  have c1 := cos_rad_pos hlat.1 hlat.2
  have hdec := decl_range (yday d.civil.date)
  have c2 := cos_rad_pos hdec.1 hdec.2
  rw [exists_onHorizon_iff (tp := tp) c1 c2] at hH
  have hb := half_day_bounds (cosHalfDay tp lat (sunriseDeclination (yday d.civil.date)))
  have hn := abs_le.mp (noonHour_abs hv hlon (yday d.civil.date))
  rw [sunrise_eval hd, ha_eval_ok (mul_pos c1 c2).ne' hH]
  simp only [ok_bind, m_sub, m_add, m_tdHours]
  obtain ⟨u1, r1, a1, b1⟩ := add_near hv hy2 hy (x := noonHour (utcOffsetSeconds d) lon (yday d.civil.date)
    - arccos (cosHalfDay tp lat (sunriseDeclination (yday d.civil.date))) * (12 / π))
    (by rw [abs_le]; constructor <;> linarith)
  obtain ⟨u2, r2, a2, b2⟩ := add_near hv hy2 hy (x := noonHour (utcOffsetSeconds d) lon (yday d.civil.date)
    + arccos (cosHalfDay tp lat (sunriseDeclination (yday d.civil.date))) * (12 / π))
    (by rw [abs_le]; constructor <;> linarith)
  obtain ⟨u3, r3, a3, b3⟩ := add_near hv hy2 hy (x := noonHour (utcOffsetSeconds d) lon (yday d.civil.date))
    (by rw [abs_le]; constructor <;> linarith)
  refine ⟨r1, r2, r3, ?_⟩
  simp only [a1, b1, a2, b2, a3, b3, ok_bind, pure_eq_ok]

theorem cos_rad_le_iff {x y : ℝ} (hx : |x| ≤ 180) (hy : 0 ≤ y) (hy' : y ≤ 180) :
    cos (rad y) ≤ cos (rad x) ↔ |x| ≤ y := by
  have hc : cos (rad x) = cos (rad |x|) := by
    rcases abs_choice x with h | h <;> rw [h]
    rw [rad_neg, cos_neg]
  have hp := pi_pos
  rw [hc, strictAntiOn_cos.le_iff_ge, rad_le_rad]
  · rw [Set.mem_Icc, ← rad_180, rad_le_rad, ← rad_zero, rad_le_rad]; exact ⟨hy, hy'⟩
  · rw [Set.mem_Icc, ← rad_180, rad_le_rad, ← rad_zero, rad_le_rad]; exact ⟨abs_nonneg x, hx⟩

/-- The sun reaches the altitude -0.833 degrees exactly if its lower culmination is below it and its upper
culmination above it. -/
theorem exists_onHorizon_explicit {lat dec : ℝ} (hlat : |lat| < 90) (hdec : |dec| < 90) :
    (∃ H, OnHorizon lat dec H) ↔ |lat + dec| ≤ 89.167 ∧ |lat - dec| ≤ 90.833 := by
  have a1 := abs_add_le lat dec
  have a2 := abs_sub lat dec
  rw [abs_lt] at hlat hdec
  have c1 := cos_rad_pos hlat.1 hlat.2
  have c2 := cos_rad_pos hdec.1 hdec.2
  have hs : |lat + dec| ≤ 180 := by rw [abs_le]; constructor <;> linarith
  have hd : |lat - dec| ≤ 180 := by rw [abs_le]; constructor <;> linarith
  rw [exists_onHorizon_iff (tp := 0) c1 c2, ← cos_rad_le_iff hs (by norm_num) (by norm_num),
    ← cos_rad_le_iff hd (by norm_num) (by norm_num), rad_add, rad_sub, cos_add, cos_sub]
  have e1 : cos (rad 89.167) = -cos (rad 90.833) := by
    rw [show (89.167 : ℝ) = 180 - 90.833 by norm_num, rad_sub, rad_180, cos_pi_sub]
  have e2 : cosHalfDay 0 lat dec
      = (cos (rad 90.833) - sin (rad lat) * sin (rad dec)) / (cos (rad lat) * cos (rad dec)) := by
    unfold cosHalfDay
    rw [tanP_of_pos c1, tanP_of_pos c2]
    field_simp
  rw [e1, e2, le_div_iff₀ (mul_pos c1 c2), div_le_iff₀ (mul_pos c1 c2)]
  constructor <;> rintro ⟨h1, h2⟩ <;> constructor <;> linarith

/-- C50 in terms of the angles: polar day or polar night. -/
theorem C50_polar (tp lat lon : ℝ) (hlat : |lat| < 90) (d : DateTime) (hd : d.tz.isSome) :
    get_sunrise_sunset_transit (mathB tp) (num lat) (num lon) (.dt d) = .error .valueError ↔
      89.167 < |lat + sunriseDeclination (yday d.civil.date)| ∨
      90.833 < |lat - sunriseDeclination (yday d.civil.date)| := by
  have hdec : |sunriseDeclination (yday d.civil.date)| < 90 := by
    have := sunriseDeclination_abs (yday d.civil.date); linarith
  rw [C50_value_error tp lat lon hlat d hd, exists_onHorizon_explicit hlat hdec, not_and_or, not_le, not_le]

/-- Up to 61 degrees of latitude the sun crosses the horizon every day. -/
theorem low_latitude_onHorizon {lat : ℝ} (h : |lat| ≤ 61) (n : ℝ) : ∃ H, OnHorizon lat (sunriseDeclination n) H := by
  have hab := sunriseDeclination_abs n
  rw [exists_onHorizon_explicit (by linarith) (by linarith)]
  have a1 := abs_add_le lat (sunriseDeclination n)
  have a2 := abs_sub lat (sunriseDeclination n)
  norm_num
  constructor <;> linarith

/-- At the equator the sun crosses the horizon every day. -/
theorem equator_onHorizon (n : ℝ) : ∃ H, OnHorizon 0 (sunriseDeclination n) H :=
  low_latitude_onHorizon (by norm_num) n

/-! ## C51 -/

/-- C51: the wrappers return the components of the triple, or its exception; on every backend. -/
theorem C51_projections (B : Backend) (lat lon : B.α) (w : When B) :
    get_sunrise_sunset B lat lon w = (get_sunrise_sunset_transit B lat lon w).map (fun r => (r.1, r.2.1)) ∧
    get_sunrise_time B lat lon w = (get_sunrise_sunset_transit B lat lon w).map (fun r => r.1) ∧
    get_sunset_time B lat lon w = (get_sunrise_sunset_transit B lat lon w).map (fun r => r.2.1) ∧
    get_transit_time B lat lon w = (get_sunrise_sunset_transit B lat lon w).map (fun r => r.2.2) := by
  have hg : ∀ e, TzCheck.guard w = .error e → get_sunrise_sunset_transit B lat lon w = .error e := fun e he => by
    rw [get_sunrise_sunset_transit, he]; rfl
  cases h : TzCheck.guard w with
  | error e =>
    simp only [get_sunrise_sunset, get_sunrise_time, get_sunset_time, get_transit_time, h, hg e h]
    exact ⟨rfl, rfl, rfl, rfl⟩
  | ok u =>
    simp only [get_sunrise_sunset, get_sunrise_time, get_sunset_time, get_transit_time, h]
    cases get_sunrise_sunset_transit B lat lon w <;> exact ⟨rfl, rfl, rfl, rfl⟩

/-- C51: the triple depends on the datetime only through its local date, its time zone and its UTC offset; on every
backend. (With `C51_projections`, so do the wrappers.) -/
theorem C51_same_date (B : Backend) (lat lon : B.α) (d d' : DateTime) (hc : d.civil.date = d'.civil.date)
    (htz : d.tz = d'.tz) (ho : d.utcoffset = d'.utcoffset) :
    get_sunrise_sunset_transit B lat lon (.dt d) = get_sunrise_sunset_transit B lat lon (.dt d') := by
  have hs : sameDay d = sameDay d' := by
    simp only [Civil.date, YMD.mk.injEq] at hc
    simp [sameDay, hc, htz]
  have hu : utcOffsetSeconds d = utcOffsetSeconds d' := by simp [utcOffsetSeconds, ho]
  have hg : TzCheck.guard (B := B) (.dt d) = TzCheck.guard (B := B) (.dt d') := by
    simp [TzCheck.guard, TzCheck.checkValue, TzCheck.whenView, htz]
  simp only [get_sunrise_sunset_transit, asDatetime, hg, hs, hu, hc, ok_bind]

/-! ## C52 -/

theorem date_iff {d r : DateTime} (hv : d.civil.FieldsValid) (hr : r.civil.FieldsValid) {k : ℤ}
    (h : r.civil.micros = (sameDay d).civil.micros + k) :
    r.civil.date = d.civil.date ↔ 0 ≤ k ∧ k < usPerDay := by
  have e1 := micros_div hr
  have e2 : (sameDay d).civil.micros = ymd2ord d.civil.year d.civil.month d.civil.day * usPerDay := by
    simp [sameDay, Civil.micros, usPerDay]; ring
  have e3 : r.civil.date = d.civil.date ↔ ymd2ord r.civil.year r.civil.month r.civil.day
      = ymd2ord d.civil.year d.civil.month d.civil.day := by
    constructor
    · intro h
      simp only [Civil.date, YMD.mk.injEq] at h
      rw [h.1, h.2.1, h.2.2]
    · intro h
      exact ymd2ord_injective (c := r.civil.date) (c' := d.civil.date) hr.1 hv.1 h
  rw [e3, ← e1, h, e2]
  simp only [usPerDay]
  omega

/-- The claim C52. -/
def C52Claim (tp : ℝ) : Prop := ∀ (lat lon : ℝ) (d sr ss tr : DateTime), d.Valid → |lat| < 90 → |lon| ≤ 180 →
  get_sunrise_sunset_transit (mathB tp) (num lat) (num lon) (.dt d) = .ok (sr, ss, tr) →
  sr.civil.date = d.civil.date ∧ ss.civil.date = d.civil.date ∧ tr.civil.date = d.civil.date

/-- C52, what holds: if the clock is within an hour of mean solar time and the day is at most 21 hours long, all
three are on the local day of the argument; transit is already if the clock is within 11.6 hours.  Missing: clocks further from solar time, and longer days. -/
theorem C52_same_day_partial (tp lat lon : ℝ) (d sr ss tr : DateTime) (hv : d.Valid)
    (h : get_sunrise_sunset_transit (mathB tp) (num lat) (num lon) (.dt d) = .ok (sr, ss, tr)) :
    (|(utcOffsetSeconds d : ℝ) / 3600 - lon / 15| ≤ 11.6 → tr.civil.date = d.civil.date) ∧
    (|(utcOffsetSeconds d : ℝ) / 3600 - lon / 15| ≤ 1 →
      ss.civil.micros - sr.civil.micros ≤ 21 * 3600000000 →
      sr.civil.date = d.civil.date ∧ ss.civil.date = d.civil.date ∧ tr.civil.date = d.civil.date) := by
  obtain ⟨noon, ha, hn, -, -, hha, hvs, -, -, h1, h2, h3⟩ := sunrise_inv h
  have he := abs_le.mp (equationOfTime_abs (yday d.civil.date))
  have hb := half_day_bounds (cosHalfDay tp lat (sunriseDeclination (yday d.civil.date)))
  rw [← hha] at hb
  rw [date_iff hv.1.2.2 hvs.1.2.2 h1, date_iff hv.1.2.2 hvs.2.1.2.2 h2, date_iff hv.1.2.2 hvs.2.2.2.2 h3]
  have b1 := abs_le.mp (roundHalfEven_bounds (hourMicros (noon - ha)))
  have b2 := abs_le.mp (roundHalfEven_bounds (hourMicros (noon + ha)))
  have b3 := abs_le.mp (roundHalfEven_bounds (hourMicros noon))
  have key : ∀ k : ℤ, (0 : ℝ) ≤ k → (k : ℝ) < 86400 * 1000000 → 0 ≤ k ∧ k < usPerDay := fun k a b => by
    simp only [usPerDay]
    exact ⟨by exact_mod_cast a, by exact_mod_cast b⟩
  unfold noonHour at hn
  unfold hourMicros at *
  norm_num at he
  constructor
  · intro hc
    norm_num [abs_le] at hc
    refine key _ ?_ ?_ <;> linarith
  · intro hc hl
    rw [h1, h2] at hl
    have hl' : ((roundHalfEven ((noon + ha) * 3600000000) : ℤ) : ℝ) - roundHalfEven ((noon - ha) * 3600000000)
        ≤ 21 * 3600000000 := by
      have : roundHalfEven ((noon + ha) * 3600000000) - roundHalfEven ((noon - ha) * 3600000000)
        ≤ 21 * 3600000000 := by omega
      exact_mod_cast this
    rw [abs_le] at hc
    refine ⟨key _ ?_ ?_, key _ ?_ ?_, key _ ?_ ?_⟩ <;> linarith

/-- C52, what holds: the exact condition for each of the three. -/
theorem C52_iff_partial (tp lat lon : ℝ) (d sr ss tr : DateTime) (hv : d.Valid)
    (h : get_sunrise_sunset_transit (mathB tp) (num lat) (num lon) (.dt d) = .ok (sr, ss, tr)) :
    let midnight := Civil.micros ⟨d.civil.year, d.civil.month, d.civil.day, 0, 0, 0, 0⟩
    (sr.civil.date = d.civil.date ↔ midnight ≤ sr.civil.micros ∧ sr.civil.micros < midnight + usPerDay) ∧
    (ss.civil.date = d.civil.date ↔ midnight ≤ ss.civil.micros ∧ ss.civil.micros < midnight + usPerDay) ∧
    (tr.civil.date = d.civil.date ↔ midnight ≤ tr.civil.micros ∧ tr.civil.micros < midnight + usPerDay) := by
  obtain ⟨noon, ha, hn, -, -, hha, hvs, -, -, h1, h2, h3⟩ := sunrise_inv h
  intro midnight
  have hm : midnight = (sameDay d).civil.micros := rfl
  rw [date_iff hv.1.2.2 hvs.1.2.2 h1, date_iff hv.1.2.2 hvs.2.1.2.2 h2, date_iff hv.1.2.2 hvs.2.2.2.2 h3, hm]
  omega

theorem half_day_equator {n : ℝ} :
    6.025 ≤ arccos (cosHalfDay tp 0 (sunriseDeclination n)) * (12 / π) := by
  have hdec := decl_range n
  have c1 : 0 < cos (rad 0) := by simp
  have c2 := cos_rad_pos hdec.1 hdec.2
  have hp := pi_pos
  have hp4 := pi_le_four
  have s0 : 2 / π * rad 0.833 ≤ sin (rad 0.833) := by
    refine mul_le_sin ?_ ?_
    · rw [← rad_zero, rad_le_rad]; norm_num
    · rw [← rad_90, rad_le_rad]; norm_num
  have s1 : 2 / π * rad 0.833 = 1.666 / 180 := by unfold rad; field_simp; norm_num
  rw [s1] at s0
  have hx : cosHalfDay tp 0 (sunriseDeclination n) ≤ -(1.666 / 180) := by
    unfold cosHalfDay
    rw [cos_90833, rad_neg, sin_neg, tanP_of_pos c1]
    simp only [rad_zero, cos_zero, sin_zero, one_mul, zero_div, zero_mul, sub_zero, neg_div]
    have : 1.666 / 180 ≤ sin (rad 0.833) / cos (rad (sunriseDeclination n)) := by
      rw [le_div_iff₀ c2]
      have := cos_le_one (rad (sunriseDeclination n))
      nlinarith
    linarith
  have ha : π / 2 + 1.666 / 180 ≤ arccos (cosHalfDay tp 0 (sunriseDeclination n)) := by
    refine le_trans ?_ (arccos_le_arccos hx)
    rw [arccos_neg, arccos]
    have h1 : (1.666 / 180 : ℝ) ≤ arcsin (1.666 / 180) := by
      rw [le_arcsin_iff_sin_le' ⟨by linarith, by norm_num; linarith [pi_gt_three]⟩]
      exact sin_le (by norm_num)
    linarith
  calc (6.025 : ℝ) ≤ 6 + 1.666 / 180 * (12 / π) := by
        have : (3 : ℝ) ≤ 12 / π := by rw [le_div_iff₀ hp]; linarith
        norm_num at *
        linarith
    _ = (π / 2 + 1.666 / 180) * (12 / π) := by field_simp; ring
    _ ≤ _ := by gcongr

theorem utcDT_valid {c : Civil} (h : c.Valid) : (utcDT c).Valid :=
  ⟨h, fun o ho => by
    have : o = 0 := by simpa [utcDT, DateTime.utcoffset, utcTz] using ho.symm
    rw [this]; decide⟩

/-- C52 is false: on the date line (longitude 180) with a UTC clock, the sunrise of the equator is reported for the
evening before. -/
theorem C52_refuted (tp : ℝ) : ¬ C52Claim tp := by
  intro hc
  have hcv : (⟨2007, 2, 18, 12, 0, 0, 0⟩ : Civil).Valid := civil_valid_of_check (by decide)
  have hv := utcDT_valid hcv
  obtain ⟨sr, ss, tr, h⟩ := C50_returns tp 0 180 (by norm_num) (by norm_num) (utcDT ⟨2007, 2, 18, 12, 0, 0, 0⟩) rfl hv
    (by decide) (by decide) (equator_onHorizon _)
  have hs := (hc 0 180 _ sr ss tr hv (by norm_num) (by norm_num) h).1
  obtain ⟨noon, ha, hn, -, -, hha, hvs, -, -, h1, -, -⟩ := sunrise_inv h
  rw [date_iff hv.1.2.2 hvs.1.2.2 h1] at hs
  have he := abs_le.mp (equationOfTime_abs (yday (utcDT ⟨2007, 2, 18, 12, 0, 0, 0⟩).civil.date))
  have h6 := half_day_equator (tp := tp) (n := yday (utcDT ⟨2007, 2, 18, 12, 0, 0, 0⟩).civil.date)
  rw [← hha] at h6
  have b1 := abs_le.mp (roundHalfEven_bounds (hourMicros (noon - ha)))
  have ho : utcOffsetSeconds (utcDT ⟨2007, 2, 18, 12, 0, 0, 0⟩) = 0 := by
    simp [utcOffsetSeconds, utcDT, DateTime.utcoffset, utcTz]
  rw [ho] at hn
  unfold noonHour at hn
  have h0 : (0 : ℝ) ≤ roundHalfEven (hourMicros (noon - ha)) := by exact_mod_cast hs.1
  unfold hourMicros at *
  norm_num at he hn h6
  linarith

/-! ## C53 -/

/-- C53: at the equator the day is longer than 12 hours, on every day (by at least three minutes). -/
theorem C53_equator (tp lon : ℝ) (d sr ss tr : DateTime)
    (h : get_sunrise_sunset_transit (mathB tp) (num 0) (num lon) (.dt d) = .ok (sr, ss, tr)) :
    12 * 3600000000 + 3 * 60000000 ≤ ss.civil.micros - sr.civil.micros := by
  obtain ⟨noon, ha, -, -, -, hha, -, -, -, h1, h2, -⟩ := sunrise_inv h
  have h6 := half_day_equator (tp := tp) (n := yday d.civil.date)
  rw [← hha] at h6
  have : roundHalfEven (hourMicros (noon - ha)) + (12 * 3600000000 + 3 * 60000000)
      ≤ roundHalfEven (hourMicros (noon + ha)) := by
    rw [← roundHalfEven_add_even _ (n := 12 * 3600000000 + 3 * 60000000) (by decide)]
    refine roundHalfEven_mono ?_
    unfold hourMicros
    push_cast
    norm_num at h6
    linarith
  omega

/-- C53: for a declination of 0 or more, the day does not get shorter from the equator to the north. -/
theorem C53_monotone (tp lat lat' lon : ℝ) (h0 : 0 ≤ lat) (hl : lat ≤ lat') (h90 : lat' < 90)
    (d sr ss tr sr' ss' tr' : DateTime) (hdec : 0 ≤ sunriseDeclination (yday d.civil.date))
    (h : get_sunrise_sunset_transit (mathB tp) (num lat) (num lon) (.dt d) = .ok (sr, ss, tr))
    (h' : get_sunrise_sunset_transit (mathB tp) (num lat') (num lon) (.dt d) = .ok (sr', ss', tr')) :
    sr'.civil.micros ≤ sr.civil.micros ∧ ss.civil.micros ≤ ss'.civil.micros ∧
      ss.civil.micros - sr.civil.micros ≤ ss'.civil.micros - sr'.civil.micros := by
  obtain ⟨noon, ha, hn, -, -, hha, -, -, -, h1, h2, -⟩ := sunrise_inv h
  obtain ⟨noon', ha', hn', -, -, hha', -, -, -, h1', h2', -⟩ := sunrise_inv h'
  have hd := decl_range (yday d.civil.date)
  have c2 := cos_rad_pos hd.1 hd.2
  have c1 : 0 < cos (rad lat) := cos_rad_pos (by linarith) (by linarith)
  have c1' : 0 < cos (rad lat') := cos_rad_pos (by linarith) (by linarith)
  have s0 : 0 < sin (rad 0.833) := sin_rad_pos (by norm_num) (by norm_num)
  have r0 : 0 ≤ rad lat := by rw [← rad_zero, rad_le_rad]; exact h0
  have r1 : rad lat ≤ rad lat' := rad_le_rad.mpr hl
  have r2 : rad lat' < π / 2 := by rw [← rad_90, rad_lt_rad]; exact h90
  have hcos : cos (rad lat') ≤ cos (rad lat) := cos_le_cos_of_nonneg_of_le_pi r0 (by linarith [pi_pos]) r1
  have hsin : sin (rad lat) ≤ sin (rad lat') := sin_le_sin_of_le_of_le_pi_div_two (by linarith [pi_pos]) r2.le r1
  have hsl : 0 ≤ sin (rad lat) := sin_nonneg_of_nonneg_of_le_pi r0 (by linarith [pi_pos])
  have hsd : 0 ≤ sin (rad (sunriseDeclination (yday d.civil.date))) := by
    refine sin_nonneg_of_nonneg_of_le_pi ?_ ?_
    · rw [← rad_zero, rad_le_rad]; exact hdec
    · rw [← rad_180, rad_le_rad]; linarith
  have hx : cosHalfDay tp lat' (sunriseDeclination (yday d.civil.date))
      ≤ cosHalfDay tp lat (sunriseDeclination (yday d.civil.date)) := by
    unfold cosHalfDay
    rw [cos_90833, rad_neg, sin_neg, tanP_of_pos c1, tanP_of_pos c1', tanP_of_pos c2, neg_div, neg_div]
    set D := rad (sunriseDeclination (yday d.civil.date))
    have a1 : sin (rad 0.833) / (cos (rad lat) * cos D) ≤ sin (rad 0.833) / (cos (rad lat') * cos D) := by
      gcongr
    have a2 : sin (rad lat) / cos (rad lat) ≤ sin (rad lat') / cos (rad lat') := by
      gcongr
      linarith
    have a3 : sin (rad lat) / cos (rad lat) * (sin D / cos D) ≤ sin (rad lat') / cos (rad lat') * (sin D / cos D) := by
      gcongr
    linarith
  have hah : ha ≤ ha' := by
    rw [hha, hha']
    have := arccos_le_arccos hx
    have hp := pi_pos
    gcongr
  have hnn : noon = noon' := by rw [hn, hn']
  subst hnn
  have m1 : roundHalfEven (hourMicros (noon - ha')) ≤ roundHalfEven (hourMicros (noon - ha)) :=
    roundHalfEven_mono (by unfold hourMicros; linarith)
  have m2 : roundHalfEven (hourMicros (noon + ha)) ≤ roundHalfEven (hourMicros (noon + ha')) :=
    roundHalfEven_mono (by unfold hourMicros; linarith)
  omega

/-! ## The hypotheses are satisfiable -/

theorem sampleDT_valid : sampleDT.Valid := by
  refine ⟨civil_valid_of_check (by decide), fun o ho => ?_⟩
  have : o = -18000000000 := by simpa [sampleDT, DateTime.utcoffset, fixedTz] using ho.symm
  rw [this]; decide

/-- C48, C49, C51-C53: the function returns at the equator for the sample datetime (18 February 2007). -/
theorem sunrise_sample (tp : ℝ) : ∃ sr ss tr,
    get_sunrise_sunset_transit (mathB tp) (num 0) (num (-75)) (.dt sampleDT) = .ok (sr, ss, tr) :=
  C50_returns tp 0 (-75) (by norm_num) (by norm_num) sampleDT rfl sampleDT_valid (by decide) (by decide)
    (equator_onHorizon _)

/-- 2 July 2007, day 183: half of 366, where the series has a closed form. -/
def july2 : DateTime := utcDT ⟨2007, 7, 2, 12, 0, 0, 0⟩

theorem july2_valid : july2.Valid := utcDT_valid (civil_valid_of_check (by decide))

theorem july2_decl : sunriseDeclination (yday july2.civil.date) = 23.079085 := by
  have hy : yday july2.civil.date = 183 := by decide
  have e : (2 * π * ((183 : ℤ) : ℝ) / 366) = π := by push_cast; ring
  have c2 : cos (2 * π) = 1 := cos_two_pi
  have c3 : cos (3 * π) = -1 := by
    rw [show 3 * π = π + 2 * π by ring, cos_add_two_pi, cos_pi]
  have s2 : sin (2 * π) = 0 := sin_two_pi
  have s3 : sin (3 * π) = 0 := by
    rw [show 3 * π = π + 2 * π by ring, sin_add_two_pi, sin_pi]
  rw [hy, sunriseDeclination, e]
  norm_num [fourier, c3, s3]

/-- C50: polar day on 2 July at 80 degrees north. -/
example (tp : ℝ) :
    get_sunrise_sunset_transit (mathB tp) (num 80) (num 15) (.dt july2) = .error .valueError := by
  rw [C50_polar tp 80 15 (by norm_num) july2 rfl, july2_decl]
  norm_num [abs_of_pos]

/-- C53: 2 July has a positive declination, and the function returns at 10 and at 50 degrees north. -/
example (tp : ℝ) : 0 ≤ sunriseDeclination (yday july2.civil.date) ∧
    (∃ sr ss tr, get_sunrise_sunset_transit (mathB tp) (num 10) (num 15) (.dt july2) = .ok (sr, ss, tr)) ∧
    (∃ sr ss tr, get_sunrise_sunset_transit (mathB tp) (num 50) (num 15) (.dt july2) = .ok (sr, ss, tr)) := by
  refine ⟨by rw [july2_decl]; norm_num, ?_, ?_⟩
  · exact C50_returns tp 10 15 (by norm_num) (by norm_num) july2 rfl july2_valid (by decide) (by decide)
      (low_latitude_onHorizon (by norm_num) _)
  · exact C50_returns tp 50 15 (by norm_num) (by norm_num) july2 rfl july2_valid (by decide) (by decide)
      (low_latitude_onHorizon (by norm_num) _)

/-- C52: on 2 July in Greenwich's zone at the equator the day is shorter than 21 hours. -/
example (tp : ℝ) : ∃ sr ss tr,
    get_sunrise_sunset_transit (mathB tp) (num 0) (num 0) (.dt july2) = .ok (sr, ss, tr) ∧
    |(utcOffsetSeconds july2 : ℝ) / 3600 - 0 / 15| ≤ 1 ∧ ss.civil.micros - sr.civil.micros ≤ 21 * 3600000000 := by
  obtain ⟨sr, ss, tr, h⟩ := C50_returns tp 0 0 (by norm_num) (by norm_num) july2 rfl july2_valid (by decide) (by decide)
    (equator_onHorizon _)
  refine ⟨sr, ss, tr, h, ?_, ?_⟩
  · have : utcOffsetSeconds july2 = 0 := by simp [utcOffsetSeconds, july2, utcDT, DateTime.utcoffset, utcTz]
    rw [this]; norm_num
  · obtain ⟨noon, ha, -, -, -, hha, -, -, -, h1, h2, -⟩ := sunrise_inv h
    have hdec := decl_range (yday july2.civil.date)
    have hab := abs_le.mp (sunriseDeclination_abs (yday july2.civil.date))
    have c1 : 0 < cos (rad 0) := by simp
    have c2 := cos_rad_pos hdec.1 hdec.2
    have c3 : cos (rad 60) ≤ cos (rad (sunriseDeclination (yday july2.civil.date))) := by
      rw [cos_rad_le_iff _ (by norm_num) (by norm_num)] <;> (rw [abs_le]; constructor <;> linarith)
    have c4 : cos (rad 60) = 1 / 2 := by rw [← cos_pi_div_three]; congr 1; unfold rad; ring
    have s0 : sin (rad 0.833) ≤ 1 / 4 := by
      refine (sin_le ?_).trans ?_
      · rw [← rad_zero, rad_le_rad]; norm_num
      · unfold rad; have := pi_le_four; norm_num; linarith
    have hx : -(1 / 2) ≤ cosHalfDay tp 0 (sunriseDeclination (yday july2.civil.date)) := by
      unfold cosHalfDay
      rw [cos_90833, rad_neg, sin_neg, tanP_of_pos c1]
      simp only [rad_zero, cos_zero, sin_zero, one_mul, zero_div, zero_mul, sub_zero, neg_div]
      rw [neg_le_neg_iff, div_le_iff₀ c2]
      linarith
    have hac : arccos (cosHalfDay tp 0 (sunriseDeclination (yday july2.civil.date))) ≤ 2 * π / 3 := by
      refine (arccos_le_arccos hx).trans ?_
      rw [arccos_neg, ← cos_pi_div_three, arccos_cos (by positivity) (by linarith [pi_pos])]
      linarith
    have h8 : ha ≤ 8 := by
      have hp := pi_pos
      rw [hha]
      calc _ ≤ 2 * π / 3 * (12 / π) := by gcongr
        _ = 8 := by field_simp; norm_num
    have : roundHalfEven (hourMicros (noon + ha)) ≤ roundHalfEven (hourMicros (noon - ha)) + 21 * 3600000000 := by
      rw [← roundHalfEven_add_even _ (n := 21 * 3600000000) (by decide)]
      refine roundHalfEven_mono ?_
      unfold hourMicros
      push_cast
      linarith
    omega

end Verif.Props
