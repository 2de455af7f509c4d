import Verif.Proofs.SunriseAcc
import Verif.Props.Sunrise
import Verif.Props.FastAccuracy

/-!
# C92, C93, C94: clock changes, and the returned times against the precise position of the sun
-/

namespace Verif.Props

open Verif.Spec Pysolar Pysolar.Solar Pysolar.Solartime Pysolar.Constants Pysolar.Util Real

/-- Midnight of the date of `d`. -/
def midnightOf (d : DateTime) : Civil := ⟨d.civil.year, d.civil.month, d.civil.day, 0, 0, 0, 0⟩

theorem day_instant {d : DateTime} (hv : d.civil.Valid) (h1 : 1901 ≤ d.civil.year) (h2 : d.civil.year ≤ 2099)
    {c : Civil} (hc : c.Valid) {x : ℝ} (hx : ((c.micros - (midnightOf d).micros : ℤ) : ℝ) = x * 86400000000)
    (x1 : -0.514 ≤ x) (x2 : x ≤ 1.514) : DayInstant c d.civil.year (yday d.civil.date) x := by
  have hy := yday_bounds hv.2.2.1
  have ho := ymd2ord_eq d.civil.date
  have hu := ut_small (Y := c.year) (M := c.month) hc.2.2.1.1 hc.2.2.1.2.1
  have hb := taiMinusUtc_bounds c.year c.month
  have hy2 : yday d.civil.date ≤ 366 := hy.2.trans (by unfold yearLen; split_ifs <;> norm_num)
  refine ⟨hc, h1, h2, hy.1, hy2, x1, x2, daysBeforeYear d.civil.year - 730119,
    4 * (daysBeforeYear d.civil.year - 730119) - 1461 * (d.civil.year - 2000),
    ((taiMinusUtc c.year c.month : ℚ) + 32.184 - dtVal c.year c.month : ℚ) / 86400,
    ((taiMinusUtc c.year c.month : ℝ) + 32.184) / 86400, ?_, ?_, by ring, ?_, ?_, ?_, ?_, ?_⟩
  · unfold daysBeforeYear; omega
  · unfold daysBeforeYear; omega
  · rw [abs_div, abs_of_pos (by norm_num : (0 : ℝ) < 86400)]
    gcongr
    rw [← Rat.cast_abs]
    exact_mod_cast abs_le.mpr hu
  · have : (10 : ℝ) ≤ taiMinusUtc c.year c.month := by exact_mod_cast hb.1
    positivity
  · have : (taiMinusUtc c.year c.month : ℝ) ≤ 37 := by exact_mod_cast hb.2
    gcongr
    linarith
  · have ho' : ymd2ord d.civil.year d.civil.month d.civil.day = daysBeforeYear d.civil.year + yday d.civil.date := ho
    have hm : ((midnightOf d).micros : ℝ)
        = ((daysBeforeYear d.civil.year : ℝ) + yday d.civil.date) * 86400000000 := by
      unfold Civil.micros midnightOf
      rw [ho']
      push_cast
      ring
    push_cast at hx
    rw [hm] at hx
    have hx' : (c.micros : ℝ) = ((daysBeforeYear d.civil.year : ℝ) + yday d.civil.date) * 86400000000
      + x * 86400000000 := by linarith
    unfold jdOf epochMicros usPerDay
    push_cast
    rw [hx']
    ring
  · have ho' : ymd2ord d.civil.year d.civil.month d.civil.day = daysBeforeYear d.civil.year + yday d.civil.date := ho
    have hm : ((midnightOf d).micros : ℝ)
        = ((daysBeforeYear d.civil.year : ℝ) + yday d.civil.date) * 86400000000 := by
      unfold Civil.micros midnightOf
      rw [ho']
      push_cast
      ring
    push_cast at hx
    rw [hm] at hx
    have hx' : (c.micros : ℝ) = ((daysBeforeYear d.civil.year : ℝ) + yday d.civil.date) * 86400000000
      + x * 86400000000 := by linarith
    unfold jdeOf epochMicros usPerDay
    push_cast
    rw [hx']
    ring

/-- The precise position of the sun `g` hours (between -12 and 12) after the solar noon of the sunrise formula. -/
theorem at_hour (tp : ℝ) {lat lon elev : ℝ} (h1 : -90 < lat) (h2 : lat < 90) (hlon : |lon| ≤ 180)
    (he : |elev| ≤ 50000) {d r : DateTime} (hv : d.civil.Valid) (hy1 : 1901 ≤ d.civil.year) (hy2 : d.civil.year ≤ 2099)
    {g : ℝ} (hg : |g| ≤ 12) (hr : |((r.civil.micros - (midnightOf d).micros : ℤ) : ℝ)
      - hourMicros (noonHour (utcOffsetSeconds d) lon (yday d.civil.date) + g)| ≤ 1 / 2)
    (ho : r.utcoffset = d.utcoffset) {c : Civil} (h : UtcFields r c) :
    |topoDec tp lat lon elev c - sunriseDeclination (yday d.civil.date)| ≤ 1.131 ∧
      ∃ k : ℤ, |topoH tp lat lon elev c - 15 * g - 360 * k| ≤ 0.498 := by
  obtain ⟨hc, o, htz, ho1, hm⟩ := h
  have hoff : ((utcOffsetSeconds d : ℚ) : ℝ) = (o : ℝ) / 1000000 := by
    rw [utcOffsetSeconds, ← ho, ho1]; push_cast; rfl
  have he1 := abs_le.mp (equationOfTime_abs (yday d.civil.date))
  have hm' : (r.civil.micros : ℝ) = c.micros + o := by rw [hm]; push_cast; ring
  set x : ℝ := ((c.micros - (midnightOf d).micros : ℤ) : ℝ) / 86400000000 with hx
  have hx' : ((c.micros - (midnightOf d).micros : ℤ) : ℝ) = x * 86400000000 := by rw [hx]; ring
  have key : |360 * x + lon + 15 * equationOfTime (yday d.civil.date) - 180 - 15 * g| ≤ 1e-5 := by
    unfold noonHour hourMicros at hr
    have hr := abs_le.mp hr
    rw [hoff] at hr
    push_cast at hr hx'
    rw [hm'] at hr
    generalize (c.micros : ℝ) = m at *
    generalize ((midnightOf d).micros : ℝ) = m0 at *
    generalize equationOfTime (yday d.civil.date) = E at *
    clear hx hy1 hy2
    rw [abs_le]
    norm_num at *
    constructor <;> linarith
  have hlon := abs_le.mp hlon
  have hg := abs_le.mp hg
  have key := abs_le.mp key
  have x1 : -0.514 ≤ x := by
    clear hx' hx hr hoff hm' hm
    norm_num at *; linarith
  have x2 : x ≤ 1.514 := by
    clear hx' hx hr hoff hm' hm
    norm_num at *; linarith
  have hi := day_instant hv hy1 hy2 hc hx' x1 x2
  obtain ⟨t1, t2⟩ := topo_small tp hc (lon := lon) h1 h2 he
  obtain ⟨k, hk⟩ := hi.hour tp lon
  have hd := abs_le.mp hi.dec
  have hk := abs_le.mp hk
  have t1 := abs_le.mp t1
  have t2 := abs_le.mp t2
  clear hx' hx hr hoff hm' hm hi hy1 hy2
  clear_value x
  constructor
  · rw [abs_le]
    norm_num at *
    constructor <;> linarith
  · refine ⟨k, ?_⟩
    rw [abs_le]
    norm_num at *
    constructor <;> linarith

/-- C93: for every date of the years 1901 to 2099 and every place, at the instant returned by `get_transit_time` the
hour angle of the sun computed by `get_topocentric_position` is within half a degree (two minutes of time) of zero,
provided the clock is not changed between the datetime given and that instant. -/
theorem C93_transit (tp lat lon elev : ℝ) (h1 : -90 < lat) (h2 : lat < 90) (hlon : |lon| ≤ 180) (he : |elev| ≤ 50000)
    (d tr : DateTime) (hv : d.Valid) (hy1 : 1901 ≤ d.civil.year) (hy2 : d.civil.year ≤ 2099)
    (h : get_transit_time (mathB tp) (num lat) (num lon) (.dt d) = .ok tr) (ho : tr.utcoffset = d.utcoffset)
    (c : Civil) (hc : UtcFields tr c) :
    ∃ dec H, get_topocentric_position (mathB tp) (num lat) (num lon) (.dt tr) (num elev) = .ok (num dec, num H) ∧
      ∃ k : ℤ, |H - 360 * k| ≤ 0.5 := by
  rw [(C51_projections _ _ _ _).2.2.2] at h
  cases hs : get_sunrise_sunset_transit (mathB tp) (num lat) (num lon) (.dt d) with
  | error e => rw [hs] at h; simp [Except.map] at h
  | ok p =>
    obtain ⟨sr, ss, tr'⟩ := p
    rw [hs] at h
    simp only [Except.map, Except.ok.injEq] at h
    subst h
    obtain ⟨ha, -, -, -, -, h3, -, -⟩ := C49_altitude tp lat lon (abs_lt.mpr ⟨h1, h2⟩) d sr ss tr' hs
    obtain ⟨-, k, hk⟩ := at_hour tp h1 h2 hlon he hv.1 hy1 hy2 (g := 0) (by norm_num) (by rw [add_zero]; exact h3) ho hc
    refine ⟨_, _, topo_eval hc lat lon elev, k, ?_⟩
    rw [mul_zero, sub_zero] at hk
    refine hk.trans (by norm_num)

/-- C94: for every date of the years 1901 to 2099 and every place, at the instants returned as sunrise and sunset the
precise elevation angle of the sun (before refraction) is within 1.24 degrees of -0.833 degrees, provided the
clock is not changed between the datetime given and that instant. -/
theorem C94_elevation (tp lat lon elev : ℝ) (h1 : -90 < lat) (h2 : lat < 90) (hlon : |lon| ≤ 180) (he : |elev| ≤ 50000)
    (d sr ss tr r : DateTime) (hv : d.Valid) (hy1 : 1901 ≤ d.civil.year) (hy2 : d.civil.year ≤ 2099)
    (h : get_sunrise_sunset_transit (mathB tp) (num lat) (num lon) (.dt d) = .ok (sr, ss, tr))
    (hr : r = sr ∨ r = ss) (ho : r.utcoffset = d.utcoffset) (c : Civil) (hc : UtcFields r c) :
    ∃ dec H e, get_topocentric_position (mathB tp) (num lat) (num lon) (.dt r) (num elev) = .ok (num dec, num H) ∧
      get_topocentric_elevation_angle (mathB tp) (num lat) (num dec) (num H) = .ok (num e) ∧
      |e - (-0.833)| ≤ 1.24 := by
  obtain ⟨ha, ha0, ha1, g1, g2, -, g3, g4⟩ := C49_altitude tp lat lon (abs_lt.mpr ⟨h1, h2⟩) d sr ss tr h
  refine ⟨_, _, _, topo_eval hc lat lon elev, tea_eval _ _ _, ?_⟩
  have main : ∀ g : ℝ, |g| ≤ 12 → |((r.civil.micros - (midnightOf d).micros : ℤ) : ℝ)
      - hourMicros (noonHour (utcOffsetSeconds d) lon (yday d.civil.date) + g)| ≤ 1 / 2 →
      get_topocentric_elevation_angle (mathB tp) (num lat) (num (sunriseDeclination (yday d.civil.date)))
        (num (15 * g)) = .ok (num (-0.833)) →
      |deg (arcsin (sunENU lat (topoH tp lat lon elev c) (topoDec tp lat lon elev c)).z) - (-0.833)| ≤ 1.24 := by
    intro g hg hm ht
    obtain ⟨hd, k, hk⟩ := at_hour tp h1 h2 hlon he hv.1 hy1 hy2 hg hm ho hc
    rw [tea_eval] at ht
    rw [← num_injective (Except.ok.inj ht)]
    refine (altitude_diff (sunENU_unit _ _ _) (sunENU_unit _ _ _)).trans ?_
    exact angleBetween_pyth lat hd hk (by norm_num) (by norm_num) (by norm_num)
  rcases hr with rfl | rfl
  · refine main (-ha) (by rw [abs_neg, abs_of_nonneg ha0]; exact ha1) ?_ ?_
    · rw [← sub_eq_add_neg]; exact g1
    · rw [mul_neg]; exact g3
  · exact main ha (by rw [abs_of_nonneg ha0]; exact ha1) g2 g4

/-! ## C92 -/

/-- C92, the full claim: the result is the same for all datetimes of one day in one time zone ("answers will be for same
day in same timezone"). -/
def C92Claim (tp : ℝ) : Prop :=
  ∀ (lat lon : ℝ) (d d' : DateTime), |lat| < 90 → |lon| ≤ 180 → d.Valid → d'.Valid → d.tz.isSome →
    d.civil.date = d'.civil.date → d.tz = d'.tz →
    get_sunrise_sunset_transit (mathB tp) (num lat) (num lon) (.dt d)
      = get_sunrise_sunset_transit (mathB tp) (num lat) (num lon) (.dt d')

/-- What holds instead: the results for two datetimes of one day in one time zone differ, to the microsecond, by the
difference of their UTC offsets. -/
theorem C92_shift_partial (tp lat lon : ℝ) (d d' sr ss tr sr' ss' tr' : DateTime)
    (hc : d.civil.date = d'.civil.date) (o o' : ℤ) (ho : d.utcoffset = some o) (ho' : d'.utcoffset = some o')
    (h : get_sunrise_sunset_transit (mathB tp) (num lat) (num lon) (.dt d) = .ok (sr, ss, tr))
    (h' : get_sunrise_sunset_transit (mathB tp) (num lat) (num lon) (.dt d') = .ok (sr', ss', tr')) :
    |(sr'.civil.micros - sr.civil.micros) - (o' - o)| ≤ 1 ∧ |(ss'.civil.micros - ss.civil.micros) - (o' - o)| ≤ 1 ∧
      |(tr'.civil.micros - tr.civil.micros) - (o' - o)| ≤ 1 := by
  obtain ⟨noon, ha, hn, -, -, hha, -, -, -, a1, a2, a3⟩ := sunrise_inv h
  obtain ⟨noon', ha', hn', -, -, hha', -, -, -, b1, b2, b3⟩ := sunrise_inv h'
  rw [← hc] at hn' hha'
  have hhh : ha' = ha := by rw [hha, hha']
  have hs : (sameDay d').civil.micros = (sameDay d).civil.micros := by
    simp only [Civil.date, YMD.mk.injEq] at hc
    simp [sameDay, hc]
  have hnn : hourMicros noon' = hourMicros noon + (o' - o : ℤ) := by
    rw [hn, hn']
    unfold noonHour hourMicros utcOffsetSeconds
    rw [ho, ho']
    push_cast
    ring
  have e1 : hourMicros (noon' - ha') = hourMicros (noon - ha) + (o' - o : ℤ) := by
    rw [hhh]; unfold hourMicros at *; linarith
  have e2 : hourMicros (noon' + ha') = hourMicros (noon + ha) + (o' - o : ℤ) := by
    rw [hhh]; unfold hourMicros at *; linarith
  have key : ∀ x y : ℝ, ∀ z : ℤ, y = x + z → |(roundHalfEven y - roundHalfEven x) - z| ≤ 1 := by
    intro x y z hy
    have r1 := abs_le.mp (roundHalfEven_bounds x)
    have r2 := abs_le.mp (roundHalfEven_bounds y)
    have : |(((roundHalfEven y - roundHalfEven x) - z : ℤ) : ℝ)| ≤ ((1 : ℤ) : ℝ) := by
      push_cast
      rw [abs_le]
      constructor <;> linarith
    exact_mod_cast this
  rw [a1, a2, a3, b1, b2, b3, hs]
  have f : ∀ m x y z : ℤ, |m + y - (m + x) - z| = |(y - x) - z| := fun m x y z => by congr 1; ring
  rw [f, f, f]
  exact ⟨key _ _ _ e1, key _ _ _ e2, key _ _ _ hnn⟩

/-- A time zone whose clocks go forward one hour at 1:00 in the morning. -/
def springTz : TzInfo := ⟨1, fun c _ => some (if c.hour < 1 then 0 else 3600000000)⟩

/-- C92 is false: on the day the clocks change, the datetime before the change and the datetime after it give sunrise
times one hour apart. -/
theorem C92_refuted (tp : ℝ) : ¬ C92Claim tp := by
  intro hcl
  set d : DateTime := ⟨⟨2007, 3, 25, 0, 30, 0, 0⟩, false, some springTz⟩ with hd
  set d' : DateTime := ⟨⟨2007, 3, 25, 12, 0, 0, 0⟩, false, some springTz⟩ with hd'
  have ho : d.utcoffset = some 0 := rfl
  have ho' : d'.utcoffset = some 3600000000 := rfl
  have hv : d.Valid := ⟨civil_valid_of_check (by decide), fun o h => by
    rw [ho] at h; cases h; decide⟩
  have hv' : d'.Valid := ⟨civil_valid_of_check (by decide), fun o h => by
    rw [ho'] at h; cases h; decide⟩
  obtain ⟨sr, ss, tr, h⟩ := C50_returns tp 0 0 (by norm_num) (by norm_num) d rfl hv (by decide) (by decide)
    (equator_onHorizon _)
  have h' := hcl 0 0 d d' (by norm_num) (by norm_num) hv hv' rfl rfl rfl
  rw [h] at h'
  have := (C92_shift_partial tp 0 0 d d' sr ss tr sr ss tr rfl 0 3600000000 ho ho' h h'.symm).1
  rw [sub_self] at this
  norm_num at this

/-- The hypotheses of C93 and C94 are met for every date and place with a UTC clock; here the equator in
February 2007. -/
example (tp : ℝ) : ∃ sr ss tr, get_sunrise_sunset_transit (mathB tp) (num 0) (num 0)
      (.dt (utcDT ⟨2007, 2, 18, 12, 0, 0, 0⟩)) = .ok (sr, ss, tr) ∧
    sr.utcoffset = (utcDT ⟨2007, 2, 18, 12, 0, 0, 0⟩).utcoffset ∧ UtcFields sr sr.civil ∧
    tr.utcoffset = (utcDT ⟨2007, 2, 18, 12, 0, 0, 0⟩).utcoffset ∧ UtcFields tr tr.civil := by
  have hcv : (⟨2007, 2, 18, 12, 0, 0, 0⟩ : Civil).Valid := civil_valid_of_check (by decide)
  obtain ⟨sr, ss, tr, h⟩ := C50_returns tp 0 0 (by norm_num) (by norm_num) (utcDT ⟨2007, 2, 18, 12, 0, 0, 0⟩) rfl
    (utcDT_valid hcv) (by decide) (by decide) (equator_onHorizon _)
  obtain ⟨-, -, -, -, -, -, hv, htz, -⟩ := sunrise_inv h
  have e : ∀ r : DateTime, r.tz = some utcTz → r.utcoffset = some 0 := fun r hr => by
    unfold DateTime.utcoffset; rw [hr]; rfl
  refine ⟨sr, ss, tr, h, e sr htz.1, ⟨hv.1, 0, ?_, e sr htz.1, by ring⟩, e tr htz.2.2,
    ⟨hv.2.2, 0, ?_, e tr htz.2.2, by ring⟩⟩
  · rw [htz.1]; rfl
  · rw [htz.2.2]; rfl

end Verif.Props
