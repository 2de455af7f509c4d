import Verif.Props.SunriseAccuracy
import Verif.Props.Seasons

/-!
# C95, C96: the sun is up between sunrise and sunset and down outside them
-/

namespace Verif.Props

open Verif.Spec Pysolar Pysolar.Solar Pysolar.Solartime Pysolar.Constants Pysolar.Util Real

/-- The precise position of the sun at any instant of the day, against the declination of the sunrise formula and the
hours `g` since the solar noon of the formula. -/
theorem at_instant (tp : ℝ) {lat lon elev : ℝ} (h1 : -90 < lat) (h2 : lat < 90)
    (he : |elev| ≤ 50000) {d : DateTime} (hv : d.civil.Valid) (hy1 : 1901 ≤ d.civil.year) (hy2 : d.civil.year ≤ 2099)
    {o : ℤ} (ho : d.utcoffset = some o) {c : Civil} (hc : c.Valid) {g : ℝ}
    (hg : |((c.micros + o - (midnightOf d).micros : ℤ) : ℝ)
      - hourMicros (noonHour (utcOffsetSeconds d) lon (yday d.civil.date) + g)| ≤ 1)
    (x1 : -0.514 * 86400000000 ≤ ((c.micros - (midnightOf d).micros : ℤ) : ℝ))
    (x2 : ((c.micros - (midnightOf d).micros : ℤ) : ℝ) ≤ 1.514 * 86400000000) :
    |topoDec tp lat lon elev c - sunriseDeclination (yday d.civil.date)| ≤ 1.131 ∧
      ∃ k : ℤ, |topoH tp lat lon elev c - 15 * g - 360 * k| ≤ 0.498 := by
  have hoff : ((utcOffsetSeconds d : ℚ) : ℝ) = (o : ℝ) / 1000000 := by
    rw [utcOffsetSeconds, ho]; push_cast; rfl
  set x : ℝ := ((c.micros - (midnightOf d).micros : ℤ) : ℝ) / 86400000000 with hx
  have hx' : ((c.micros - (midnightOf d).micros : ℤ) : ℝ) = x * 86400000000 := by rw [hx]; ring
  have key : |360 * x + lon + 15 * equationOfTime (yday d.civil.date) - 180 - 15 * g| ≤ 1e-5 := by
    unfold noonHour hourMicros at hg
    have hr := abs_le.mp hg
    rw [hoff] at hr
    push_cast at hr hx'
    generalize (c.micros : ℝ) = m at *
    generalize ((midnightOf d).micros : ℝ) = m0 at *
    generalize equationOfTime (yday d.civil.date) = E at *
    clear hx hy1 hy2 hg x1 x2
    rw [abs_le]
    norm_num at *
    constructor <;> linarith
  have key := abs_le.mp key
  rw [hx'] at x1 x2
  have hi := day_instant hv hy1 hy2 hc hx' (by nlinarith) (by nlinarith)
  obtain ⟨t1, t2⟩ := topo_small tp hc (lon := lon) h1 h2 he
  obtain ⟨k, hk⟩ := hi.hour tp lon
  have hd := abs_le.mp hi.dec
  have hk := abs_le.mp hk
  have t1 := abs_le.mp t1
  have t2 := abs_le.mp t2
  clear hx' hx hg hoff hi hy1 hy2 x1 x2
  clear_value x
  constructor
  · rw [abs_le]
    norm_num at *
    constructor <;> linarith
  · refine ⟨k, ?_⟩
    rw [abs_le]
    norm_num at *
    constructor <;> linarith

/-- Further from the meridian the sun is lower. -/
theorem lower_away {lat dec H H' : ℝ} (h1 : -90 < lat) (h2 : lat < 90) (h3 : |dec| < 90) (hH : |H| ≤ |H'|)
    (hH' : |H'| ≤ 180) : deg (arcsin (sunENU lat H' dec).z) ≤ deg (arcsin (sunENU lat H dec).z) := by
  have h3 := abs_lt.mp h3
  have c1 := cos_rad_pos h1 h2
  have c2 := cos_rad_pos h3.1 h3.2
  have e : cos (rad |H'|) = cos (rad H') := by
    rcases abs_choice H' with h | h <;> rw [h]
    rw [rad_neg, cos_neg]
  have := (cos_rad_le_iff (x := H) (y := |H'|) (hH.trans hH') (abs_nonneg _) hH').mpr hH
  rw [e] at this
  refine deg_mono (monotone_arcsin ?_)
  rw [← up_eq, ← up_eq]
  have := mul_le_mul_of_nonneg_left this (mul_pos c1 c2).le
  linarith

/-- The elevation of the sun against that of the sunrise formula. -/
theorem elevation_near (tp : ℝ) {lat lon elev g δ : ℝ} {c : Civil} (hd : |topoDec tp lat lon elev c - δ| ≤ 1.131)
    (hk : ∃ k : ℤ, |topoH tp lat lon elev c - 15 * g - 360 * k| ≤ 0.498) :
    |deg (arcsin (sunENU lat (topoH tp lat lon elev c) (topoDec tp lat lon elev c)).z)
      - deg (arcsin (sunENU lat (15 * g) δ).z)| ≤ 1.24 := by
  obtain ⟨k, hk⟩ := hk
  refine (altitude_diff (sunENU_unit _ _ _) (sunENU_unit _ _ _)).trans ?_
  exact angleBetween_pyth lat hd hk (by norm_num) (by norm_num) (by norm_num)

/-- C95: for every date of the years 1901 to 2099 and every place, from the instant returned as sunrise to the instant
returned as sunset the precise elevation angle of the sun (before refraction) is at least -2.08 degrees, and before
sunrise and after sunset, within half a day of the transit, it is at most 0.41 degrees. The clocks must not change
between the datetime given and the three instants returned; the datetime `w` may be in any time zone. -/
theorem C95_daylight (tp lat lon elev : ℝ) (h1 : -90 < lat) (h2 : lat < 90) (hlon : |lon| ≤ 180) (he : |elev| ≤ 50000)
    (d sr ss tr w : DateTime) (hv : d.Valid) (hy1 : 1901 ≤ d.civil.year) (hy2 : d.civil.year ≤ 2099)
    (h : get_sunrise_sunset_transit (mathB tp) (num lat) (num lon) (.dt d) = .ok (sr, ss, tr))
    (ho1 : sr.utcoffset = d.utcoffset) (ho2 : ss.utcoffset = d.utcoffset) (ho3 : tr.utcoffset = d.utcoffset)
    (tsr tss ttr : ℤ) (i1 : Denotes sr tsr) (i2 : Denotes ss tss) (i3 : Denotes tr ttr)
    (c : Civil) (hc : UtcFields w c) :
    ∃ dec H e, get_topocentric_position (mathB tp) (num lat) (num lon) (.dt w) (num elev) = .ok (num dec, num H) ∧
      get_topocentric_elevation_angle (mathB tp) (num lat) (num dec) (num H) = .ok (num e) ∧
      (tsr ≤ c.micros → c.micros ≤ tss → -2.08 ≤ e) ∧
      (|c.micros - ttr| ≤ 43200000000 → c.micros < tsr ∨ tss < c.micros → e ≤ 0.41) := by
  obtain ⟨ha, ha0, ha1, g1, g2, g3, g4, g5⟩ := C49_altitude tp lat lon (abs_lt.mpr ⟨h1, h2⟩) d sr ss tr h
  refine ⟨_, _, _, topo_eval hc lat lon elev, tea_eval _ _ _, ?_⟩
  obtain ⟨o, -, ho, e1⟩ := i1
  obtain ⟨o2, -, hoo, e2⟩ := i2
  obtain ⟨o3, -, hooo, e3⟩ := i3
  rw [ho1] at ho
  obtain rfl : o2 = o := by rw [ho2, ho] at hoo; exact (Option.some.inj hoo).symm
  obtain rfl : o3 = o2 := by rw [ho3, ho] at hooo; exact (Option.some.inj hooo).symm
  rw [tea_eval] at g4 g5
  have g4 := num_injective (Except.ok.inj g4)
  have g5 := num_injective (Except.ok.inj g5)
  have hdec : |sunriseDeclination (yday d.civil.date)| < 90 := by
    have := sunriseDeclination_abs (yday d.civil.date); linarith
  change |((sr.civil.micros - (midnightOf d).micros : ℤ) : ℝ) - _| ≤ _ at g1
  change |((ss.civil.micros - (midnightOf d).micros : ℤ) : ℝ) - _| ≤ _ at g2
  change |((tr.civil.micros - (midnightOf d).micros : ℤ) : ℝ) - _| ≤ _ at g3
  have hnn := abs_le.mp (equationOfTime_abs (yday d.civil.date))
  have hoff : ((utcOffsetSeconds d : ℚ) : ℝ) = (o3 : ℝ) / 1000000 := by
    rw [utcOffsetSeconds, ho]; push_cast; rfl
  have hnoon : hourMicros (noonHour (utcOffsetSeconds d) lon (yday d.civil.date))
      = 43200000000 + o3 - lon * 240000000 - equationOfTime (yday d.civil.date) * 3600000000 := by
    unfold hourMicros noonHour
    rw [hoff]
    ring
  set N := noonHour (utcOffsetSeconds d) lon (yday d.civil.date) with hN
  have hadd : ∀ x : ℝ, hourMicros (N + x) = hourMicros N + x * 3600000000 := fun x => by unfold hourMicros; ring
  have hsub : hourMicros (N - ha) = hourMicros N - ha * 3600000000 := by unfold hourMicros; ring
  rw [hsub] at g1
  rw [hadd] at g2
  have g1 := abs_le.mp g1
  have g2 := abs_le.mp g2
  have g3 := abs_le.mp g3
  have hlon := abs_le.mp hlon
  have q1 : (tsr : ℝ) = sr.civil.micros - o3 := by exact_mod_cast e1
  have q2 : (tss : ℝ) = ss.civil.micros - o3 := by exact_mod_cast e2
  have q3 : (ttr : ℝ) = tr.civil.micros - o3 := by exact_mod_cast e3
  push_cast at g1 g2 g3
  -- the conclusion for hours `g` with |g| ≤ 12
  have main : ∀ g : ℝ, |g| ≤ 12 → |((c.micros + o3 - (midnightOf d).micros : ℤ) : ℝ) - hourMicros (N + g)| ≤ 1 →
      |deg (arcsin (sunENU lat (topoH tp lat lon elev c) (topoDec tp lat lon elev c)).z)
        - deg (arcsin (sunENU lat (15 * g) (sunriseDeclination (yday d.civil.date))).z)| ≤ 1.24 := by
    intro g hg hm
    have hm' := abs_le.mp hm
    have hg' := abs_le.mp hg
    rw [hadd, hnoon] at hm'
    push_cast at hm'
    obtain ⟨p1, p2⟩ := at_instant tp (lon := lon) h1 h2 he hv.1 hy1 hy2 ho hc.1 (g := g) hm
      (by push_cast; generalize (c.micros : ℝ) = m at *; generalize ((midnightOf d).micros : ℝ) = m0 at *
          clear hy1 hy2; norm_num at *; linarith)
      (by push_cast; generalize (c.micros : ℝ) = m at *; generalize ((midnightOf d).micros : ℝ) = m0 at *
          clear hy1 hy2; norm_num at *; linarith)
    exact elevation_near tp p1 p2
  set g0 : ℝ := (((c.micros + o3 - (midnightOf d).micros : ℤ) : ℝ) - hourMicros N) / 3600000000 with hg0
  have hg0' : ((c.micros + o3 - (midnightOf d).micros : ℤ) : ℝ) = hourMicros N + g0 * 3600000000 := by
    rw [hg0]; ring
  have hg1 := hg0'
  push_cast at hg1
  constructor
  · intro a b
    have a : (tsr : ℝ) ≤ c.micros := by exact_mod_cast a
    have b : (c.micros : ℝ) ≤ tss := by exact_mod_cast b
    -- clip to [-ha, ha]
    have l1 : -ha * 3600000000 - 1 / 2 ≤ g0 * 3600000000 := by linarith
    have l2 : g0 * 3600000000 ≤ ha * 3600000000 + 1 / 2 := by linarith
    obtain ⟨g, k1, k2, k3⟩ : ∃ g, -ha ≤ g ∧ g ≤ ha ∧ |(g0 - g) * 3600000000| ≤ 1 := by
      rcases le_total g0 (-ha) with c1 | c1
      · exact ⟨-ha, le_rfl, by linarith, by rw [abs_le]; constructor <;> linarith⟩
      · rcases le_total g0 ha with c2 | c2
        · exact ⟨g0, c1, c2, by simp⟩
        · exact ⟨ha, by linarith, le_rfl, by rw [abs_le]; constructor <;> linarith⟩
    have kk : |g| ≤ ha := abs_le.mpr ⟨k1, k2⟩
    have := main g (kk.trans ha1) (by
      rw [hg0', hadd]
      have : hourMicros N + g0 * 3600000000 - (hourMicros N + g * 3600000000) = (g0 - g) * 3600000000 := by ring
      rwa [this])
    have low := lower_away (lat := lat) (dec := sunriseDeclination (yday d.civil.date)) (H := 15 * g) (H' := 15 * ha)
      h1 h2 hdec (by rw [abs_mul, abs_mul, abs_of_nonneg ha0]; gcongr)
      (by rw [abs_mul, abs_of_nonneg ha0]; norm_num; linarith)
    rw [g5] at low
    have := abs_le.mp this
    norm_num at *
    linarith
  · intro a b
    have a : |(c.micros : ℝ) - ttr| ≤ 43200000000 := by exact_mod_cast a
    have a := abs_le.mp a
    have l1 : -12 * 3600000000 - 1 / 2 ≤ g0 * 3600000000 := by linarith
    have l2 : g0 * 3600000000 ≤ 12 * 3600000000 + 1 / 2 := by linarith
    obtain ⟨g, k1, k2, k3⟩ : ∃ g, ha ≤ |g| ∧ |g| ≤ 12 ∧ |(g0 - g) * 3600000000| ≤ 1 := by
      rcases b with b | b
      · have b : (c.micros : ℝ) < tsr := by exact_mod_cast b
        have l3 : g0 * 3600000000 ≤ -ha * 3600000000 + 1 / 2 := by linarith
        rcases le_total g0 (-12) with c1 | c1
        · exact ⟨-12, by rw [abs_neg]; norm_num; exact ha1, by norm_num, by rw [abs_le]; constructor <;> linarith⟩
        · rcases le_total g0 (-ha) with c2 | c2
          · refine ⟨g0, ?_, ?_, by simp⟩
            · rw [abs_of_nonpos (by linarith)]; linarith
            · rw [abs_le]; constructor <;> linarith
          · refine ⟨-ha, ?_, ?_, by rw [abs_le]; constructor <;> linarith⟩
            · rw [abs_neg, abs_of_nonneg ha0]
            · rw [abs_neg, abs_of_nonneg ha0]; exact ha1
      · have b : (tss : ℝ) < c.micros := by exact_mod_cast b
        have l3 : ha * 3600000000 - 1 / 2 ≤ g0 * 3600000000 := by linarith
        rcases le_total 12 g0 with c1 | c1
        · exact ⟨12, by norm_num; exact ha1, by norm_num, by rw [abs_le]; constructor <;> linarith⟩
        · rcases le_total ha g0 with c2 | c2
          · refine ⟨g0, ?_, ?_, by simp⟩
            · rw [abs_of_nonneg (by linarith)]; linarith
            · rw [abs_le]; constructor <;> linarith
          · refine ⟨ha, ?_, ?_, by rw [abs_le]; constructor <;> linarith⟩
            · rw [abs_of_nonneg ha0]
            · rw [abs_of_nonneg ha0]; exact ha1
    have := main g k2 (by
      rw [hg0', hadd]
      have : hourMicros N + g0 * 3600000000 - (hourMicros N + g * 3600000000) = (g0 - g) * 3600000000 := by ring
      rwa [this])
    have low := lower_away (lat := lat) (dec := sunriseDeclination (yday d.civil.date)) (H := 15 * ha) (H' := 15 * g)
      h1 h2 hdec (by rw [abs_mul, abs_mul, abs_of_nonneg ha0]; gcongr)
      (by rw [abs_mul]; norm_num; linarith)
    rw [g5] at low
    have := abs_le.mp this
    norm_num at *
    linarith

/-- C96: when `get_sunrise_sunset_transit` raises ValueError for a date of the years 1901 to 2099, the precise sun
stays above -2.08 degrees, or stays below 0.41 degrees, during the whole mean solar day of that date at the
longitude (midnight to midnight of local mean time). -/
theorem C96_polar (tp lat lon elev : ℝ) (h1 : -90 < lat) (h2 : lat < 90) (hlon : |lon| ≤ 180) (he : |elev| ≤ 50000)
    (d : DateTime) (hv : d.Valid) (hy1 : 1901 ≤ d.civil.year) (hy2 : d.civil.year ≤ 2099) (ho : d.utcoffset.isSome)
    (h : get_sunrise_sunset_transit (mathB tp) (num lat) (num lon) (.dt d) = .error .valueError) :
    ∃ up : Bool, ∀ (w : DateTime) (c : Civil), UtcFields w c →
      0 ≤ ((c.micros - (midnightOf d).micros : ℤ) : ℝ) + lon * 240000000 →
      ((c.micros - (midnightOf d).micros : ℤ) : ℝ) + lon * 240000000 ≤ 86400000000 →
      ∃ dec H e, get_topocentric_position (mathB tp) (num lat) (num lon) (.dt w) (num elev) = .ok (num dec, num H) ∧
        get_topocentric_elevation_angle (mathB tp) (num lat) (num dec) (num H) = .ok (num e) ∧
        if up then -2.08 ≤ e else e ≤ 0.41 := by
  obtain ⟨o, ho⟩ := Option.isSome_iff_exists.mp ho
  have htz : d.tz.isSome := by
    rcases hd : d.tz with _ | t
    · rw [DateTime.utcoffset, hd] at ho; simp at ho
    · rfl
  have hpol := (C50_polar tp lat lon (abs_lt.mpr ⟨h1, h2⟩) d htz).mp h
  have hdec := abs_le.mp (sunriseDeclination_abs (yday d.civil.date))
  have hoff : ((utcOffsetSeconds d : ℚ) : ℝ) = (o : ℝ) / 1000000 := by
    rw [utcOffsetSeconds, ho]; push_cast; rfl
  have hlon := abs_le.mp hlon
  -- the formula at any time of the day
  have near : ∀ (w : DateTime) (c : Civil), UtcFields w c →
      0 ≤ ((c.micros - (midnightOf d).micros : ℤ) : ℝ) + lon * 240000000 →
      ((c.micros - (midnightOf d).micros : ℤ) : ℝ) + lon * 240000000 ≤ 86400000000 →
      ∃ dec H e, get_topocentric_position (mathB tp) (num lat) (num lon) (.dt w) (num elev) = .ok (num dec, num H) ∧
        get_topocentric_elevation_angle (mathB tp) (num lat) (num dec) (num H) = .ok (num e) ∧
        ∃ g, |e - deg (arcsin (sunENU lat g (sunriseDeclination (yday d.civil.date))).z)| ≤ 1.24 := by
    intro w c hc a b
    refine ⟨_, _, _, topo_eval hc lat lon elev, tea_eval _ _ _, ?_⟩
    set N := noonHour (utcOffsetSeconds d) lon (yday d.civil.date) with hN
    set g0 : ℝ := (((c.micros + o - (midnightOf d).micros : ℤ) : ℝ) - hourMicros N) / 3600000000 with hg0
    have e0 : ((c.micros + o - (midnightOf d).micros : ℤ) : ℝ) - hourMicros (N + g0) = 0 := by
      have : hourMicros (N + g0) = hourMicros N + g0 * 3600000000 := by unfold hourMicros; ring
      rw [this, hg0]
      ring
    obtain ⟨p1, p2⟩ := at_instant tp (lon := lon) h1 h2 he hv.1 hy1 hy2 ho hc.1 (g := g0)
      (by rw [e0]; norm_num) (by norm_num at *; linarith) (by norm_num at *; linarith)
    exact ⟨15 * g0, elevation_near tp p1 p2⟩
  set δ := sunriseDeclination (yday d.civil.date) with hδ
  have hl90 : |lat| ≤ 90 := abs_le.mpr ⟨h1.le, h2.le⟩
  have hd90 : |δ| ≤ 90 := abs_le.mpr ⟨by linarith, by linarith⟩
  rcases hpol with hp | hp
  · refine ⟨true, fun w c hc a b => ?_⟩
    obtain ⟨dec, H, e, q1, q2, g, hg⟩ := near w c hc a b
    refine ⟨dec, H, e, q1, q2, ?_⟩
    have hg := abs_le.mp hg
    have : -0.833 ≤ deg (arcsin (sunENU lat g δ).z) := by
      rcases abs_choice (lat + δ) with hs | hs <;> rw [hs] at hp
      · have := culmination (lat := lat) (dec := δ) (H := g) (by norm_num at hp; linarith) hl90 hd90
        norm_num at *; linarith
      · have := culmination (lat := -lat) (dec := -δ) (H := g) (by norm_num at hp; linarith)
          (by rwa [abs_neg]) (by rwa [abs_neg])
        rw [sunENU_mirror] at this
        norm_num at *; linarith
    simp only [if_true]
    norm_num at *; linarith
  · refine ⟨false, fun w c hc a b => ?_⟩
    obtain ⟨dec, H, e, q1, q2, g, hg⟩ := near w c hc a b
    refine ⟨dec, H, e, q1, q2, ?_⟩
    have hg := abs_le.mp hg
    have : deg (arcsin (sunENU lat g δ).z) ≤ -0.833 := by
      rcases abs_choice (lat - δ) with hs | hs <;> rw [hs] at hp
      · have := culmination_upper (lat := lat) (dec := δ) (H := g) (by norm_num at hp; linarith) (by linarith) hl90 hd90
        norm_num at *; linarith
      · have := culmination_upper (lat := -lat) (dec := -δ) (H := g) (by norm_num at hp; linarith) (by linarith)
          (by rwa [abs_neg]) (by rwa [abs_neg])
        rw [sunENU_mirror] at this
        norm_num at *; linarith
    simp only [Bool.false_eq_true, if_false]
    norm_num at *; linarith

/-- The hypotheses of C95 are met with a UTC clock; here at the equator on 2 July 2007. -/
example (tp : ℝ) : ∃ sr ss tr, get_sunrise_sunset_transit (mathB tp) (num 0) (num 0) (.dt july2) = .ok (sr, ss, tr) ∧
    (sr.utcoffset = july2.utcoffset ∧ ss.utcoffset = july2.utcoffset ∧ tr.utcoffset = july2.utcoffset) ∧
    Denotes sr sr.civil.micros ∧ Denotes ss ss.civil.micros ∧ Denotes tr tr.civil.micros := by
  obtain ⟨sr, ss, tr, h⟩ := C50_returns tp 0 0 (by norm_num) (by norm_num) july2 rfl july2_valid (by decide) (by decide)
    (equator_onHorizon _)
  obtain ⟨-, -, -, -, -, -, -, htz, -⟩ := sunrise_inv h
  have e : ∀ r : DateTime, r.tz = july2.tz → r.utcoffset = some 0 := fun r hr => by
    unfold DateTime.utcoffset; rw [hr]; rfl
  have f : ∀ r : DateTime, r.tz = july2.tz → Denotes r r.civil.micros := fun r hr =>
    ⟨0, by rw [hr]; rfl, e r hr, by ring⟩
  exact ⟨sr, ss, tr, h, ⟨e _ htz.1, e _ htz.2.1, e _ htz.2.2⟩, f _ htz.1, f _ htz.2.1, f _ htz.2.2⟩

/-- The hypotheses of C96 are met at 80 degrees north on 2 July 2007 (polar day). -/
example (tp : ℝ) : july2.Valid ∧ july2.utcoffset.isSome ∧
    get_sunrise_sunset_transit (mathB tp) (num 80) (num 15) (.dt july2) = .error .valueError := by
  refine ⟨july2_valid, rfl, ?_⟩
  rw [C50_polar tp 80 15 (by norm_num) july2 rfl, july2_decl]
  norm_num [abs_of_pos]

end Verif.Props
