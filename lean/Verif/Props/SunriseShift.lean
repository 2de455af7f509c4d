import Verif.Proofs.HalfDay
import Verif.Proofs.SunriseStep
import Verif.Props.FloatSunrise
import Verif.Props.Sunrise

/-!
# C153: sunrise, sunset and transit from one day to the next and from one place to another
-/

namespace Verif.Props

open Verif.Spec Pysolar Pysolar.Solar Pysolar.Solartime Pysolar.Constants Pysolar.Util Real
open Verif.Chain (dayCos)

theorem sunriseDeclination_box {n n' : ℤ} (h : NextDay n n') :
    (0.917 ≤ cos (rad (sunriseDeclination n)) ∧ |sin (rad (sunriseDeclination n))| ≤ 0.3987) ∧
    (0.917 ≤ cos (rad (sunriseDeclination n')) ∧ |sin (rad (sunriseDeclination n'))| ≤ 0.3987) := by
  have hc := of_decide_eq_true (step_checks h)
  obtain ⟨h1, h2, -, -⟩ := hc
  have r1 : ((0.917 : ℚ) : ℝ) ≤ ((min (cosD (decZ n)) (cosD (decZ n')) - 1e-7 : ℚ) : ℝ) := Rat.cast_le.2 h1
  have r2 : ((max |sinD (decZ n)| |sinD (decZ n')| + 1e-7 : ℚ) : ℝ) ≤ ((0.3987 : ℚ) : ℝ) := Rat.cast_le.2 h2
  push_cast at r1 r2
  obtain ⟨s, c⟩ := decZ_near n
  obtain ⟨s', c'⟩ := decZ_near n'
  have m1 := min_le_left (cosD (decZ n) : ℝ) (cosD (decZ n'))
  have m2 := min_le_right (cosD (decZ n) : ℝ) (cosD (decZ n'))
  have m3 := le_max_left |(sinD (decZ n) : ℝ)| |(sinD (decZ n') : ℝ)|
  have m4 := le_max_right |(sinD (decZ n) : ℝ)| |(sinD (decZ n') : ℝ)|
  have a1 := abs_sub_abs_le_abs_sub (sin (rad (sunriseDeclination n))) (sinD (decZ n))
  have a2 := abs_sub_abs_le_abs_sub (sin (rad (sunriseDeclination n'))) (sinD (decZ n'))
  have c1 := (abs_le.1 c).1
  have c2 := (abs_le.1 c').1
  refine ⟨⟨?_, ?_⟩, ⟨?_, ?_⟩⟩ <;> linarith

/-- The cosine of the half day at latitudes up to 60 degrees. -/
theorem dayCos_60 {lat dec : ℝ} (hlat : |lat| ≤ 60) (h : 0.917 ≤ cos (rad dec) ∧ |sin (rad dec)| ≤ 0.3987) :
    |dayCos lat dec| ≤ 0.785 := by
  obtain ⟨l1, l2, l3⟩ := lat60 hlat
  refine (dayCos_abs (by linarith) l2 l3 (by norm_num) h.1 h.2).trans (by norm_num)

theorem rad_abs_sub (x y : ℝ) : |rad x - rad y| = |x - y| * (π / 180) := by
  have e : rad x - rad y = (x - y) * (π / 180) := by unfold rad; ring
  rw [e, abs_mul, abs_of_pos (by positivity : 0 < π / 180)]

set_option maxHeartbeats 1000000 in
/-- From one day to the next the half day and the equation of time together change by at most 0.77 degrees, the
equation of time alone by at most 0.1475 degrees. -/
theorem half_day_step {n n' : ℤ} (h : NextDay n n') {lat : ℝ} (hlat : |lat| ≤ 60) :
    |15 * equationOfTime n - 15 * equationOfTime n'| ≤ 0.1475 ∧
    |arccos (dayCos lat (sunriseDeclination n)) - arccos (dayCos lat (sunriseDeclination n'))| * (180 / π)
      + |15 * equationOfTime n - 15 * equationOfTime n'| ≤ 0.77 := by
  obtain ⟨l1, l2, l3⟩ := lat60 hlat
  obtain ⟨b, b'⟩ := sunriseDeclination_box h
  obtain ⟨h1, h2, h3, h4⟩ := of_decide_eq_true (step_checks h)
  have hs0 := (abs_nonneg _).trans (le_max_left |sinD (decZ n)| |sinD (decZ n')|)
  set S : ℚ := max |sinD (decZ n)| |sinD (decZ n')| + 1e-7 with hS
  set C : ℚ := min (cosD (decZ n)) (cosD (decZ n')) - 1e-7 with hC
  set R : ℚ := (|decQ n - decQ n'| + 2e-6) * 0.0174533 with hR
  set G : ℚ := |cosD (decZ n) - cosD (decZ n')| + 2e-7 with hG
  set E : ℚ := |eotQ n - eotQ n'| + 2e-6 with hE
  have eS : (S : ℝ) = max |(sinD (decZ n) : ℝ)| |(sinD (decZ n') : ℝ)| + 1e-7 := by rw [hS]; push_cast; norm_num
  have eC : (C : ℝ) = min (cosD (decZ n) : ℝ) (cosD (decZ n')) - 1e-7 := by rw [hC]; push_cast; norm_num
  have eR : (R : ℝ) = (|(decQ n : ℝ) - decQ n'| + 2e-6) * 0.0174533 := by rw [hR]; push_cast; norm_num
  have eG : (G : ℝ) = |(cosD (decZ n) : ℝ) - cosD (decZ n')| + 2e-7 := by rw [hG]; push_cast; norm_num
  have eE : (E : ℝ) = |(eotQ n : ℝ) - eotQ n'| + 2e-6 := by rw [hE]; push_cast; norm_num
  clear_value S C R G E
  obtain ⟨s, c⟩ := decZ_near n
  obtain ⟨s', c'⟩ := decZ_near n'
  have q := decQ_close n
  have q' := decQ_close n'
  have t := eotQ_close n
  have t' := eotQ_close n'
  have hE0 : |15 * equationOfTime n - 15 * equationOfTime n'| ≤ E := by
    rw [eE, show 15 * equationOfTime n - 15 * equationOfTime n' = ((eotQ n : ℝ) - eotQ n')
      + ((15 * equationOfTime n - eotQ n) - (15 * equationOfTime n' - eotQ n')) by ring]
    have u := abs_add_le ((eotQ n : ℝ) - eotQ n') ((15 * equationOfTime n - eotQ n) - (15 * equationOfTime n' - eotQ n'))
    have v := abs_sub (15 * equationOfTime n - eotQ n) (15 * equationOfTime n' - eotQ n')
    norm_num at t t' ⊢
    linarith
  have hC0 : (0 : ℝ) < C := by
    have : ((0.917 : ℚ) : ℝ) ≤ (C : ℝ) := Rat.cast_le.2 h1
    push_cast at this
    linarith
  have m1 := min_le_left (cosD (decZ n) : ℝ) (cosD (decZ n'))
  have m2 := min_le_right (cosD (decZ n) : ℝ) (cosD (decZ n'))
  have m3 := le_max_left |(sinD (decZ n) : ℝ)| |(sinD (decZ n') : ℝ)|
  have m4 := le_max_right |(sinD (decZ n) : ℝ)| |(sinD (decZ n') : ℝ)|
  have a1 := abs_sub_abs_le_abs_sub (sin (rad (sunriseDeclination n))) (sinD (decZ n))
  have a2 := abs_sub_abs_le_abs_sub (sin (rad (sunriseDeclination n'))) (sinD (decZ n'))
  have k1 := (abs_le.1 c).1
  have k2 := (abs_le.1 c').1
  have x1 : (C : ℝ) ≤ cos (rad (sunriseDeclination n)) := by rw [eC]; linarith
  have x2 : (C : ℝ) ≤ cos (rad (sunriseDeclination n')) := by rw [eC]; linarith
  have y1 : |sin (rad (sunriseDeclination n))| ≤ S := by rw [eS]; linarith
  have y2 : |sin (rad (sunriseDeclination n'))| ≤ S := by rw [eS]; linarith
  have hg : |cos (rad (sunriseDeclination n)) - cos (rad (sunriseDeclination n'))| ≤ G := by
    rw [eG, show cos (rad (sunriseDeclination n)) - cos (rad (sunriseDeclination n'))
      = ((cosD (decZ n) : ℝ) - cosD (decZ n')) + ((cos (rad (sunriseDeclination n)) - cosD (decZ n))
        - (cos (rad (sunriseDeclination n')) - cosD (decZ n'))) by ring]
    have u := abs_add_le ((cosD (decZ n) : ℝ) - cosD (decZ n')) ((cos (rad (sunriseDeclination n)) - cosD (decZ n))
        - (cos (rad (sunriseDeclination n')) - cosD (decZ n')))
    have v := abs_sub (cos (rad (sunriseDeclination n)) - cosD (decZ n)) (cos (rad (sunriseDeclination n')) - cosD (decZ n'))
    norm_num at c c' ⊢
    linarith
  have hr : |rad (sunriseDeclination n) - rad (sunriseDeclination n')| ≤ R := by
    have u := abs_add_le ((decQ n : ℝ) - decQ n') ((sunriseDeclination n - decQ n) - (sunriseDeclination n' - decQ n'))
    have v := abs_sub (sunriseDeclination n - decQ n) (sunriseDeclination n' - decQ n')
    rw [show ((decQ n : ℝ) - decQ n') + ((sunriseDeclination n - decQ n) - (sunriseDeclination n' - decQ n'))
      = sunriseDeclination n - sunriseDeclination n' by ring] at u
    have w : |sunriseDeclination n - sunriseDeclination n'| ≤ |(decQ n : ℝ) - decQ n'| + 2e-6 := by
      norm_num at q q' ⊢
      linarith
    rw [rad_abs_sub, eR]
    have hp := pi_lt_d6
    have hp0 := pi_pos
    gcongr
    norm_num at hp ⊢
    linarith
  have d1 := dayCos_abs (by linarith) l2 l3 hC0 x1 y1
  have d2 := dayCos_abs (by linarith) l2 l3 hC0 x2 y2
  have d3 := dayCos_step (by linarith) l2 l3 hC0 x1 x2 hr hg
  set M : ℝ := (1.7321 * S + 0.0292) / C with hM
  set A : ℝ := (1.7321 * R + 0.0292 * G) / C ^ 2 with hA
  have r3 : (E : ℝ) ≤ 0.1475 := by
    have : (E : ℝ) ≤ ((0.1475 : ℚ) : ℝ) := Rat.cast_le.2 h3
    push_cast at this
    linarith
  have r4 : A ^ 2 ≤ ((0.77 - E) * 0.017453) ^ 2 * (1 - M ^ 2) := by
    have h5 := (Rat.cast_le (K := ℝ)).2 h4
    push_cast at h5
    rw [hA, hM]
    convert h5 using 1
  have hM1 : M ≤ 0.79 := by
    have r1 : ((0.917 : ℚ) : ℝ) ≤ (C : ℝ) := Rat.cast_le.2 h1
    have r2 : (S : ℝ) ≤ ((0.3987 : ℚ) : ℝ) := Rat.cast_le.2 h2
    push_cast at r1 r2
    rw [hM, div_le_iff₀ hC0]
    norm_num at r1 r2 ⊢
    linarith
  clear_value M A
  have hM0 := (abs_nonneg _).trans d1
  have hA0 := (abs_nonneg _).trans d3
  refine ⟨hE0.trans r3, ?_⟩
  have st := (arccos_step (by linarith) d1 d2).trans d3
  have hq0 : 0 < √(1 - M ^ 2) := sqrt_pos.2 (by nlinarith)
  have hA2 : A ≤ (0.77 - E) * 0.017453 * √(1 - M ^ 2) := by
    refine abs_le_of_sq_le_sq' ?_ ?_ |>.2
    · rw [mul_pow, sq_sqrt (by nlinarith)]; exact r4
    · have : (0 : ℝ) ≤ 0.77 - E := by linarith
      positivity
  have hfin := le_of_mul_le_mul_right (st.trans hA2) hq0
  have hp : (0.017453 : ℝ) ≤ π / 180 := by have := pi_gt_d6; norm_num at this ⊢; linarith
  have hfin2 : |arccos (dayCos lat (sunriseDeclination n)) - arccos (dayCos lat (sunriseDeclination n'))| * (180 / π)
      ≤ 0.77 - E := by
    have e0 : (0 : ℝ) ≤ 0.77 - E := by linarith
    calc _ ≤ (0.77 - E) * (π / 180) * (180 / π) := by
            gcongr
            exact hfin.trans (by gcongr)
      _ = 0.77 - E := by field_simp
  linarith

/-- Day numbers of two dates one day apart. -/
theorem nextDay_of_ord {c c' : YMD} (h : c.Valid) (h' : c'.Valid)
    (hn : ymd2ord c'.year c'.month c'.day = ymd2ord c.year c.month c.day + 1) : NextDay (yday c) (yday c') := by
  have b := yday_bounds h
  have b' := yday_bounds h'
  have e := ymd2ord_eq c
  have e' := ymd2ord_eq c'
  have y1 : c.year ≤ c'.year := by
    by_contra hh
    have := ymd2ord_lt_of_year_lt h' h (by omega)
    omega
  have l : yearLen c.year = 365 ∨ yearLen c.year = 366 := by unfold yearLen; split_ifs <;> simp
  have s := daysBeforeYear_succ c.year
  rcases eq_or_lt_of_le y1 with y2 | y2
  · rw [← y2] at b' e' hn
    left
    omega
  · have m : daysBeforeYear (c.year + 1) ≤ daysBeforeYear c'.year := daysBeforeYear_mono (by omega)
    right
    omega

theorem nextDay_self {c : Civil} (h : c.Valid) : ∃ n', NextDay (yday c.date) n' := by
  have b := yday_bounds (c := c.date) h.2.2.1
  have l : yearLen c.date.year = 365 ∨ yearLen c.date.year = 366 := by unfold yearLen; split_ifs <;> simp
  rcases le_or_gt (yday c.date) 365 with g | g
  · exact ⟨_, .inl ⟨b.1, g, rfl⟩⟩
  · exact ⟨1, .inr ⟨.inr (by omega), rfl⟩⟩

/-- The half day in hours, at latitudes up to 60 degrees. -/
theorem halfday_value {tp lat : ℝ} (hlat : |lat| ≤ 60) {c : Civil} (h : c.Valid) :
    cosHalfDay tp lat (sunriseDeclination (yday c.date)) = dayCos lat (sunriseDeclination (yday c.date)) := by
  obtain ⟨n', hn⟩ := nextDay_self h
  have b := (sunriseDeclination_box hn).1.1
  have l := (lat60 hlat).1
  exact Chain.cosHalfDay_eq (by linarith) (by linarith)

theorem round_gap {x y b : ℝ} (h : |x - y| ≤ b) : |((roundHalfEven x : ℝ) - roundHalfEven y)| ≤ b + 1 := by
  have h1 := abs_le.mp (roundHalfEven_bounds x)
  have h2 := abs_le.mp (roundHalfEven_bounds y)
  have h3 := abs_le.1 h
  rw [abs_le]
  constructor <;> linarith

/-- C153: at latitudes up to 60 degrees, for datetimes on consecutive calendar dates (ends of months and years
included) with the same UTC offset, sunrise and sunset of the second day are 24 hours after those of the first to
within 185 seconds, and the transit to within 36 seconds. -/
theorem C153_day (tp lat lon : ℝ) (hlat : |lat| ≤ 60) (d d' sr ss tr sr' ss' tr' : DateTime)
    (hv : d.civil.Valid) (hv' : d'.civil.Valid)
    (hn : ymd2ord d'.civil.year d'.civil.month d'.civil.day = ymd2ord d.civil.year d.civil.month d.civil.day + 1)
    (ho : d'.utcoffset = d.utcoffset)
    (h : get_sunrise_sunset_transit (mathB tp) (num lat) (num lon) (.dt d) = .ok (sr, ss, tr))
    (h' : get_sunrise_sunset_transit (mathB tp) (num lat) (num lon) (.dt d') = .ok (sr', ss', tr')) :
    |sr'.civil.micros - sr.civil.micros - 86400000000| ≤ 184999998 ∧
      |ss'.civil.micros - ss.civil.micros - 86400000000| ≤ 184999998 ∧
      |tr'.civil.micros - tr.civil.micros - 86400000000| ≤ 35999998 := by
  obtain ⟨noon, ha, en, -, -, eh, -, -, -, a1, a2, a3⟩ := sunrise_inv h
  obtain ⟨noon', ha', en', -, -, eh', -, -, -, b1, b2, b3⟩ := sunrise_inv h'
  rw [halfday_value hlat hv] at eh
  rw [halfday_value hlat hv'] at eh'
  obtain ⟨s1, s2⟩ := half_day_step (nextDay_of_ord (c := d.civil.date) (c' := d'.civil.date) hv.2.2.1 hv'.2.2.1 hn) hlat
  have hoff : utcOffsetSeconds d' = utcOffsetSeconds d := by unfold utcOffsetSeconds; rw [ho]
  have hday : (sameDay d').civil.micros = (sameDay d).civil.micros + 86400000000 := by
    simp only [sameDay, Civil.micros]
    rw [hn]
    ring
  have hdn : noon' - noon = equationOfTime (yday d.civil.date) - equationOfTime (yday d'.civil.date) := by
    rw [en, en', hoff]; unfold noonHour; ring
  have hda : |ha - ha'| = |arccos (dayCos lat (sunriseDeclination (yday d.civil.date)))
      - arccos (dayCos lat (sunriseDeclination (yday d'.civil.date)))| * (180 / π) / 15 := by
    rw [eh, eh', ← sub_mul, abs_mul, abs_of_pos (by positivity : 0 < 12 / π)]
    ring
  rw [← mul_sub, abs_mul, abs_of_pos (by norm_num : (0 : ℝ) < 15), ← hdn] at s1 s2
  have w : |ha - ha'| + |noon' - noon| ≤ 0.77 / 15 := by rw [hda]; linarith
  have w3 : |noon' - noon| ≤ 0.1475 / 15 := by linarith
  have key : ∀ x y b : ℝ, |x - y| ≤ b → ∀ N : ℤ, b * 3600000000 + 1 ≤ N →
      |roundHalfEven (hourMicros x) - roundHalfEven (hourMicros y)| ≤ N := by
    intro x y b hb N hN
    have : |hourMicros x - hourMicros y| ≤ b * 3600000000 := by
      unfold hourMicros
      rw [← sub_mul, abs_mul, abs_of_pos (by norm_num : (0 : ℝ) < 3600000000)]
      gcongr
    have := (round_gap this).trans hN
    exact_mod_cast this
  have f : ∀ m x y : ℤ, m + 86400000000 + y - (m + x) - 86400000000 = y - x := fun m x y => by ring
  rw [a1, a2, a3, b1, b2, b3, hday, f, f, f]
  refine ⟨key _ _ (0.77 / 15) ?_ _ (by norm_num), key _ _ (0.77 / 15) ?_ _ (by norm_num), key _ _ _ w3 _ (by norm_num)⟩
  · have := abs_add_le (noon' - noon) (ha - ha')
    rw [show noon' - ha' - (noon - ha) = noon' - noon + (ha - ha') by ring]
    linarith
  · have := abs_sub (noon' - noon) (ha - ha')
    rw [show noon' + ha' - (noon + ha) = noon' - noon - (ha - ha') by ring]
    linarith

/-- The half day at two latitudes. -/
theorem half_day_place {lat lat' dec : ℝ} (hlat : |lat| ≤ 60) (hlat' : |lat'| ≤ 60)
    (h : 0.917 ≤ cos (rad dec) ∧ |sin (rad dec)| ≤ 0.3987) :
    |arccos (dayCos lat dec) - arccos (dayCos lat' dec)| * (180 / π) ≤ 2.95 * |lat - lat'| := by
  obtain ⟨l1, -, -⟩ := lat60 hlat
  obtain ⟨l1', -, -⟩ := lat60 hlat'
  have c0 : 0 < cos (rad dec) := by linarith [h.1]
  have t : |tan (rad dec)| ≤ 0.3987 / 0.917 := by
    rw [tan_eq_sin_div_cos, abs_div, abs_of_pos c0]
    gcongr
    · exact h.2
    · exact h.1
  have k : 0.0146 / cos (rad dec) ≤ 0.0146 / 0.917 := by
    gcongr
    exact h.1
  have st := dayCos_step c0 t k (by norm_num : (0 : ℝ) < 1 / 2) l1 l1' le_rfl (lip_cos _ _)
  rw [dayCos_comm dec, dayCos_comm dec] at st
  have ac := arccos_step (by norm_num) (dayCos_60 hlat h) (dayCos_60 hlat' h)
  have hs : 0.6194 ≤ √(1 - (0.785 : ℝ) ^ 2) := by
    rw [le_sqrt' (by norm_num)]; norm_num
  have e := ac.trans st
  have e2 : |arccos (dayCos lat dec) - arccos (dayCos lat' dec)| * 0.6194 ≤
      |arccos (dayCos lat dec) - arccos (dayCos lat' dec)| * √(1 - (0.785 : ℝ) ^ 2) := by gcongr
  have e3 := e2.trans e
  rw [rad_abs_sub] at e3
  have hp := pi_pos
  have e4 : |arccos (dayCos lat dec) - arccos (dayCos lat' dec)| ≤ 2.95 * (|lat - lat'| * (π / 180)) := by
    have : 0 ≤ |lat - lat'| * (π / 180) := by positivity
    generalize |lat - lat'| * (π / 180) = z at *
    generalize |arccos (dayCos lat dec) - arccos (dayCos lat' dec)| = y at *
    norm_num at e3 ⊢
    linarith
  calc _ ≤ 2.95 * (|lat - lat'| * (π / 180)) * (180 / π) := by gcongr
    _ = 2.95 * |lat - lat'| := by field_simp

/-- C153, place: at latitudes up to 60 degrees, on the same day, sunrise and sunset move by at most 12 minutes per
degree of latitude and 4 minutes per degree of longitude. -/
theorem C153_place (tp lat lon lat' lon' : ℝ) (hlat : |lat| ≤ 60) (hlat' : |lat'| ≤ 60)
    (d sr ss tr sr' ss' tr' : DateTime) (hv : d.civil.Valid)
    (h : get_sunrise_sunset_transit (mathB tp) (num lat) (num lon) (.dt d) = .ok (sr, ss, tr))
    (h' : get_sunrise_sunset_transit (mathB tp) (num lat') (num lon') (.dt d) = .ok (sr', ss', tr')) :
    |((sr'.civil.micros - sr.civil.micros : ℤ) : ℝ)| ≤ 720000000 * |lat' - lat| + 240000000 * |lon' - lon| + 1 ∧
      |((ss'.civil.micros - ss.civil.micros : ℤ) : ℝ)| ≤ 720000000 * |lat' - lat| + 240000000 * |lon' - lon| + 1 ∧
      |((tr'.civil.micros - tr.civil.micros : ℤ) : ℝ)| ≤ 240000000 * |lon' - lon| + 1 := by
  obtain ⟨noon, ha, en, -, -, eh, -, -, -, a1, a2, a3⟩ := sunrise_inv h
  obtain ⟨noon', ha', en', -, -, eh', -, -, -, b1, b2, b3⟩ := sunrise_inv h'
  rw [halfday_value hlat hv] at eh
  rw [halfday_value hlat' hv] at eh'
  obtain ⟨n', hn'⟩ := nextDay_self hv
  have s := half_day_place hlat' hlat (sunriseDeclination_box hn').1
  have hdn : |noon' - noon| = |lon' - lon| / 15 := by
    rw [show noon' - noon = -((lon' - lon) / 15) by rw [en, en']; unfold noonHour; ring, abs_neg, abs_div]
    norm_num
  have hda : |ha' - ha| = |arccos (dayCos lat' (sunriseDeclination (yday d.civil.date)))
      - arccos (dayCos lat (sunriseDeclination (yday d.civil.date)))| * (180 / π) / 15 := by
    rw [eh, eh', ← sub_mul, abs_mul, abs_of_pos (by positivity : 0 < 12 / π)]
    ring
  have hda2 : |ha' - ha| ≤ 3 / 15 * |lat' - lat| := by
    have := abs_nonneg (lat' - lat)
    rw [hda]
    linarith
  have key : ∀ x y b : ℝ, |x - y| ≤ b / 3600000000 →
      |((roundHalfEven (hourMicros x) : ℝ) - roundHalfEven (hourMicros y))| ≤ b + 1 := by
    intro x y b hb
    have : |hourMicros x - hourMicros y| ≤ b := by
      unfold hourMicros
      rw [← sub_mul, abs_mul, abs_of_pos (by norm_num : (0 : ℝ) < 3600000000)]
      linarith
    exact round_gap this
  have f : ∀ m x y : ℤ, ((m + y - (m + x) : ℤ) : ℝ) = y - x := fun m x y => by push_cast; ring
  rw [a1, a2, a3, b1, b2, b3, f, f, f]
  refine ⟨key _ _ _ ?_, key _ _ _ ?_, key _ _ _ ?_⟩
  · have := abs_sub (noon' - noon) (ha' - ha)
    rw [show noon' - ha' - (noon - ha) = noon' - noon - (ha' - ha) by ring]
    linarith
  · have := abs_add_le (noon' - noon) (ha' - ha)
    rw [show noon' + ha' - (noon + ha) = noon' - noon + (ha' - ha) by ring]
    linarith
  · linarith

/-- At latitudes up to 60 degrees the function returns, in double precision too, and the two agree to a microsecond. -/
theorem sunrise_60 (F : F64) (tp lat lon : ℝ) (hlat : |lat| ≤ 60) (hlon : |lon| ≤ 180) (d : DateTime)
    (hd : d.tz.isSome) (hv : d.Valid) (hy : 2 ≤ d.civil.year) (hy' : d.civil.year ≤ 9998) :
    ∃ sr ss tr sr' ss' tr', get_sunrise_sunset_transit (mathB tp) (num lat) (num lon) (.dt d) = .ok (sr, ss, tr) ∧
      get_sunrise_sunset_transit (rndB F) (flt F lat) (flt F lon) (.dt d) = .ok (sr', ss', tr') ∧
      |sr'.civil.micros - sr.civil.micros| ≤ 1 ∧ |ss'.civil.micros - ss.civil.micros| ≤ 1 ∧
      |tr'.civil.micros - tr.civil.micros| ≤ 1 := by
  obtain ⟨sr, ss, tr, h⟩ := C50_returns tp lat lon (by linarith) hlon d hd hv hy hy'
    (low_latitude_onHorizon (by linarith) _)
  obtain ⟨n', hn⟩ := nextDay_self hv.1
  have b := (sunriseDeclination_box hn).1
  have l := (lat60 hlat).1
  have hK := dayCos_60 hlat b
  rw [dayCos_eq (by linarith) (by linarith)] at hK
  rcases (C107_sunrise F tp lat lon (by linarith) hlon d hd hv hy hy' _ rfl).1 sr ss tr h with
    ⟨sr', ss', tr', h', t, -, -, r⟩ | ⟨-, hh, -⟩
  · obtain ⟨r1, r2⟩ := r (hK.trans (by norm_num))
    exact ⟨sr, ss, tr, sr', ss', tr', h, h', r1, r2, t⟩
  · exfalso
    have := hh.trans_le hK
    norm_num at this

/-- C153 in double precision: at latitudes up to 60 degrees the three functions return for both days, and sunrise and
sunset move by at most 185 seconds beyond the 24 hours, the transit by at most 36 seconds. -/
theorem C153_double (F : F64) (lat lon : ℝ) (hlat : |lat| ≤ 60) (hlon : |lon| ≤ 180) (d d' : DateTime)
    (hd : d.tz.isSome) (hd' : d'.tz.isSome) (hv : d.Valid) (hv' : d'.Valid)
    (hy : 2 ≤ d.civil.year) (hy' : d.civil.year ≤ 9998) (hy2 : 2 ≤ d'.civil.year) (hy2' : d'.civil.year ≤ 9998)
    (hn : ymd2ord d'.civil.year d'.civil.month d'.civil.day = ymd2ord d.civil.year d.civil.month d.civil.day + 1)
    (ho : d'.utcoffset = d.utcoffset) :
    ∃ sr ss tr sr' ss' tr', get_sunrise_sunset_transit (rndB F) (flt F lat) (flt F lon) (.dt d) = .ok (sr, ss, tr) ∧
      get_sunrise_sunset_transit (rndB F) (flt F lat) (flt F lon) (.dt d') = .ok (sr', ss', tr') ∧
      |sr'.civil.micros - sr.civil.micros - 86400000000| ≤ 185000000 ∧
      |ss'.civil.micros - ss.civil.micros - 86400000000| ≤ 185000000 ∧
      |tr'.civil.micros - tr.civil.micros - 86400000000| ≤ 36000000 := by
  obtain ⟨sr, ss, tr, xr, xs, xt, h, g, g1, g2, g3⟩ := sunrise_60 F 0 lat lon hlat hlon d hd hv hy hy'
  obtain ⟨sr', ss', tr', xr', xs', xt', h', g', g1', g2', g3'⟩ := sunrise_60 F 0 lat lon hlat hlon d' hd' hv' hy2 hy2'
  obtain ⟨e1, e2, e3⟩ := C153_day 0 lat lon hlat d d' sr ss tr sr' ss' tr' hv.1 hv'.1 hn ho h h'
  refine ⟨xr, xs, xt, xr', xs', xt', g, g', ?_, ?_, ?_⟩ <;> rw [abs_le] at * <;> constructor <;> omega

/-- C153 in double precision, place. -/
theorem C153_place_double (F : F64) (lat lon lat' lon' : ℝ) (hlat : |lat| ≤ 60) (hlat' : |lat'| ≤ 60)
    (hlon : |lon| ≤ 180) (hlon' : |lon'| ≤ 180) (d : DateTime)
    (hd : d.tz.isSome) (hv : d.Valid) (hy : 2 ≤ d.civil.year) (hy' : d.civil.year ≤ 9998) :
    ∃ sr ss tr sr' ss' tr', get_sunrise_sunset_transit (rndB F) (flt F lat) (flt F lon) (.dt d) = .ok (sr, ss, tr) ∧
      get_sunrise_sunset_transit (rndB F) (flt F lat') (flt F lon') (.dt d) = .ok (sr', ss', tr') ∧
      |((sr'.civil.micros - sr.civil.micros : ℤ) : ℝ)| ≤ 720000000 * |lat' - lat| + 240000000 * |lon' - lon| + 3 ∧
      |((ss'.civil.micros - ss.civil.micros : ℤ) : ℝ)| ≤ 720000000 * |lat' - lat| + 240000000 * |lon' - lon| + 3 ∧
      |((tr'.civil.micros - tr.civil.micros : ℤ) : ℝ)| ≤ 240000000 * |lon' - lon| + 3 := by
  obtain ⟨sr, ss, tr, xr, xs, xt, h, g, g1, g2, g3⟩ := sunrise_60 F 0 lat lon hlat hlon d hd hv hy hy'
  obtain ⟨sr', ss', tr', xr', xs', xt', h', g', g1', g2', g3'⟩ := sunrise_60 F 0 lat' lon' hlat' hlon' d hd hv hy hy'
  obtain ⟨e1, e2, e3⟩ := C153_place 0 lat lon lat' lon' hlat hlat' d sr ss tr sr' ss' tr' hv.1 h h'
  have key : ∀ {x x' s s' : ℤ} {b : ℝ}, |x - s| ≤ 1 → |x' - s'| ≤ 1 → |((s' - s : ℤ) : ℝ)| ≤ b + 1 →
      |((x' - x : ℤ) : ℝ)| ≤ b + 3 := by
    intro x x' s s' b h1 h2 h3
    have h1 : |((x - s : ℤ) : ℝ)| ≤ 1 := by exact_mod_cast h1
    have h2 : |((x' - s' : ℤ) : ℝ)| ≤ 1 := by exact_mod_cast h2
    push_cast at *
    rw [abs_le] at *
    constructor <;> linarith
  exact ⟨xr, xs, xt, xr', xs', xt', g, g', key g1 g1' e1, key g2 g2' e2, key g3 g3' e3⟩

/-- C153 over the end of a year, at 52 degrees north: sunrise on 1 January 2025 is 24 hours after sunrise on 31 December
2024 to within 185 seconds. -/
example : ∃ sr ss tr sr' ss' tr',
    get_sunrise_sunset_transit (rndB binary64) (flt binary64 52) (flt binary64 13) (.dt ⟨⟨2024, 12, 31, 8, 0, 0, 0⟩, false, some utcTz⟩)
      = .ok (sr, ss, tr) ∧
    get_sunrise_sunset_transit (rndB binary64) (flt binary64 52) (flt binary64 13) (.dt ⟨⟨2025, 1, 1, 20, 0, 0, 0⟩, false, some utcTz⟩)
      = .ok (sr', ss', tr') ∧
    |sr'.civil.micros - sr.civil.micros - 86400000000| ≤ 185000000 := by
  have h52 : |(52 : ℝ)| ≤ 60 := by rw [abs_of_pos] <;> norm_num
  have h13 : |(13 : ℝ)| ≤ 180 := by rw [abs_of_pos] <;> norm_num
  have u : ∀ {c : Civil}, c.Valid → (⟨c, false, some utcTz⟩ : DateTime).Valid := fun hc => ⟨hc, fun o h => by
    have h : some 0 = some o := h
    cases h; decide⟩
  obtain ⟨sr, ss, tr, sr', ss', tr', h, h', e, -⟩ := C153_double binary64 52 13 h52 h13
    ⟨⟨2024, 12, 31, 8, 0, 0, 0⟩, false, some utcTz⟩ ⟨⟨2025, 1, 1, 20, 0, 0, 0⟩, false, some utcTz⟩ rfl rfl
    (u (civil_valid_of_check (by decide))) (u (civil_valid_of_check (by decide)))
    (by norm_num) (by norm_num) (by norm_num) (by norm_num) (by decide +kernel) rfl
  exact ⟨sr, ss, tr, sr', ss', tr', h, h', e⟩

end Verif.Props
