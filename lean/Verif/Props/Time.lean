import Verif.Proofs.Time

/-!
# C05-C15: leap seconds, delta-T, Julian days, date parts
-/

namespace Verif.Props

open Pysolar Pysolar.Solartime Pysolar.Numeric Verif.Spec

/-! ## Sample datetimes used to show that hypotheses can be met -/

/-- 2007-02-18 15:13:01.130320 at UTC-5 (the datetime of test/test_solar.py). -/
def sampleDT : DateTime := ⟨⟨2007, 2, 18, 15, 13, 1, 130320⟩, false, some (fixedTz 1 (-18000000000))⟩

/-- Its UTC fields. -/
def sampleUTC : Civil := ⟨2007, 2, 18, 20, 13, 1, 130320⟩

theorem civil_valid_of_check {c : Civil}
    (h : (decide (1 ≤ c.year) && decide (c.year ≤ 9999) && decide (1 ≤ c.month) && decide (c.month ≤ 12)
      && decide (1 ≤ c.day) && decide (c.day ≤ daysInMonth c.year c.month) && decide (0 ≤ c.hour)
      && decide (c.hour ≤ 23) && decide (0 ≤ c.minute) && decide (c.minute ≤ 59) && decide (0 ≤ c.second)
      && decide (c.second ≤ 59) && decide (0 ≤ c.micro) && decide (c.micro ≤ 999999)) = true) :
    c.Valid := by
  simp only [Bool.and_eq_true, decide_eq_true_eq] at h
  obtain ⟨⟨⟨⟨⟨⟨⟨⟨⟨⟨⟨⟨⟨a, b⟩, c⟩, d⟩, e⟩, f⟩, g⟩, h⟩, i⟩, j⟩, k⟩, l⟩, m⟩, n⟩ := h
  exact ⟨a, b, ⟨c, d, e, f⟩, g, h, i, j, k, l, m, n⟩

theorem sample_utc : UtcFields sampleDT sampleUTC :=
  ⟨civil_valid_of_check (by decide), -18000000000, rfl, rfl, by decide⟩

/-- A UTC datetime. -/
def utcDT (c : Civil) : DateTime := ⟨c, false, some utcTz⟩

theorem utcDT_fields {c : Civil} (h : c.Valid) : UtcFields (utcDT c) c :=
  ⟨h, 0, rfl, rfl, by simp [utcDT]⟩

/-- 2026-08-01 UTC, 2015-01-15 UTC, 1950-01-01 UTC. -/
def dt2026 : Civil := ⟨2026, 8, 1, 0, 0, 0, 0⟩
def dt2015 : Civil := ⟨2015, 1, 15, 12, 0, 0, 0⟩
def dt1950 : Civil := ⟨1950, 1, 1, 0, 0, 0, 0⟩

/-! ## Leap seconds -/

/-- C05. -/
theorem C05_leap_seconds_historical {B : Backend} (d : DateTime) (c : Civil) (h : UtcFields d c) :
    get_leap_seconds (B := B) (.dt d) = .ok (taiMinusUtc c.year c.month) :=
  get_leap_seconds_eq h

/-- C06: bounded (and terminating: `leapLoop` is accepted by well-founded recursion). -/
theorem C06_leap_seconds_bounded {B : Backend} (d : DateTime) (c : Civil) (h : UtcFields d c) :
    ∃ n, get_leap_seconds (B := B) (.dt d) = .ok n ∧ 10 ≤ n ∧ n ≤ 37 :=
  ⟨_, get_leap_seconds_eq h, taiMinusUtc_bounds _ _⟩

/-- C06: monotone in time. -/
theorem C06_leap_seconds_monotone {B : Backend} (d d' : DateTime) (c c' : Civil)
    (h : UtcFields d c) (h' : UtcFields d' c') (hle : c.micros ≤ c'.micros) (n n' : ℤ)
    (hn : get_leap_seconds (B := B) (.dt d) = .ok n)
    (hn' : get_leap_seconds (B := B) (.dt d') = .ok n') : n ≤ n' := by
  rw [get_leap_seconds_eq h] at hn
  rw [get_leap_seconds_eq h'] at hn'
  cases hn; cases hn'
  have a := h.1.2.2.1
  have b := h'.1.2.2.1
  exact taiMinusUtc_mono a.1 a.2.1 b.1 b.2.1 (monthIndex_le_of_micros_le h.1.2.2 h'.1.2.2 hle)

/-- C07: the warning is issued, exactly once, iff the UTC date is in or after July 2026; the value is the
one of `get_leap_seconds` either way. -/
theorem C07_warning {B : Backend} (d : DateTime) (c : Civil) (h : UtcFields d c) :
    ∃ n ws, get_leap_seconds_warn (B := B) (.dt d) = .ok (n, ws) ∧
      get_leap_seconds (B := B) (.dt d) = .ok n ∧
      ((monthIndex 2026 7 ≤ monthIndex c.year c.month ∧ ws = [⟨2025⟩]) ∨
        (monthIndex c.year c.month < monthIndex 2026 7 ∧ ws = [])) := by
  refine ⟨_, _, get_leap_seconds_warn_eq h, get_leap_seconds_eq h, ?_⟩
  have hm := h.1.2.2.1
  obtain ⟨a, b, -⟩ := hm
  simp only at a b
  unfold leapWarnings monthIndex
  split
  · left
    refine ⟨by omega, by norm_num⟩
  · right
    exact ⟨by omega, rfl⟩

/-! ## Delta-T -/

theorem deltaTData_covers {Y M : ℤ} (h1 : 1 ≤ M) (h2 : M ≤ 12)
    (ha : monthIndex 1973 2 ≤ monthIndex Y M) (hb : monthIndex Y M ≤ monthIndex 2014 4) :
    ∃ v, (Y, M, v) ∈ deltaTData := by
  have hd : deltaTData.map (fun e => 12 * e.1 + (e.2.1 - 1)) = (List.range 495).map (fun k : ℕ => 23677 + (k : ℤ)) := by
    decide +kernel
  have hr : deltaTData.all (fun e => decide (1 ≤ e.2.1 ∧ e.2.1 ≤ 12)) = true := by decide +kernel
  unfold monthIndex at ha hb
  have hk : 12 * Y + (M - 1) ∈ deltaTData.map (fun e => 12 * e.1 + (e.2.1 - 1)) := by
    rw [hd]
    clear hd hr
    rw [List.mem_map]
    have hn : (12 * Y + (M - 1) - 23677).toNat < 495 := by omega
    have he : 23677 + ((12 * Y + (M - 1) - 23677).toNat : ℤ) = 12 * Y + (M - 1) := by omega
    exact ⟨_, List.mem_range.2 hn, he⟩
  obtain ⟨⟨y, m, v⟩, he, h3⟩ := List.mem_map.1 hk
  obtain ⟨h4, h5⟩ := of_decide_eq_true (List.all_eq_true.1 hr _ he)
  clear hd hr hk
  simp only at h3 h4 h5
  have : y = Y := by omega
  have : m = M := by omega
  subst_vars
  exact ⟨v, he⟩

/-- C08: within the table the value labelled with the UTC year and month is returned. -/
theorem C08_delta_t_labelled {B : Backend} (d : DateTime) (c : Civil) (h : UtcFields d c) (v : ℚ)
    (hv : (c.year, c.month, v) ∈ deltaTData) : get_delta_t (B := B) (.dt d) = .ok v := by
  rw [get_delta_t_eq h]
  exact congrArg _ (delta_labels_check _ hv).2.2

/-- C08: every month from February 1973 to April 2014 is labelled. -/
theorem C08_labels_complete {B : Backend} (d : DateTime) (c : Civil) (h : UtcFields d c)
    (h1 : monthIndex 1973 2 ≤ monthIndex c.year c.month)
    (h2 : monthIndex c.year c.month ≤ monthIndex 2014 4) :
    ∃ v, (c.year, c.month, v) ∈ deltaTData ∧ get_delta_t (B := B) (.dt d) = .ok v := by
  have hm := h.1.2.2.1
  obtain ⟨v, hv⟩ := deltaTData_covers hm.1 hm.2.1 h1 h2
  exact ⟨v, hv, C08_delta_t_labelled d c h v hv⟩

/-- C08: before February 1973 the first value is returned. -/
theorem C08_before {B : Backend} (d : DateTime) (c : Civil) (h : UtcFields d c)
    (h1 : monthIndex c.year c.month < monthIndex 1973 2) :
    get_delta_t (B := B) (.dt d) = .ok 43.4724 := by
  rw [get_delta_t_eq h]
  have hm := h.1.2.2.1
  obtain ⟨a, b, -⟩ := hm
  simp only at a b
  unfold monthIndex at h1
  have : dtClamp c.year c.month = 0 := by
    unfold dtClamp
    split
    · rfl
    · rw [if_pos (by omega)]
      omega
  have hv : dtVal c.year c.month = 43.4724 := by
    rw [dtVal, this]
    decide +kernel
  rw [hv]

theorem deltaT_positions (k : ℕ) (hk : k < 495) : ∃ e ∈ deltaTData, e.2.2 = delta_t.flatten.getD k 0 := by
  have hd : delta_t.flatten = deltaTData.map (fun e => e.2.2) := by decide +kernel
  have hl : deltaTData.length = 495 := by decide +kernel
  rw [hd]
  refine ⟨deltaTData[k]'(by omega), List.getElem_mem _, ?_⟩
  rw [List.getD_eq_getElem?_getD, List.getElem?_map, List.getElem?_eq_getElem (by omega)]
  rfl

theorem deltaT_ut1_check : ∀ e ∈ deltaTData, -0.9 < ((taiMinusUtc e.1 e.2.1 : ℤ) : ℚ) + 32.184 - e.2.2 ∧
    ((taiMinusUtc e.1 e.2.1 : ℤ) : ℚ) + 32.184 - e.2.2 < 0.9 := by decide +kernel

/-- C08: it never fails, and returns one of the tabulated values. -/
theorem C08_total {B : Backend} (d : DateTime) (c : Civil) (h : UtcFields d c) :
    ∃ v, get_delta_t (B := B) (.dt d) = .ok v ∧ ∃ e ∈ deltaTData, e.2.2 = v := by
  refine ⟨_, get_delta_t_eq h, ?_⟩
  have hm := h.1.2.2.1
  obtain ⟨a, b, -⟩ := hm
  simp only at a b
  have hpos : dtClamp c.year c.month < 495 := by
    unfold dtClamp
    split
    · omega
    · split
      · omega
      · split <;> omega
  obtain ⟨e, he, hv⟩ := deltaT_positions (dtClamp c.year c.month) hpos
  exact ⟨e, he, hv⟩

/-- C09 as stated is false: in January 2015 `get_delta_t` does not return the last table entry. -/
theorem C09_refuted {B : Backend} :
    ∃ d c, UtcFields d c ∧ monthIndex 2014 4 < monthIndex c.year c.month ∧
      get_delta_t (B := B) (.dt d) = .ok 67.2810 ∧ (67.2810 : ℚ) ≠ 67.3890 := by
  refine ⟨utcDT dt2015, dt2015, utcDT_fields (civil_valid_of_check (by decide)), by decide, ?_,
    by norm_num⟩
  have hv : dtVal dt2015.year dt2015.month = 67.2810 := by decide +kernel
  rw [get_delta_t_eq (utcDT_fields (civil_valid_of_check (by decide))), hv]

/-- C09, what holds (the claim `∀ d after April 2014, get_delta_t = 67.3890` is missing the months
January to March of the years from 2015 on, where it fails): after April 2014 the value is the one of the
same month of 2014, the last entry being used from April to December. -/
theorem C09_after_table_partial {B : Backend} (d : DateTime) (c : Civil) (h : UtcFields d c)
    (h1 : monthIndex 2014 4 < monthIndex c.year c.month) :
    get_delta_t (B := B) (.dt d) = .ok (if c.month = 1 then 67.2810 else if c.month = 2 then 67.3136
      else if c.month = 3 then 67.3457 else 67.3890) := by
  rw [get_delta_t_eq h]
  have hm := h.1.2.2.1
  obtain ⟨a, b, -⟩ := hm
  simp only at a b
  unfold monthIndex at h1
  rw [dtVal_clamp_high _ (by omega)]
  have key : ∀ j : Fin 12, dtVal 2014 (1 + j.1) = (if (1 + j.1 : ℤ) = 1 then 67.2810
      else if (1 + j.1 : ℤ) = 2 then 67.3136 else if (1 + j.1 : ℤ) = 3 then 67.3457 else 67.3890) := by
    decide +kernel
  have := key ⟨(c.month - 1).toNat, by omega⟩
  have e2 : 1 + (((c.month - 1).toNat : ℕ) : ℤ) = c.month := by omega
  simp only [e2] at this
  exact congrArg _ this

/-! ## Julian days -/

theorem century_leaps (Y : ℤ) : 3 * (Y / 100 + 49) / 4 = Y / 100 - Y / 400 + 36 := by omega

theorem leap_days_step (y : ℤ) :
    y / 4 - y / 100 + y / 400 = (y - 1) / 4 - (y - 1) / 100 + (y - 1) / 400
      + (if isLeap y = true then 1 else 0) := by
  have hl := isLeap_iff y
  have h4 : y / 4 = (y - 1) / 4 + (if y % 4 = 0 then 1 else 0) := by split <;> omega
  have h100 : y / 100 = (y - 1) / 100 + (if y % 100 = 0 then 1 else 0) := by split <;> omega
  have h400 : y / 400 = (y - 1) / 400 + (if y % 400 = 0 then 1 else 0) := by split <;> omega
  rw [h4, h100, h400]
  by_cases h : isLeap y = true
  · rw [if_pos h]
    rw [hl] at h
    split <;> split <;> split <;> omega
  · rw [if_neg h]
    rw [hl] at h
    split <;> split <;> split <;> omega

theorem fliegelVanFlandern_eq {c : YMD} (h : c.Valid) (hy : 1 ≤ c.year) :
    fliegelVanFlandern c.year c.month c.day = ymd2ord c.year c.month c.day + 1721425 := by
  obtain ⟨h1, h2, -, -⟩ := h
  unfold fliegelVanFlandern ymd2ord daysBeforeMonth daysBeforeYear
  have hl := leap_days_step c.year
  generalize c.month = m at *
  generalize c.year = y at *
  generalize c.day = dd at *
  have ha : Int.tdiv (m - 14) 12 = if m ≤ 2 then -1 else 0 := by
    interval_cases m <;> decide
  have hm : daysBeforeMonthTable m = Int.tdiv (367 * (m - 2 - 12 * (if m ≤ 2 then -1 else 0))) 12
      + (if m ≤ 2 then -336 else 29) := by
    interval_cases m <;> decide
  rw [ha, hm]
  by_cases hm2 : m ≤ 2
  · simp only [if_pos hm2]
    rw [Int.tdiv_eq_ediv_of_nonneg (a := 1461 * (y + 4800 + -1)) (by omega),
      Int.tdiv_eq_ediv_of_nonneg (a := y + 4900 + -1) (by omega),
      Int.tdiv_eq_ediv_of_nonneg (a := 3 * ((y + 4900 + -1) / 100)) (by omega),
      if_neg (show ¬ (m > 2 ∧ isLeap y = true) from fun hh => by omega)]
    have e1 : (y + 4900 + -1) / 100 = (y - 1) / 100 + 49 := by omega
    have e2 : 1461 * (y + 4800 + -1) / 4 = 365 * (y - 1) + (y - 1) / 4 + 1753200 := by omega
    rw [e1, e2, century_leaps]
    omega
  · simp only [if_neg hm2]
    rw [Int.tdiv_eq_ediv_of_nonneg (a := 1461 * (y + 4800 + 0)) (by omega),
      Int.tdiv_eq_ediv_of_nonneg (a := y + 4900 + 0) (by omega),
      Int.tdiv_eq_ediv_of_nonneg (a := 3 * ((y + 4900 + 0) / 100)) (by omega)]
    have e1 : (y + 4900 + 0) / 100 = y / 100 + 49 := by omega
    have e2 : 1461 * (y + 4800 + 0) / 4 = 365 * y + y / 4 + 1753200 := by omega
    have e3 : (if m > 2 ∧ isLeap y = true then (1 : ℤ) else 0) = if isLeap y = true then 1 else 0 := by
      have : m > 2 := by omega
      simp [this]
    rw [e1, e2, e3, century_leaps]
    omega

/-- The Julian ephemeris day in exact arithmetic. -/
theorem jde_eq {tp : ℝ} {d : DateTime} {c : Civil} (h : UtcFields d c) :
    get_julian_ephemeris_day (mathB tp) (.dt d) =
      .ok (num ((((c.micros - epochMicros : ℤ) : ℝ) / 1000000 + taiMinusUtc c.year c.month + 32.184)
        / 86400 + 719163 + (1721425 - 0.5))) := by
  simp only [get_julian_ephemeris_day, guard_denotes h.2, timestamp_dt, timestamp_of_denotes h.2,
    get_leap_seconds_eq h, ok_bind, m_lit, m_add, m_divq, pure_eq_ok, tt_offset, seconds_per_day,
    gregorian_day_offset, julian_day_offset]
  congr 2
  push_cast
  norm_num

/-- The Julian solar day in exact arithmetic. -/
theorem jd_eq {tp : ℝ} {d : DateTime} {c : Civil} (h : UtcFields d c) :
    get_julian_solar_day (mathB tp) (.dt d) =
      .ok (num ((((c.micros - epochMicros : ℤ) : ℝ) / 1000000 + taiMinusUtc c.year c.month + 32.184
        - (dtVal c.year c.month : ℝ)) / 86400 + 719163 + (1721425 - 0.5))) := by
  simp only [get_julian_solar_day, guard_denotes h.2, timestamp_dt, timestamp_of_denotes h.2,
    get_leap_seconds_eq h, get_delta_t_eq h, ok_bind, m_lit, m_add, m_sub, m_divq, pure_eq_ok, tt_offset,
    seconds_per_day, gregorian_day_offset, julian_day_offset]
  congr 2
  push_cast
  norm_num

theorem civil_days {c : Civil} (h : c.Valid) :
    ((c.micros - epochMicros : ℤ) : ℝ) / 1000000 / 86400 + 719163 + (1721425 - 0.5) =
      fliegelVanFlandern c.year c.month c.day - 1 / 2 + (dayFraction c : ℝ) := by
  rw [fliegelVanFlandern_eq h.2.2.1 h.1]
  unfold dayFraction Civil.micros epochMicros usPerDay
  push_cast
  ring

/-- C10: the Julian ephemeris day is the Fliegel-Van Flandern day number of the UTC date minus one half,
plus the fraction of the day, plus the correction from UTC to terrestrial time in days. -/
theorem C10_ephemeris_day (tp : ℝ) (d : DateTime) (c : Civil) (h : UtcFields d c) :
    get_julian_ephemeris_day (mathB tp) (.dt d) =
      .ok (num (fliegelVanFlandern c.year c.month c.day - 1 / 2 + (dayFraction c : ℝ)
        + ((taiMinusUtc c.year c.month : ℝ) + 32.184) / 86400)) := by
  rw [jde_eq h]
  congr 2
  have := civil_days h.1
  linarith

/-- C10: likewise the Julian solar day, with the correction from UTC to UT1. -/
theorem C10_solar_day (tp : ℝ) (d : DateTime) (c : Civil) (h : UtcFields d c) (v : ℚ)
    (hv : get_delta_t (B := mathB tp) (.dt d) = .ok v) :
    get_julian_solar_day (mathB tp) (.dt d) =
      .ok (num (fliegelVanFlandern c.year c.month c.day - 1 / 2 + (dayFraction c : ℝ)
        + ((taiMinusUtc c.year c.month : ℝ) + 32.184 - (v : ℝ)) / 86400)) := by
  rw [get_delta_t_eq h] at hv
  cases hv
  rw [jd_eq h]
  congr 2
  have := civil_days h.1
  linarith

/-- C11: ephemeris day minus solar day is delta-T in days. -/
theorem C11_difference (tp : ℝ) (d : DateTime) (c : Civil) (h : UtcFields d c) :
    ∃ jd jde : ℝ, ∃ v : ℚ, get_julian_solar_day (mathB tp) (.dt d) = .ok (num jd) ∧
      get_julian_ephemeris_day (mathB tp) (.dt d) = .ok (num jde) ∧
      get_delta_t (B := mathB tp) (.dt d) = .ok v ∧ jde - jd = (v : ℝ) / 86400 := by
  refine ⟨_, _, _, jd_eq h, jde_eq h, get_delta_t_eq h, ?_⟩
  ring

/-- C11: century and millennium are the affine rescalings with J2000.0 at 0. -/
theorem C11_rescaling (tp : ℝ) (x : ℝ) :
    get_julian_century (mathB tp) (num x) = num ((x - 2451545) / 36525) ∧
    get_julian_ephemeris_century (mathB tp) (num x) = num ((x - 2451545) / 36525) ∧
    get_julian_ephemeris_millennium (mathB tp) (num x) = num (x / 10) := by
  refine ⟨?_, ?_, ?_⟩ <;>
    simp only [get_julian_century, get_julian_ephemeris_century, get_julian_ephemeris_millennium, m_sci,
      m_sub, m_divq, num_inj] <;> push_cast <;> norm_num

/-- C12: elapsed ephemeris time is elapsed UTC time plus the leap seconds in between. -/
theorem C12_elapsed (tp : ℝ) (d d' : DateTime) (c c' : Civil) (h : UtcFields d c)
    (h' : UtcFields d' c') (x x' : ℝ)
    (hx : get_julian_ephemeris_day (mathB tp) (.dt d) = .ok (num x))
    (hx' : get_julian_ephemeris_day (mathB tp) (.dt d') = .ok (num x')) :
    (x' - x) * 86400 = ((c'.micros - c.micros : ℤ) : ℝ) / 1000000
      + (taiMinusUtc c'.year c'.month - taiMinusUtc c.year c.month : ℤ) := by
  rw [jde_eq h] at hx
  rw [jde_eq h'] at hx'
  have e := num_injective (Except.ok.inj hx)
  have e' := num_injective (Except.ok.inj hx')
  rw [← e, ← e']
  push_cast
  ring

/-- C12: the ephemeris day strictly increases with the instant. -/
theorem C12_strictly_increasing (tp : ℝ) (d d' : DateTime) (c c' : Civil) (h : UtcFields d c)
    (h' : UtcFields d' c') (hlt : c.micros < c'.micros) (x x' : ℝ)
    (hx : get_julian_ephemeris_day (mathB tp) (.dt d) = .ok (num x))
    (hx' : get_julian_ephemeris_day (mathB tp) (.dt d') = .ok (num x')) : x < x' := by
  have he := C12_elapsed tp d d' c c' h h' x x' hx hx'
  have a := h.1.2.2.1
  have b := h'.1.2.2.1
  have hm := taiMinusUtc_mono a.1 a.2.1 b.1 b.2.1
    (monthIndex_le_of_micros_le h.1.2.2 h'.1.2.2 hlt.le)
  simp only at hm
  have h1 : (0 : ℝ) < ((c'.micros - c.micros : ℤ) : ℝ) := by exact_mod_cast (by omega : 0 < c'.micros - c.micros)
  have h2 : (0 : ℝ) ≤ ((taiMinusUtc c'.year c'.month - taiMinusUtc c.year c.month : ℤ) : ℝ) := by
    exact_mod_cast (by omega : 0 ≤ taiMinusUtc c'.year c'.month - taiMinusUtc c.year c.month)
  have : 0 < (x' - x) * 86400 := by rw [he]; positivity
  linarith

/-- Days elapsed between two dates whose months differ by more than one. -/
theorem ord_gap {c c' : YMD} (h : c.Valid) (h' : c'.Valid) {n : ℕ}
    (hn : monthIndex c'.year c'.month = monthIndex c.year c.month + n) (hn1 : 1 ≤ n) :
    28 * ((n : ℤ) - 1) < ymd2ord c'.year c'.month c'.day - ymd2ord c.year c.month c.day := by
  -- first of the following month, by induction on the number of months
  have start : ∀ y m : ℤ, 1 ≤ m → m ≤ 12 → ∀ k : ℕ, ∃ y' m' : ℤ, 1 ≤ m' ∧ m' ≤ 12 ∧
      monthIndex y' m' = monthIndex y m + k ∧ 28 * (k : ℤ) ≤ ymd2ord y' m' 1 - ymd2ord y m 1 := by
    intro y m hm1 hm2 k
    induction k with
    | zero => exact ⟨y, m, hm1, hm2, by simp, by simp⟩
    | succ k ih =>
      obtain ⟨y1, m1, a1, a2, a3, a4⟩ := ih
      rcases lt_or_ge m1 12 with hlt | hge
      · refine ⟨y1, m1 + 1, by omega, by omega, ?_, ?_⟩
        · unfold monthIndex at *; push_cast; omega
        · have := daysBeforeMonth_succ y1 a1 (by omega)
          have hb := daysInMonth_bounds y1 m1
          unfold ymd2ord at *
          push_cast
          omega
      · have : m1 = 12 := by omega
        subst this
        refine ⟨y1 + 1, 1, by omega, by omega, ?_, ?_⟩
        · unfold monthIndex at *; push_cast; omega
        · have e1 := daysBeforeYear_succ y1
          have e2 := daysBeforeMonth_last y1
          have e3 := daysBeforeMonth_one (y1 + 1)
          have hb := daysInMonth_bounds y1 12
          unfold ymd2ord at *
          push_cast
          omega
  obtain ⟨a1, a2, a3, a4⟩ := h
  obtain ⟨b1, b2, b3, b4⟩ := h'
  -- from the end of the month of `c`
  obtain ⟨y1, m1, p1, p2, p3, p4⟩ := start c.year c.month a1 a2 1
  have hfirst : ymd2ord c.year c.month c.day < ymd2ord y1 m1 1 := by
    rcases lt_or_ge c.month 12 with hlt | hge
    · have : y1 = c.year ∧ m1 = c.month + 1 := by unfold monthIndex at p3; push_cast at p3; omega
      obtain ⟨rfl, rfl⟩ := this
      have := daysBeforeMonth_succ c.year a1 (by omega)
      unfold ymd2ord
      omega
    · have hc : c.month = 12 := by omega
      have : y1 = c.year + 1 ∧ m1 = 1 := by unfold monthIndex at p3; push_cast at p3; omega
      obtain ⟨rfl, rfl⟩ := this
      have e1 := daysBeforeYear_succ c.year
      have e2 := daysBeforeMonth_last c.year
      have e3 := daysBeforeMonth_one (c.year + 1)
      unfold ymd2ord
      rw [hc] at a4 ⊢
      omega
  obtain ⟨y2, m2, q1, q2, q3, q4⟩ := start y1 m1 p1 p2 (n - 1)
  have : y2 = c'.year ∧ m2 = c'.month := by
    unfold monthIndex at *
    push_cast [Nat.cast_sub hn1] at p3 q3
    omega
  obtain ⟨rfl, rfl⟩ := this
  rw [Nat.cast_sub hn1] at q4
  unfold ymd2ord at *
  push_cast at q4
  omega

/-- C13: for instants at least one second apart the Julian solar day strictly increases. -/
theorem C13_solar_day_increases (tp : ℝ) (d d' : DateTime) (c c' : Civil) (h : UtcFields d c)
    (h' : UtcFields d' c') (hge : c.micros + 1000000 ≤ c'.micros) (x x' : ℝ)
    (hx : get_julian_solar_day (mathB tp) (.dt d) = .ok (num x))
    (hx' : get_julian_solar_day (mathB tp) (.dt d') = .ok (num x')) : x < x' := by
  rw [jd_eq h] at hx
  rw [jd_eq h'] at hx'
  have e := num_injective (Except.ok.inj hx)
  have e' := num_injective (Except.ok.inj hx')
  have a := h.1.2.2.1
  have b := h'.1.2.2.1
  have hmi := monthIndex_le_of_micros_le h.1.2.2 h'.1.2.2 (by omega)
  have hm := taiMinusUtc_mono a.1 a.2.1 b.1 b.2.1 hmi
  simp only at hm
  have h2 : (0 : ℝ) ≤ ((taiMinusUtc c'.year c'.month : ℤ) : ℝ) - ((taiMinusUtc c.year c.month : ℤ) : ℝ) := by
    exact_mod_cast (by omega : 0 ≤ taiMinusUtc c'.year c'.month - taiMinusUtc c.year c.month)
  obtain ⟨n, hn⟩ : ∃ n : ℕ, monthIndex c'.year c'.month = monthIndex c.year c.month + n :=
    ⟨(monthIndex c'.year c'.month - monthIndex c.year c.month).toNat, by omega⟩
  have hd := dtIndex_steps (monthIndex c.year c.month) n
  rw [← hn, dtIndex_monthIndex b.1 b.2.1, dtIndex_monthIndex a.1 a.2.1] at hd
  have hdR : (dtVal c'.year c'.month : ℝ) - (dtVal c.year c.month : ℝ) ≤ 0.11 * (n : ℝ) := by
    have : ((dtVal c'.year c'.month - dtVal c.year c.month : ℚ) : ℝ) ≤ ((0.11 * (n : ℚ) : ℚ) : ℝ) := by
      exact_mod_cast hd
    push_cast at this
    norm_num at this ⊢
    linarith
  -- elapsed seconds
  have hel : 0.11 * (n : ℝ) < ((c'.micros : ℝ) - (c.micros : ℝ)) / 1000000 := by
    have hgeR : (c.micros : ℝ) + 1000000 ≤ (c'.micros : ℝ) := by exact_mod_cast hge
    rcases Nat.lt_or_ge n 2 with hlt | hge2
    · have : (n : ℝ) ≤ 1 := by exact_mod_cast (by omega : n ≤ 1)
      rw [lt_div_iff₀ (by norm_num)]
      norm_num
      nlinarith
    · have hgap := ord_gap a b hn (by omega)
      simp only at hgap
      have hd1 := micros_div h.1.2.2
      have hd2 := micros_div h'.1.2.2
      unfold usPerDay at hd1 hd2
      have hint : (28 * ((n : ℤ) - 1)) * 86400000000 < c'.micros - c.micros := by omega
      have hR : (28 * ((n : ℝ) - 1)) * 86400000000 < (c'.micros : ℝ) - (c.micros : ℝ) := by
        exact_mod_cast hint
      have hn2 : (2 : ℝ) ≤ (n : ℝ) := by exact_mod_cast hge2
      rw [lt_div_iff₀ (by norm_num)]
      norm_num
      nlinarith
  rw [← e, ← e']
  push_cast at h2 ⊢
  linarith

/-- C14: the implied UT1-UTC stays within 0.9 s over the range of the delta-T table. -/
theorem C14_tables_consistent {B : Backend} (d : DateTime) (c : Civil) (h : UtcFields d c)
    (h1 : monthIndex 1973 2 ≤ monthIndex c.year c.month)
    (h2 : monthIndex c.year c.month ≤ monthIndex 2014 4) :
    ∃ (n : ℤ) (v : ℚ), get_leap_seconds (B := B) (.dt d) = .ok n ∧
      get_delta_t (B := B) (.dt d) = .ok v ∧ |(n : ℚ) + 32.184 - v| < 0.9 := by
  obtain ⟨v, hv, he⟩ := C08_labels_complete (B := B) d c h h1 h2
  refine ⟨_, v, get_leap_seconds_eq h, he, ?_⟩
  have key := deltaT_ut1_check _ hv
  rw [abs_lt]
  exact key

/-! ## C15 date parts -/

theorem utcMicros_parts {c : Civil} (h : c.FieldsValid) :
    ydayOfMicros c.micros = yday c.date ∧ hourOfMicros c.micros = c.hour ∧
      minOfMicros c.micros = c.minute := by
  have hd := micros_div h
  have hv := h.1
  obtain ⟨-, h1, h2, h3, h4, h5, h6, h7, h8⟩ := h
  have hc := ord2ymd_ymd2ord hv
  simp only at hc
  refine ⟨?_, ?_, ?_⟩
  · unfold ydayOfMicros
    rw [hd, hc]
    have := daysBeforeMonth_one c.year
    unfold ymd2ord yday Civil.date
    simp only
    omega
  · unfold hourOfMicros
    rw [hd]
    unfold Civil.micros
    omega
  · unfold minOfMicros Civil.micros
    omega

/-- C15: for every datetime, aware or naive, whose UTC time `c` lies in the years 1..9999, both backends
extract the same day of year, hour and minute: the number of days since 1 January plus one, and the UTC
fields; with the documented ranges. -/
theorem C15_date_parts (B : Backend) (d : DateTime) (c : Civil) (hc : c.Valid)
    (h : c.micros = d.utcMicros) :
    tm_yday B (.dt d) = .ok (B.lit ((ymd2ord c.year c.month c.day - ymd2ord c.year 1 1 + 1 : ℤ) : ℚ)) ∧
    tm_hour B (.dt d) = .ok (B.lit ((c.hour : ℤ) : ℚ)) ∧
    tm_min B (.dt d) = .ok (B.lit ((c.minute : ℤ) : ℚ)) ∧
    (1 ≤ ymd2ord c.year c.month c.day - ymd2ord c.year 1 1 + 1 ∧
      ymd2ord c.year c.month c.day - ymd2ord c.year 1 1 + 1 ≤ 366) ∧
    (0 ≤ c.hour ∧ c.hour ≤ 23) ∧ (0 ≤ c.minute ∧ c.minute ≤ 59) := by
  obtain ⟨p1, p2, p3⟩ := utcMicros_parts hc.2.2
  have hy : yday c.date = ymd2ord c.year c.month c.day - ymd2ord c.year 1 1 + 1 := by
    have := daysBeforeMonth_one c.year
    unfold ymd2ord yday Civil.date
    simp only
    omega
  have ht : d.utctimetuple = .ok c := by
    unfold DateTime.utctimetuple civilChecked
    rw [← h, civilOfMicros_micros hc.2.2]
    simp [hc.1, hc.2.1]
  have hb := yday_bounds (c := c.date) hc.2.2.1
  have hl : yearLen c.date.year ≤ 366 := by unfold yearLen; split <;> omega
  obtain ⟨-, -, -, g1, g2, g3, g4, -⟩ := hc
  refine ⟨?_, ?_, ?_, by omega, ⟨g1, g2⟩, ⟨g3, g4⟩⟩
  · have q : tm_yday_numpy d = yday c.date := by
      unfold tm_yday_numpy
      rw [← h, p1]
    have q' : tm_yday_math (B := B) (.dt d) = .ok (yday c.date) := by
      simp [tm_yday_math, ht]
    rw [← hy]
    unfold tm_yday
    split <;> simp [q, q']
  · have q : tm_hour_numpy d = c.hour := by
      unfold tm_hour_numpy
      rw [← h, p2]
    have q' : tm_hour_math (B := B) (.dt d) = .ok c.hour := by
      simp [tm_hour_math, ht]
    unfold tm_hour
    split <;> simp [q, q']
  · have q : tm_min_numpy d = c.minute := by
      unfold tm_min_numpy
      rw [← h, p3]
    have q' : tm_min_math (B := B) (.dt d) = .ok c.minute := by
      simp [tm_min_math, ht]
    unfold tm_min
    split <;> simp [q, q']

/-! ## Non-vacuity -/

example : UtcFields sampleDT sampleUTC := sample_utc
example : taiMinusUtc sampleUTC.year sampleUTC.month = 33 := by decide
example : (sampleUTC.year, sampleUTC.month, (65.1833 : ℚ)) ∈ deltaTData := by decide +kernel
example : monthIndex 2026 7 ≤ monthIndex dt2026.year dt2026.month := by decide
example : UtcFields (utcDT dt2026) dt2026 := utcDT_fields (civil_valid_of_check (by decide))
example : monthIndex 1973 2 ≤ monthIndex sampleUTC.year sampleUTC.month ∧
    monthIndex sampleUTC.year sampleUTC.month ≤ monthIndex 2014 4 := by decide
example : monthIndex dt1950.year dt1950.month < monthIndex 1973 2 := by decide
example : sampleUTC.micros + 1000000 ≤ dt2015.micros := by decide
example : sampleUTC.micros = sampleDT.utcMicros := by decide
example : fliegelVanFlandern 2000 1 1 = 2451545 := by decide

end Verif.Props
