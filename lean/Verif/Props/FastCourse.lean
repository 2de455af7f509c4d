import Verif.Props.Turning
import Verif.Props.MorningRadiation
import Verif.Props.SolarTestDay

/-!
# C150: the course of the fast position functions through the day
-/

namespace Verif.Props

open Verif.Spec Pysolar Pysolar.Solar Pysolar.Solartime Pysolar.Constants Real

/-- Whole minutes elapsed since the midnight before 0001-01-01. -/
def minutesOf (c : Civil) : ℤ := ymd2ord c.year c.month c.day * 1440 + c.hour * 60 + c.minute

/-- The statement one would expect, the one of C141 with `get_altitude_fast` and without strictness: between half past midnight
and half past eleven of one day of local mean solar time, a later call does not return a smaller altitude. It is false, see
`C150_refuted`. -/
def C150Claim (tp : ℝ) : Prop :=
  ∀ (d d' : DateTime) (c c' : Civil), UtcFields d c → UtcFields d' c' → c'.year = c.year → c'.month = c.month →
    c.micros < c'.micros → ∀ (lat lon alt alt' : ℝ) (day : ℤ), |lat| ≤ 66 →
    get_altitude_fast (mathB tp) (num lat) (num lon) (.dt d) = .ok (num alt) →
    get_altitude_fast (mathB tp) (num lat) (num lon) (.dt d') = .ok (num alt') →
    24 * day + 0.5 ≤ meanSolar lon c → meanSolar lon c' ≤ 24 * day + 11.5 → alt ≤ alt'

theorem haF_minutes (lon : ℝ) (c : Civil) :
    haF lon c + 360 * (ymd2ord c.year c.month c.day : ℤ) = minutesOf c / 4 + lon + eotF (yday c.date) / 4 - 180 := by
  unfold haF solF minutesOf
  push_cast
  ring

theorem mean_minutes {lon : ℝ} {c : Civil} (h : c.Valid) :
    (minutesOf c : ℝ) / 60 + lon / 15 ≤ meanSolar lon c ∧ meanSolar lon c < (minutesOf c : ℝ) / 60 + lon / 15 + 1 / 60 := by
  obtain ⟨-, -, -, -, -, -, -, b1, b2, b3, b4⟩ := h
  have s0 : (0 : ℝ) ≤ c.second := by exact_mod_cast b1
  have s1 : (c.second : ℝ) ≤ 59 := by exact_mod_cast b2
  have u0 : (0 : ℝ) ≤ c.micro := by exact_mod_cast b3
  have u1 : (c.micro : ℝ) ≤ 999999 := by exact_mod_cast b4
  unfold meanSolar minutesOf Civil.micros
  push_cast
  constructor <;> linarith

theorem minutes_mono {c c' : Civil} (h : c.Valid) (h' : c'.Valid) (hlt : c.micros < c'.micros) : minutesOf c ≤ minutesOf c' := by
  obtain ⟨-, -, -, -, -, -, -, b1, b2, b3, b4⟩ := h
  obtain ⟨-, -, -, -, -, -, -, a1, a2, a3, a4⟩ := h'
  unfold Civil.micros at hlt
  unfold minutesOf
  omega

/-- The altitude of the fast functions is the elevation angle for the fast declination and hour angle. -/
theorem altF_tea (tp lat lon : ℝ) (c : Civil) :
    get_topocentric_elevation_angle (mathB tp) (num lat) (num (decF (yday c.date))) (num (haF lon c)) = .ok (num (altF lat lon c)) :=
  tea_eval _ _ _

theorem dec_lt (n : ℝ) : -90 < decF n ∧ decF n < 90 := by
  have := abs_le.mp (decF_abs n)
  norm_num at this
  constructor <;> linarith

theorem tea_turns (tp lat dec H : ℝ) (k : ℤ) :
    get_topocentric_elevation_angle (mathB tp) (num lat) (num dec) (num (H + 360 * k))
      = get_topocentric_elevation_angle (mathB tp) (num lat) (num dec) (num H) := by
  rw [tea_eval, tea_eval, ← up_eq, ← up_eq, cos_rad_add_turns]

/-- Elevation angles of one declination are in the order of the distances from the meridian. -/
theorem tea_order {tp lat dec H H' e e' : ℝ} (k k' : ℤ) (h1 : -90 < lat) (h2 : lat < 90) (h3 : -90 < dec) (h4 : dec < 90)
    (he : get_topocentric_elevation_angle (mathB tp) (num lat) (num dec) (num H) = .ok (num e))
    (he' : get_topocentric_elevation_angle (mathB tp) (num lat) (num dec) (num H') = .ok (num e'))
    (hlt : |H + 360 * k| < |H' + 360 * k'|) (hle : |H' + 360 * k'| ≤ 180) : e' < e := by
  obtain ⟨x, x', hx, hx', hlt⟩ := (C98_course tp lat dec h1 h2 h3 h4).1 _ _ hlt hle
  rw [tea_turns] at hx hx'
  rw [num_injective (Except.ok.inj (he.symm.trans hx)), num_injective (Except.ok.inj (he'.symm.trans hx'))]
  exact hlt

/-- The sun of the fast functions is not at the zenith or nadir of a place outside the tropics. -/
theorem fast_not_pole {lat lon : ℝ} {c : Civil} (h1 : -90 < lat) (h2 : lat < 90) (hl : 25.5 ≤ |lat|) :
    altF lat lon c ≠ 90 ∧ altF lat lon c ≠ -90 := by
  have hd := abs_le.mp (decF_abs (yday c.date))
  have hd' := dec_lt (yday c.date)
  set dec := decF (yday c.date) with hdec
  have c1 := cos_rad_pos h1 h2
  have c2 := cos_rad_pos hd'.1 hd'.2
  have n : ∀ y : ℝ, |y| < 180 → y ≠ 0 → sin (rad y) ≠ 0 := by
    intro y hy h0 hs
    have hy := abs_lt.mp hy
    rcases lt_or_gt_of_ne h0 with h | h
    · have := sin_rad_pos (x := -y) (by linarith) (by linarith)
      rw [rad_neg, sin_neg] at this
      linarith
    · have := sin_rad_pos (x := y) h (by linarith)
      linarith
  have key : (sunENU lat (haF lon c) dec).z ^ 2 ≠ 1 := by
    intro hz
    have hu := sunENU_unit lat (haF lon c) dec
    have hu' : (sunENU lat (haF lon c) dec).x ^ 2 + (sunENU lat (haF lon c) dec).y ^ 2 = 0 := by
      unfold Vec3.dot at hu
      nlinarith
    have hx : (sunENU lat (haF lon c) dec).x = 0 := by
      nlinarith [sq_nonneg (sunENU lat (haF lon c) dec).x, sq_nonneg (sunENU lat (haF lon c) dec).y]
    have hs : sin (rad (haF lon c)) = 0 := by
      simp only [sunENU, toHorizon, sph] at hx
      exact (mul_eq_zero.mp (neg_eq_zero.mp hx)).resolve_left c2.ne'
    have hc : cos (rad (haF lon c)) = 1 ∨ cos (rad (haF lon c)) = -1 := by
      have := sin_sq_add_cos_sq (rad (haF lon c))
      rw [hs] at this
      exact mul_self_eq_one_iff.mp (by linarith)
    rw [← up_eq] at hz
    have q1 : lat - dec ≠ 0 := fun h => by
      rcases le_abs.mp hl with a | a <;> norm_num at * <;> linarith
    have q2 : lat + dec ≠ 0 := fun h => by
      rcases le_abs.mp hl with a | a <;> norm_num at * <;> linarith
    rcases hc with hc | hc
    · refine n (lat - dec) (abs_lt.mpr ⟨by linarith, by linarith⟩) q1 ?_
      have e : sin (rad lat) * sin (rad dec) + cos (rad lat) * cos (rad dec) * cos (rad (haF lon c)) = cos (rad (lat - dec)) := by
        rw [hc, rad_sub, cos_sub]; ring
      rw [e] at hz
      nlinarith [sin_sq_add_cos_sq (rad (lat - dec))]
    · refine n (lat + dec) (abs_lt.mpr ⟨by linarith, by linarith⟩) q2 ?_
      have e : sin (rad lat) * sin (rad dec) + cos (rad lat) * cos (rad dec) * cos (rad (haF lon c)) = -cos (rad (lat + dec)) := by
        rw [hc, rad_add, cos_add]; ring
      rw [e] at hz
      nlinarith [sin_sq_add_cos_sq (rad (lat + dec))]
  have hz := unit_z (sunENU_unit lat (haF lon c) dec)
  have ev : sin (rad (altF lat lon c)) = (sunENU lat (haF lon c) dec).z := by
    unfold altF
    rw [rad_deg, sin_arcsin hz.1 hz.2]
  rw [← ev] at key
  constructor
  · intro h
    rw [h, rad_90, sin_pi_div_two] at key
    norm_num at key
  · intro h
    rw [h, rad_neg, rad_90, sin_neg, sin_pi_div_two] at key
    norm_num at key

/-- C150, what holds: within one UTC date the altitude returned by `get_altitude_fast` grows strictly from minute to minute
before 12 o'clock solar time and falls after it; outside the tropics the azimuth returned by `get_azimuth_fast` turns
clockwise in the north, from midnight to midnight solar time, and counterclockwise in the south, before and after noon. -/
theorem C150_same_date_partial (tp : ℝ) (d d' : DateTime) (c c' : Civil) (h : UtcFields d c) (h' : UtcFields d' c')
    (hdate : c'.date = c.date) (hlt : c.hour * 60 + c.minute < c'.hour * 60 + c'.minute) (lat lon : ℝ) (h1 : -90 < lat)
    (h2 : lat < 90) :
    ∃ s s' alt alt', get_solar_time (mathB tp) (num lon) (.dt d) = .ok (num s) ∧
      get_solar_time (mathB tp) (num lon) (.dt d') = .ok (num s') ∧
      get_altitude_fast (mathB tp) (num lat) (num lon) (.dt d) = .ok (num alt) ∧
      get_altitude_fast (mathB tp) (num lat) (num lon) (.dt d') = .ok (num alt') ∧
      (∀ k : ℤ, 24 * k ≤ s → s' ≤ 24 * k + 12 → alt < alt') ∧
      (∀ k : ℤ, 24 * k + 12 ≤ s → s' ≤ 24 * k + 24 → alt' < alt) ∧
      (25.5 ≤ |lat| → ∃ a a', get_azimuth_fast (mathB tp) (num lat) (num lon) (.dt d) = .ok (num a) ∧
        get_azimuth_fast (mathB tp) (num lat) (num lon) (.dt d') = .ok (num a') ∧
        ∀ k : ℤ, 24 * k < s → s' < 24 * k + 24 →
          (0 < lat → a < a') ∧ (lat < 0 → 24 * k + 12 < s ∨ s' < 24 * k + 12 → a' < a)) := by
  have hH : haF lon c < haF lon c' := by
    have : ((c.hour * 60 + c.minute : ℤ) : ℝ) < ((c'.hour * 60 + c'.minute : ℤ) : ℝ) := by exact_mod_cast hlt
    push_cast at this
    unfold haF solF
    rw [hdate]
    linarith
  have es : ∀ c : Civil, solF lon c = haF lon c / 15 + 12 := fun c => by unfold haF; ring
  have hd := dec_lt (yday c.date)
  have t := altF_tea tp lat lon c
  have t' := altF_tea tp lat lon c'
  rw [hdate] at t'
  refine ⟨_, _, _, _, soltime_eval h lon, soltime_eval h' lon, altF_eval h lat lon, altF_eval h' lat lon, ?_, ?_, ?_⟩
  · intro k k1 k2
    rw [es] at k1 k2
    refine tea_order (-k) (-k) h1 h2 hd.1 hd.2 t' t ?_ ?_
    · push_cast
      rw [abs_of_nonpos (by linarith), abs_of_nonpos (by linarith)]
      linarith
    · push_cast
      rw [abs_le]
      constructor <;> linarith
  · intro k k1 k2
    rw [es] at k1 k2
    refine tea_order (-k) (-k) h1 h2 hd.1 hd.2 t t' ?_ ?_
    · push_cast
      rw [abs_of_nonneg (by linarith), abs_of_nonneg (by linarith)]
      linarith
    · push_cast
      rw [abs_le]
      constructor <;> linarith
  · intro hl
    obtain ⟨n1, n2⟩ := fast_not_pole (lon := lon) (c := c) h1 h2 hl
    obtain ⟨n1', n2'⟩ := fast_not_pole (lon := lon) (c := c') h1 h2 hl
    obtain ⟨a, ha, -, -, -, za⟩ := C37_azimuth_fast tp d c h lat lon h1 h2 _ _ _ (decl_eval _) (ha_eval h lon)
      (altF_eval h lat lon) n1 n2
    obtain ⟨a', ha', -, -, -, za'⟩ := C37_azimuth_fast tp d' c' h' lat lon h1 h2 _ _ _ (decl_eval _) (ha_eval h' lon)
      (altF_eval h' lat lon) n1' n2'
    rw [hdate] at za'
    refine ⟨a, a', ha, ha', fun k k1 k2 => ?_⟩
    rw [es] at k1 k2
    have hb : |decF (yday c.date)| ≤ 24.2 := (decF_abs _).trans (by norm_num)
    obtain ⟨b, b', hb1, hb2, p, q⟩ := C149_angle tp lat _ _ (haF lon c) (haF lon c') (haF lon c + 360 * (-k : ℤ))
      (haF lon c' + 360 * (-k : ℤ)) (-k) (-k) rfl rfl hb hb (by push_cast; linarith) (by linarith) (by push_cast; linarith)
      (by rw [sub_self, abs_zero]; norm_num; linarith)
    rw [num_injective (Except.ok.inj (za.symm.trans hb1)), num_injective (Except.ok.inj (za'.symm.trans hb2))]
    refine ⟨fun l => p ?_ h2, fun l hs => q h1 ?_ ?_⟩
    · rwa [abs_of_pos l] at hl
    · rw [abs_of_neg l] at hl; linarith
    · rw [es, es] at hs
      push_cast
      rcases hs with hs | hs
      · left; linarith
      · right; linarith

/-- From one day to the next the fast declination moves by at most 0.4037 degrees and the equation of time by at most half a
minute. -/
theorem fast_day_step {m n : ℝ} (h : |m - n| ≤ 1) : |decF m - decF n| ≤ 0.4037 ∧ |eotF m - eotF n| ≤ 0.4967 := by
  have hp := pi_lt_d4
  have hp0 := pi_pos
  constructor
  · unfold decF
    rw [← mul_sub, abs_mul, abs_of_pos (by norm_num)]
    have := abs_sin_sub_sin_le (2 * π / 365 * (m - 81)) (2 * π / 365 * (n - 81))
    rw [← mul_sub, sub_sub_sub_cancel_right, abs_mul, abs_of_pos (by positivity : 0 < 2 * π / 365)] at this
    have b : 2 * π / 365 * |m - n| ≤ 2 * 3.1416 / 365 * 1 := by gcongr
    norm_num at *
    linarith
  · have e : 2 * π / 364 * |m - n| ≤ 0.017262 := by
      calc 2 * π / 364 * |m - n| ≤ 2 * 3.1416 / 364 * 1 := by gcongr
        _ ≤ _ := by norm_num
    have s1 := abs_sin_sub_sin_le (2 * (2 * π / 364 * (m - 81))) (2 * (2 * π / 364 * (n - 81)))
    have s2 := abs_cos_sub_cos_le (2 * π / 364 * (m - 81)) (2 * π / 364 * (n - 81))
    have s3 := abs_sin_sub_sin_le (2 * π / 364 * (m - 81)) (2 * π / 364 * (n - 81))
    rw [← mul_sub, ← mul_sub, sub_sub_sub_cancel_right, abs_mul, abs_mul, abs_of_pos (by norm_num : (0 : ℝ) < 2),
      abs_of_pos (by positivity : 0 < 2 * π / 364)] at s1
    rw [← mul_sub, sub_sub_sub_cancel_right, abs_mul, abs_of_pos (by positivity : 0 < 2 * π / 364)] at s2 s3
    have s1 := abs_le.mp s1
    have s2 := abs_le.mp s2
    have s3 := abs_le.mp s3
    unfold eotF
    generalize 2 * π / 364 * |m - n| = z at *
    rw [abs_le]
    norm_num at *
    constructor <;> linarith

/-- C150, what holds across midnight UTC, in one UTC month: between half past midnight and half past eleven of one day of
local mean solar time a later call returns at most 0.53 degrees less. -/
theorem C150_step_partial (tp : ℝ) (d d' : DateTime) (c c' : Civil) (h : UtcFields d c) (h' : UtcFields d' c')
    (hy : c'.year = c.year) (hm : c'.month = c.month) (hlt : c.micros < c'.micros) (lat lon alt alt' : ℝ) (day : ℤ)
    (h1 : -90 < lat) (h2 : lat < 90)
    (ha : get_altitude_fast (mathB tp) (num lat) (num lon) (.dt d) = .ok (num alt))
    (ha' : get_altitude_fast (mathB tp) (num lat) (num lon) (.dt d') = .ok (num alt'))
    (m1 : 24 * day + 0.5 ≤ meanSolar lon c) (m2 : meanSolar lon c' ≤ 24 * day + 11.5) : alt - 0.53 ≤ alt' := by
  rw [altF_eval h] at ha
  rw [altF_eval h'] at ha'
  rw [← num_injective (Except.ok.inj ha), ← num_injective (Except.ok.inj ha')]
  have h24 : c'.micros - c.micros < 24 * 3600000000 := by
    have : ((c'.micros - c.micros : ℤ) : ℝ) < ((24 * 3600000000 : ℤ) : ℝ) := by
      unfold meanSolar at m1 m2
      push_cast
      norm_num at *
      linarith
    exact_mod_cast this
  obtain ⟨s1, s2⟩ := fast_day_step (yday_step h.1 h'.1 hy hm hlt h24)
  have hM : (minutesOf c : ℝ) ≤ minutesOf c' := by exact_mod_cast minutes_mono h.1 h'.1 hlt
  obtain ⟨b1, b2⟩ := mean_minutes (lon := lon) h.1
  obtain ⟨b1', b2'⟩ := mean_minutes (lon := lon) h'.1
  have e := haF_minutes lon c
  have e' := haF_minutes lon c'
  generalize (minutesOf c : ℝ) = M at *
  generalize (minutesOf c' : ℝ) = M' at *
  obtain ⟨z, z1, z2⟩ := C35_equation_of_time tp (yday c.date)
  rw [eot_eval] at z1
  rw [← num_injective (Except.ok.inj z1)] at z2
  have z2 := abs_le.mp z2
  have hd := dec_lt (yday c.date)
  set E := eotF (yday c.date) with hE
  set E' := eotF (yday c'.date) with hE'
  -- the later hour angle with the declination and the equation of time of the first day
  set G := haF lon c' - (E' - E) / 4 with hG
  have mid : altF lat lon c ≤ deg (arcsin (sunENU lat G (decF (yday c.date))).z) := by
    by_cases hq : G + 360 * ((ymd2ord c'.year c'.month c'.day - day : ℤ) : ℝ)
        = haF lon c + 360 * ((ymd2ord c.year c.month c.day - day : ℤ) : ℝ)
    · have : (sunENU lat G (decF (yday c.date))).z = (sunENU lat (haF lon c) (decF (yday c.date))).z := by
        rw [← up_eq, ← up_eq, ← cos_rad_add_turns G, hq, cos_rad_add_turns]
      rw [this]
      rfl
    · refine (tea_order (tp := tp) (ymd2ord c'.year c'.month c'.day - day) (ymd2ord c.year c.month c.day - day) h1 h2 hd.1 hd.2
        (tea_eval _ _ _) (altF_tea tp lat lon c) ?_ ?_).le
      · push_cast at hq ⊢
        have lt := lt_of_le_of_ne (by linarith) (Ne.symm hq)
        rw [abs_of_nonpos (by norm_num at *; linarith), abs_of_nonpos (by norm_num at *; linarith)]
        linarith
      · push_cast
        rw [abs_le]
        norm_num at *
        constructor <;> linarith
  have k := altitude_diff (sunENU_unit lat (haF lon c') (decF (yday c'.date))) (sunENU_unit lat G (decF (yday c.date)))
  have k2 := angleBetween_sunENU lat (H := G) (H' := haF lon c') (δ := decF (yday c.date)) (δ' := decF (yday c'.date)) 0
  have k := (abs_le.mp (k.trans k2)).1
  have e3 : |haF lon c' - G - 360 * (0 : ℤ)| ≤ 0.1242 := by
    rw [hG, show haF lon c' - (haF lon c' - (E' - E) / 4) - 360 * ((0 : ℤ) : ℝ) = (E' - E) / 4 by push_cast; ring, abs_div,
      abs_of_pos (by norm_num : (0 : ℝ) < 4)]
    norm_num at *
    linarith
  change _ ≤ deg (arcsin (sunENU lat (haF lon c') (decF (yday c'.date))).z)
  norm_num at *
  linarith

def fastEve : Civil := ⟨2020, 3, 20, 23, 59, 0, 0⟩
def fastMid : Civil := ⟨2020, 3, 21, 0, 0, 0, 0⟩

set_option maxRecDepth 100000 in
theorem iv_fastEve : Iv.within (get_altitude_fast ivB (ivB.lit (-60)) (ivB.lit 120) (.dt (utcDT fastEve))) 13.8 13.9 = true := by
  decide +kernel

set_option maxRecDepth 100000 in
theorem iv_fastMid : Iv.within (get_altitude_fast ivB (ivB.lit (-60)) (ivB.lit 120) (.dt (utcDT fastMid))) 13.6 13.7 = true := by
  decide +kernel

theorem iv_lit_neg60 : Iv.rel (ivB.lit (-60)) (.fin (-60)) := by
  have h := iv_lit (-60)
  rwa [show ((-60 : ℚ) : ℝ) = -60 by norm_num] at h

theorem iv_lit120 : Iv.rel (ivB.lit 120) (.fin 120) := by
  have h := iv_lit 120
  rwa [show ((120 : ℚ) : ℝ) = 120 by norm_num] at h

theorem fastEve_valid : fastEve.Valid := civil_valid_of_check (by decide)
theorem fastMid_valid : fastMid.Valid := civil_valid_of_check (by decide)

/-- C150 is false: at 60 degrees south, 120 degrees east, at eight in the morning of 21 March 2020, the altitude falls from 13.83
to 13.63 degrees within the minute of midnight UTC. -/
theorem C150_refuted (tp : ℝ) : ¬ C150Claim tp := by
  intro hc
  obtain ⟨x, hx, x1, -⟩ := iv_fast_within tp (utcDT fastEve) iv_lit_neg60 iv_lit120 iv_fastEve
  obtain ⟨y, hy, -, y2⟩ := iv_fast_within tp (utcDT fastMid) iv_lit_neg60 iv_lit120 iv_fastMid
  have := hc _ _ _ _ (utcDT_fields fastEve_valid) (utcDT_fields fastMid_valid) rfl rfl (by decide) (-60) 120 x y
    (ymd2ord 2020 3 21) (by norm_num [abs_of_neg]) hx hy ?_ ?_
  · norm_num at *
    linarith
  · have : fastEve.micros = ymd2ord 2020 3 21 * 86400000000 - 60000000 := by decide
    unfold meanSolar
    rw [this]
    push_cast
    norm_num
    linarith
  · have : fastMid.micros = ymd2ord 2020 3 21 * 86400000000 := by decide
    unfold meanSolar
    rw [this]
    push_cast
    norm_num
    linarith

/-! Instances of the hypotheses. -/

/-- Two minutes of one morning. -/
example : UtcFields (utcDT ⟨2000, 6, 21, 6, 0, 30, 0⟩) ⟨2000, 6, 21, 6, 0, 30, 0⟩ ∧
    UtcFields (utcDT ⟨2000, 6, 21, 6, 1, 0, 0⟩) ⟨2000, 6, 21, 6, 1, 0, 0⟩ ∧
    Civil.date ⟨2000, 6, 21, 6, 1, 0, 0⟩ = Civil.date ⟨2000, 6, 21, 6, 0, 30, 0⟩ ∧
    (6 * 60 + 0 : ℤ) < 6 * 60 + 1 ∧ (25.5 : ℝ) ≤ |48.85| :=
  ⟨utcDT_fields (civil_valid_of_check (by decide)), utcDT_fields (civil_valid_of_check (by decide)), rfl, by decide,
    by rw [abs_of_pos] <;> norm_num⟩

end Verif.Props
