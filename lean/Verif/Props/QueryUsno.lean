import Verif.Model.QueryUsno
import Verif.Props.Seasons
import Verif.Props.Formulas
import Verif.Props.Sunrise
import Verif.Props.FastAccuracy

/-!
# C100, C101, C102: the tool that compares pysolar with the US Naval Observatory
-/

namespace Verif.Props

open Verif.Spec Pysolar Pysolar.Constants Pysolar.Solar Pysolar.QueryUsno Real

/-! ## C100 -/

/-- The coordinate meant by sign, degrees, minutes and seconds. -/
noncomputable def Sexagesimal.value (s : Sexagesimal) : ℝ := s.sign * (s.deg + s.min / 60 + s.sec / 3600)

/-- C100, the full claim: the request names the place asked for. -/
def C100Claim : Prop := ∀ (lat lon elev : ℝ) (d : DateTime),
  Sexagesimal.value (EncodeRequest lat lon d elev).latitude = lat ∧
    Sexagesimal.value (EncodeRequest lat lon d elev).longitude = lon

theorem encode_int (n : ℤ) : encodeCoordinate n = ⟨if n < 0 then -1 else 1, |n|, 0, 0⟩ := by
  simp [encodeCoordinate, divmod]

theorem int_value (n : ℤ) : Sexagesimal.value (encodeCoordinate n) = n := by
  rw [encode_int]
  simp only [Sexagesimal.value]
  split_ifs with h
  · rw [abs_of_neg h]; push_cast; ring
  · rw [abs_of_nonneg (not_lt.mp h)]; push_cast; ring

/-- What holds: coordinates in whole degrees, which are the ones the tool generates, are sent exactly, with the date,
the time and the height. -/
theorem C100_integer_partial (m n : ℤ) (elev : ℝ) (d : DateTime) :
    Sexagesimal.value (EncodeRequest m n d elev).latitude = m ∧
      Sexagesimal.value (EncodeRequest m n d elev).longitude = n ∧
      (EncodeRequest m n d elev).height = elev ∧
      (⟨(EncodeRequest m n d elev).year, (EncodeRequest m n d elev).month, (EncodeRequest m n d elev).day,
        (EncodeRequest m n d elev).hour, (EncodeRequest m n d elev).minute, (EncodeRequest m n d elev).second,
        d.civil.micro⟩ : Civil) = d.civil :=
  ⟨int_value m, int_value n, rfl, rfl⟩

/-- What holds for other coordinates that are not negative: the remainder after the minutes, a number of degrees, is
sent as the number of seconds, so that the request is too small by up to 1/60 degree. -/
theorem C100_positive_partial (x : ℝ) (hx : 0 ≤ x) :
    x - 1 / 60 < Sexagesimal.value (encodeCoordinate x) ∧ Sexagesimal.value (encodeCoordinate x) ≤ x := by
  have h1 := Int.floor_le (x / 1)
  have h0 : (0 : ℤ) ≤ ⌊x / 1⌋ := Int.floor_nonneg.mpr (by simpa using hx)
  set r := x - 1 * (⌊x / 1⌋ : ℝ) with hr
  have h3 := Int.floor_le (r / (1.0 / 60.0))
  have h4 := Int.lt_floor_add_one (r / (1.0 / 60.0))
  have e : encodeCoordinate x = ⟨1, ⌊x / 1⌋, ⌊r / (1.0 / 60.0)⌋, r - 1.0 / 60.0 * ⌊r / (1.0 / 60.0)⌋⟩ := by
    simp only [encodeCoordinate, divmod, ← hr]
    rw [if_neg (not_lt.mpr h0), abs_of_nonneg h0]
  rw [e]
  simp only [Sexagesimal.value]
  generalize (⌊r / (1.0 / 60.0)⌋ : ℝ) = q at *
  generalize (⌊x / 1⌋ : ℝ) = p at *
  norm_num at *
  constructor <;> linarith

/-- The value sent, for every coordinate: with `f` the part after the whole degrees (rounded down) and `s` what remains of it
after the whole minutes, the value falls short by `s` degrees, `s` seconds being sent instead; for negative coordinates it lies
`2 f` further out, because degrees rounded down and the minutes are both taken as negative. -/
theorem encode_value (x : ℝ) : ∃ f s : ℝ, ∃ m : ℤ, f = x - ⌊x⌋ ∧ 0 ≤ s ∧ s < 1 / 60 ∧ f = m / 60 + s ∧
    Sexagesimal.value (encodeCoordinate x)
      = if 0 ≤ x then x - s * (3599 / 3600) else x - 2 * f + s * (3599 / 3600) := by
  set f := x - (⌊x⌋ : ℝ) with hf
  set m := ⌊f / (1.0 / 60.0)⌋ with hm
  have h3 := Int.floor_le (f / (1.0 / 60.0))
  have h4 := Int.lt_floor_add_one (f / (1.0 / 60.0))
  rw [← hm] at h3 h4
  have e : encodeCoordinate x = ⟨if ⌊x⌋ < 0 then -1 else 1, |⌊x⌋|, m, f - 1.0 / 60.0 * m⟩ := by
    simp only [encodeCoordinate, divmod, div_one, one_mul, ← hf, ← hm]
  refine ⟨f, f - 1 / 60 * m, m, rfl, ?_, ?_, by ring, ?_⟩
  · norm_num at h3
    linarith
  · norm_num at h4
    linarith
  · rw [e]
    simp only [Sexagesimal.value]
    have hx : (⌊x⌋ : ℝ) = x - f := by rw [hf]; ring
    clear_value f m
    by_cases h0 : 0 ≤ x
    · have hfl : (0 : ℤ) ≤ ⌊x⌋ := Int.floor_nonneg.mpr h0
      rw [if_pos h0, if_neg (not_lt.mpr hfl), abs_of_nonneg hfl]
      push_cast
      rw [hx]
      norm_num
      ring
    · have hfl : ⌊x⌋ < 0 := Int.floor_lt.mpr (by simpa using h0)
      rw [if_neg h0, if_pos hfl, abs_of_neg hfl]
      push_cast
      rw [hx]
      norm_num
      ring

/-- What holds for negative coordinates: with `f` the part after the whole degrees (rounded down), the place named is too far
west or south by `2 f`, up to a minute of arc; nearly two degrees at most. -/
theorem C100_negative_partial (x : ℝ) (hx : x < 0) :
    x - 2 * (x - ⌊x⌋) ≤ Sexagesimal.value (encodeCoordinate x) ∧
      Sexagesimal.value (encodeCoordinate x) < x - 2 * (x - ⌊x⌋) + 1 / 60 := by
  obtain ⟨f, s, m, rfl, h1, h2, -, h4⟩ := encode_value x
  rw [h4, if_neg (not_le.mpr hx)]
  constructor <;> linarith

/-- The exact condition: a coordinate is sent correctly if and only if it is a whole number of degrees, or is not negative and
a whole number of minutes. -/
theorem C100_exact_partial (x : ℝ) :
    Sexagesimal.value (encodeCoordinate x) = x ↔ (∃ n : ℤ, x = n) ∨ 0 ≤ x ∧ ∃ n : ℤ, 60 * x = n := by
  obtain ⟨f, s, m, hf, h1, h2, h3, h4⟩ := encode_value x
  rw [h4]
  by_cases h0 : 0 ≤ x
  · rw [if_pos h0]
    constructor
    · intro h
      have hs : s = 0 := by linarith
      refine .inr ⟨h0, 60 * ⌊x⌋ + m, ?_⟩
      push_cast
      rw [hs] at h3
      linarith
    · rintro (⟨n, rfl⟩ | ⟨-, n, hn⟩)
      · rw [Int.floor_intCast, sub_self] at hf
        have : s < 1 / 60 := h2
        have e : (m : ℝ) = -60 * s := by linarith
        have m1 : -1 < m := by have : (-1 : ℝ) < m := by linarith
                               exact_mod_cast this
        have m2 : m ≤ 0 := by have : (m : ℝ) ≤ 0 := by linarith
                              exact_mod_cast this
        have : m = 0 := by omega
        rw [this] at e
        norm_num at e
        rw [e]
        ring
      · have e : ((n - 60 * ⌊x⌋ - m : ℤ) : ℝ) = 60 * s := by
          push_cast
          linarith
        have m1 : 0 ≤ n - 60 * ⌊x⌋ - m := by have : (0 : ℝ) ≤ ((n - 60 * ⌊x⌋ - m : ℤ) : ℝ) := by rw [e]; linarith
                                             exact_mod_cast this
        have m2 : n - 60 * ⌊x⌋ - m < 1 := by have : ((n - 60 * ⌊x⌋ - m : ℤ) : ℝ) < 1 := by rw [e]; linarith
                                             exact_mod_cast this
        have : n - 60 * ⌊x⌋ - m = 0 := by omega
        rw [this] at e
        norm_num at e
        rw [e]
        ring
  · rw [if_neg h0]
    constructor
    · intro h
      have e : ((m : ℤ) : ℝ) = -60 * s * (3601 / 7200) := by linarith
      have m1 : -1 < m := by have : (-1 : ℝ) < m := by linarith
                             exact_mod_cast this
      have m2 : m ≤ 0 := by have : (m : ℝ) ≤ 0 := by linarith
                            exact_mod_cast this
      have hm : m = 0 := by omega
      rw [hm] at e h3
      norm_num at e h3
      refine .inl ⟨⌊x⌋, ?_⟩
      linarith
    · rintro (⟨n, rfl⟩ | ⟨hx, -⟩)
      · have := int_value n
        rw [h4, if_neg h0] at this
        exact this
      · exact absurd hx h0

example : Sexagesimal.value (encodeCoordinate 30.25) = 30.25 := (C100_exact_partial _).2 (.inr ⟨by norm_num, 1815, by norm_num⟩)

/-- C100 is false: longitude -0.5 is sent as 1 degree 30 minutes west. -/
theorem C100_refuted : ¬ C100Claim := by
  intro h
  have h := (h 0 (-0.5) 0 ⟨⟨2013, 1, 1, 0, 0, 0, 0⟩, false, none⟩).2
  have f1 : ⌊(-0.5 : ℝ) / 1⌋ = -1 := by rw [Int.floor_eq_iff]; norm_num
  have f2 : ⌊((-0.5 : ℝ) - 1 * ((-1 : ℤ) : ℝ)) / (1.0 / 60.0)⌋ = 30 := by rw [Int.floor_eq_iff]; norm_num
  have e : encodeCoordinate (-0.5) = ⟨-1, 1, 30, 0⟩ := by
    simp only [encodeCoordinate, divmod, f1, f2]
    norm_num
  simp only [EncodeRequest, e, Sexagesimal.value] at h
  norm_num at h

/-! ## C101 -/

/-- The reference for a place and time that agrees with pysolar: the azimuth, and the zenith distance, which is what
the service returns and the tool calls altitude. -/
def Agrees (tp : ℝ) (F : FloatText (mathB tp).α) (e : Ephemeris (mathB tp)) : Prop :=
  ∃ lat lon alt az : ℝ, F.float e.latitude = some (num lat) ∧ F.float e.longitude = some (num lon) ∧
    get_altitude (mathB tp) (num lat) (num lon) (.dt e.timestamp) e.elevation = .ok (num alt) ∧
    get_azimuth (mathB tp) (num lat) (num lon) (.dt e.timestamp) e.elevation = .ok (num az) ∧
    e.altitude = num (90 - alt) ∧ e.azimuth = num az

/-- C101, the full claim: a reference that agrees with pysolar is reported with zero errors. -/
def C101Claim (tp : ℝ) : Prop := ∀ (F : FloatText (mathB tp).α) (e : Ephemeris (mathB tp)) (c : Civil),
  UtcFields e.timestamp c → Agrees tp F e →
  ∃ r, ComparePysolarToUSNO (mathB tp) F e = .ok r ∧ r.alt_error = num 0 ∧ r.az_error = num 0

theorem pyAbs_eval {tp : ℝ} (x : ℝ) : pyAbs (mathB tp) (num x) = num |x| := by
  have e0 : ((0 : ℕ) : ℝ) = 0 := Nat.cast_zero
  simp only [pyAbs, m_ofNat, m_lt, m_neg, m_where, e0]
  split_ifs with h
  · rw [abs_of_neg h]
  · rw [abs_of_nonneg (not_lt.mp h)]

/-- What holds: the error in altitude is zero; the error in azimuth is the distance between the azimuth and its
mirror image in the east-west line. -/
theorem C101_errors_partial (tp : ℝ) (F : FloatText (mathB tp).α) (e : Ephemeris (mathB tp)) (h : Agrees tp F e) :
    ∃ r az, ComparePysolarToUSNO (mathB tp) F e = .ok r ∧ e.azimuth = num az ∧ r.alt_error = num 0 ∧
      r.az_error = num |mod360 (180 - az) - az| ∧ (r.az_error = num 0 → ∃ k : ℤ, az = 90 + 180 * k) := by
  obtain ⟨lat, lon, alt, az, h1, h2, h3, h4, h5, h6⟩ := h
  have e90 : ((90.0 : ℚ) : ℝ) = 90 := by norm_num
  have e1 : ((180.0 : (mathB tp).α) - num az) %. 360.0 = num (mod360 (180 - az)) := by
    have : ((360.0 : ℚ) : ℝ) = 360 := by norm_num
    simp only [m_sci, m_sub, m_modq, this]
    norm_num [mod360]
  have e2 : (90.0 : (mathB tp).α) - num alt = num (90 - alt) := by
    simp only [m_sci, m_sub]
    norm_num
  refine ⟨compareEphemerides (mathB tp) ⟨e.timestamp, e.latitude, e.longitude, e.elevation,
    ((180.0 : (mathB tp).α) - num az) %. 360.0, (90.0 : (mathB tp).α) - num alt⟩ e, az, ?_, h6, ?_⟩
  · unfold ComparePysolarToUSNO FloatText.parse
    rw [h1, h2]
    simp only [ok_bind, h3, h4, pure_eq_ok]
  · simp only [compareEphemerides]
    rw [e1, e2, h5, h6]
    simp only [m_sub, pyAbs_eval, sub_self, abs_zero, true_and]
    intro h0
    have h0 := abs_eq_zero.mp (num_injective h0)
    obtain ⟨k, hk⟩ := mod360_eq (180 - az)
    rw [hk] at h0
    refine ⟨-k, ?_⟩
    push_cast
    linarith

/-- Texts of two coordinates: `a` for the first, anything else for the second. -/
noncomputable def textOf (tp lat lon : ℝ) : FloatText (mathB tp).α :=
  ⟨fun _ => [], fun s => if s = ['a'] then some (num lat) else some (num lon)⟩

/-- At 80 degrees north, longitude 0, at 12:00 UTC on 15 June 2013 the sun is on the southern side. -/
theorem june_azimuth (tp : ℝ) : ∃ az, get_azimuth (mathB tp) (num 80) (num 0) (.dt (utcDT ⟨2013, 6, 15, 12, 0, 0, 0⟩)) (num 0)
    = .ok (num az) ∧ cos (rad az) ≠ 0 := by
  set c : Civil := ⟨2013, 6, 15, 12, 0, 0, 0⟩ with hc
  have hcv : c.Valid := civil_valid_of_check (by decide)
  have hu : UtcFields (utcDT c) c := utcDT_fields hcv
  refine ⟨_, azimuth_eval hu 80 0 0, ?_⟩
  have hdec := (solstice tp hcv (lat := 80) (lon := 0) (elev := 0) (by decide) (by decide) (by norm_num) (by norm_num)
    (by norm_num)).1 (by decide)
  have hH := (topo_small tp hcv (lat := 80) (lon := 0) (elev := 0) (by norm_num) (by norm_num) (by norm_num)).2
  obtain ⟨k, hk⟩ := hour_fast tp hcv (by decide) (by decide) 0
  obtain ⟨x, hx, x1, x2⟩ := C73_range tp (yday c.date)
  rw [eot_eval] at hx
  have hx := num_injective (Except.ok.inj hx)
  have ha : haF 0 c = x / 4 := by
    unfold haF solF
    rw [hx]
    simp only [hc]
    norm_num
    ring
  rw [ha] at hk
  have hdir := azimuth_direction tp 80 (topoH tp 80 0 0 c) (topoDec tp 80 0 0 c) (by norm_num at hdec ⊢; linarith)
    (by norm_num at hdec ⊢; linarith)
  intro h0
  have hy := congrArg Vec3.y hdir
  simp only [horizontal, sunENU, toHorizon, sph] at hy
  change cos (rad (mod360 (180 + deg (Complex.arg _)))) = 0 at h0
  rw [h0, mul_zero] at hy
  set H := topoH tp 80 0 0 c with hHd
  set dec := topoDec tp 80 0 0 c with hdd
  have hk := abs_le.mp hk
  have hH := abs_le.mp hH
  have c30 : cos (rad 30) = √3 / 2 := by rw [← cos_pi_div_six]; congr 1; unfold rad; ring
  have c60 : cos (rad 60) = 1 / 2 := by rw [← cos_pi_div_three]; congr 1; unfold rad; ring
  have cH : 1 / 2 ≤ cos (rad H) := by
    have e : H = (H - 360 * k) + 360 * k := by ring
    rw [e, cos_rad_add_turns, ← c60]
    have hb : |H - 360 * k| ≤ 60 := by
      rw [abs_le]
      norm_num at *
      constructor <;> linarith
    exact (cos_rad_le_iff (hb.trans (by norm_num)) (by norm_num) (by norm_num)).mpr hb
  have cd : √3 / 2 ≤ cos (rad dec) := by
    rw [← c30]
    have hb : |dec| ≤ 30 := by rw [abs_le]; norm_num at *; constructor <;> linarith
    exact (cos_rad_le_iff (hb.trans (by norm_num)) (by norm_num) (by norm_num)).mpr hb
  have s80 : √3 / 2 ≤ sin (rad 80) := by
    rw [show (80 : ℝ) = 90 - 10 by norm_num, rad_sub, rad_90, sin_pi_div_two_sub, ← c30]
    exact (cos_rad_le_iff (by norm_num [abs_of_pos]) (by norm_num) (by norm_num)).mpr (by norm_num [abs_of_pos])
  have c80 : cos (rad 80) ≤ 1 / 2 := by
    rw [← c60]
    exact (cos_rad_le_iff (by norm_num [abs_of_pos]) (by norm_num) (by norm_num)).mpr (by norm_num [abs_of_pos])
  have sd : sin (rad dec) ≤ 1 / 2 := by
    have s30 : sin (rad 30) = 1 / 2 := by rw [← sin_pi_div_six]; congr 1; unfold rad; ring
    rw [← s30]
    refine sin_le_sin_of_le_of_le_pi_div_two ?_ ?_ (rad_le_rad.mpr ?_)
    · rw [← rad_90, ← rad_neg, rad_le_rad]; norm_num at *; linarith
    · rw [← rad_90, rad_le_rad]; norm_num
    · norm_num at *; linarith
  have sd0 : 0 ≤ sin (rad dec) := (sin_rad_pos (by norm_num at *; linarith) (by norm_num at *; linarith)).le
  have h3 : √3 * √3 = 3 := mul_self_sqrt (by norm_num)
  have h30 : 0 ≤ √3 := sqrt_nonneg 3
  have p1 : 3 / 8 ≤ sin (rad 80) * (cos (rad dec) * cos (rad H)) := by
    have q : √3 / 4 ≤ cos (rad dec) * cos (rad H) := by
      have := mul_le_mul cd cH (by norm_num) (le_trans (by positivity) cd)
      linarith
    have := mul_le_mul s80 q (by positivity) (le_trans (by positivity) s80)
    nlinarith
  have p2 : cos (rad 80) * sin (rad dec) ≤ 1 / 4 := by
    have := mul_le_mul c80 sd sd0 (by norm_num)
    linarith
  nlinarith

/-- C101 is false: at 80 degrees north, longitude 0, at 12:00 UTC on 15 June 2013 the sun is neither in the east nor in
the west, and the error in azimuth reported for a perfect reference is not zero. -/
theorem C101_refuted (tp : ℝ) (htp : tp ≠ 0) : ¬ C101Claim tp := by
  intro hcl
  have hcv : (⟨2013, 6, 15, 12, 0, 0, 0⟩ : Civil).Valid := civil_valid_of_check (by decide)
  have hu := utcDT_fields hcv
  obtain ⟨az, haz, h0⟩ := june_azimuth tp
  obtain ⟨alt, halt, -⟩ := C90_polar_day tp htp _ _ hu (by decide) (by decide) 80 0 0 standard_temperature standard_pressure
    (by norm_num [standard_temperature]) (by norm_num [standard_pressure]) (by norm_num)
    (.inl ⟨by decide, by decide, by norm_num, by norm_num⟩)
  set e : Ephemeris (mathB tp) :=
    ⟨utcDT ⟨2013, 6, 15, 12, 0, 0, 0⟩, ['a'], ['b'], num 0, num az, num (90 - alt)⟩ with he
  have hag : Agrees tp (textOf tp 80 0) e :=
    ⟨80, 0, alt, az, by simp [textOf, he], by simp [textOf, he], halt, haz, rfl, rfl⟩
  obtain ⟨r, hr, -, hr0⟩ := hcl (textOf tp 80 0) e _ hu hag
  obtain ⟨r', az', hr', haz', -, -, hk⟩ := C101_errors_partial tp (textOf tp 80 0) e hag
  rw [hr] at hr'
  obtain rfl := Except.ok.inj hr'
  obtain ⟨k, hk⟩ := hk hr0
  have haz' : az = az' := num_injective haz'
  rw [haz', hk] at h0
  apply h0
  rw [cos_eq_zero_iff]
  refine ⟨k, ?_⟩
  unfold rad
  ring

/-! ## C102 -/

theorem splitSpace_no {s : Txt} (h : ' ' ∉ s) : splitSpace s = [s] := by
  induction s with
  | nil => rfl
  | cons c s ih =>
    simp only [List.mem_cons, not_or] at h
    rw [splitSpace, if_neg (Ne.symm h.1), ih h.2]

theorem splitSpace_app {w : Txt} (s : Txt) (h : ' ' ∉ w) : splitSpace (w ++ ' ' :: s) = w :: splitSpace s := by
  induction w with
  | nil => simp [splitSpace]
  | cons c w ih =>
    simp only [List.mem_cons, not_or] at h
    rw [List.cons_append, splitSpace, if_neg (Ne.symm h.1), ih h.2]

theorem digitChar_ne {n : ℕ} (h : n < 10) : Nat.digitChar n ≠ ' ' ∧ digitVal (Nat.digitChar n) = some n := by
  interval_cases n <;> decide

theorem pad_no_space (w n : ℕ) : ' ' ∉ pad w n := by
  unfold pad
  simp only [List.mem_map, not_exists, not_and]
  intro i _ h
  exact (digitChar_ne (Nat.mod_lt _ (by norm_num))).1 h

theorem pad_two (n : ℕ) : pad 2 n = [Nat.digitChar (n / 10 % 10), Nat.digitChar (n % 10)] := by
  simp [pad, List.range_succ]

theorem pad_four (n : ℕ) : pad 4 n = [Nat.digitChar (n / 1000 % 10), Nat.digitChar (n / 100 % 10),
    Nat.digitChar (n / 10 % 10), Nat.digitChar (n % 10)] := by
  simp [pad, List.range_succ]

theorem natVal_two {n : ℕ} (h : n < 100) : natVal [Nat.digitChar (n / 10 % 10), Nat.digitChar (n % 10)] = some n := by
  have h1 := (digitChar_ne (n := n / 10 % 10) (Nat.mod_lt _ (by norm_num))).2
  have h2 := (digitChar_ne (n := n % 10) (Nat.mod_lt _ (by norm_num))).2
  simp only [natVal, List.foldlM_cons, List.foldlM_nil, h1, h2, Option.map_some, Option.bind_eq_bind, Option.bind_some,
    Option.pure_def, Option.some.injEq]
  omega

theorem natVal_four {n : ℕ} (h : n < 10000) : natVal [Nat.digitChar (n / 1000 % 10), Nat.digitChar (n / 100 % 10),
    Nat.digitChar (n / 10 % 10), Nat.digitChar (n % 10)] = some n := by
  have h0 := (digitChar_ne (n := n / 1000 % 10) (Nat.mod_lt _ (by norm_num))).2
  have h3 := (digitChar_ne (n := n / 100 % 10) (Nat.mod_lt _ (by norm_num))).2
  have h1 := (digitChar_ne (n := n / 10 % 10) (Nat.mod_lt _ (by norm_num))).2
  have h2 := (digitChar_ne (n := n % 10) (Nat.mod_lt _ (by norm_num))).2
  simp only [natVal, List.foldlM_cons, List.foldlM_nil, h0, h1, h2, h3, Option.map_some, Option.bind_eq_bind,
    Option.bind_some, Option.pure_def, Option.some.injEq]
  omega

/-- Parsing inverts printing. -/
theorem strptime_str {d : DateTime} (hv : d.civil.Valid) (hm : d.civil.micro = 0) (hn : d.utcoffset = none) :
    strptime (strDate d.civil ++ ' ' :: strTime d) = .ok d.civil := by
  obtain ⟨⟨Y, M, D, h, m, s, u⟩, f, tz⟩ := d
  obtain ⟨y1, y2, ⟨m1, m2, d1, d2⟩, h1, h2, mi1, mi2, s1, s2, -, -⟩ := hv
  simp only at y1 y2 m1 m2 d1 d2 h1 h2 mi1 mi2 s1 s2 hm
  subst hm
  have d3 : D ≤ 31 := d2.trans (by unfold daysInMonth daysInMonthTable; split_ifs <;> norm_num)
  obtain ⟨Y, rfl⟩ := Int.eq_ofNat_of_zero_le (by omega : 0 ≤ Y)
  obtain ⟨M, rfl⟩ := Int.eq_ofNat_of_zero_le (by omega : 0 ≤ M)
  obtain ⟨D, rfl⟩ := Int.eq_ofNat_of_zero_le (by omega : 0 ≤ D)
  obtain ⟨h, rfl⟩ := Int.eq_ofNat_of_zero_le h1
  obtain ⟨m, rfl⟩ := Int.eq_ofNat_of_zero_le mi1
  obtain ⟨s, rfl⟩ := Int.eq_ofNat_of_zero_le s1
  simp only [strDate, strTime, hn, if_true, List.append_nil, Int.toNat_natCast, pad_two, pad_four, List.cons_append,
    List.nil_append]
  unfold strptime
  simp only [List.length_cons, List.length_nil, List.getElem?_cons_succ, List.getElem?_cons_zero, List.drop_zero,
    List.take_succ_cons, List.take_zero, List.drop_succ_cons, and_self, if_true,
    natVal_four (by omega : Y < 10000), natVal_two (by omega : M < 100), natVal_two (by omega : D < 100),
    natVal_two (by omega : h < 100), natVal_two (by omega : m < 100), natVal_two (by omega : s < 100)]
  rw [if_pos (by refine ⟨?_, ?_, ?_, ?_, d2, ?_, ?_, ?_⟩ <;> omega)]

theorem mem_digits_ne {n : ℕ} {c : Char} (hc : digitVal c = none) (w : ℕ) : c ∉ pad w n := by
  unfold pad
  simp only [List.mem_map, not_exists, not_and]
  rintro i _ rfl
  have := (digitChar_ne (n := n / 10 ^ i % 10) (Nat.mod_lt _ (by norm_num))).2
  rw [this] at hc
  simp at hc

theorem strDate_no_space (c : Civil) : ' ' ∉ strDate c := by
  simp [strDate, pad_no_space]

theorem strTime_no_space (d : DateTime) : ' ' ∉ strTime d := by
  unfold strTime
  cases d.utcoffset with
  | none => split_ifs <;> simp [pad_no_space]
  | some o =>
    have : ' ' ≠ if o < 0 then '-' else '+' := by split_ifs <;> decide
    unfold strOffset
    split_ifs <;> simp [pad_no_space, this]

/-- The laws for the numbers of an entry. -/
def Faithful {B : Backend} (F : FloatText B.α) (e : Ephemeris B) : Prop :=
  F.Faithful e.elevation ∧ F.Faithful e.azimuth ∧ F.Faithful e.altitude

theorem logLine_split (B : Backend) (F : FloatText B.α) (e : Ephemeris B) (hF : Faithful F e) (h1 : ' ' ∉ e.latitude)
    (h2 : ' ' ∉ e.longitude) :
    splitSpace (logLine B F e) = [strDate e.timestamp.civil, strTime e.timestamp, e.latitude, e.longitude,
      F.str e.elevation, F.str e.azimuth, F.str e.altitude ++ ['\n']] := by
  unfold logLine strDateTime
  rw [List.append_assoc, List.cons_append, splitSpace_app _ (strDate_no_space _), splitSpace_app _ (strTime_no_space _),
    splitSpace_app _ h1, splitSpace_app _ h2, splitSpace_app _ hF.1.no_space, splitSpace_app _ hF.2.1.no_space,
    splitSpace_no]
  simp [hF.2.2.no_space]

/-- Reading a line that was written. -/
theorem readLine_logLine (B : Backend) (F : FloatText B.α) (e : Ephemeris B) (hF : Faithful F e) (h1 : ' ' ∉ e.latitude)
    (h2 : ' ' ∉ e.longitude) :
    readLine B F (logLine B F e)
      = (strptime (strDate e.timestamp.civil ++ ' ' :: strTime e.timestamp)).map fun c =>
        { e with timestamp := ⟨c, false, some utcTz⟩ } := by
  unfold readLine
  rw [logLine_split B F e hF h1 h2]
  simp only [pyIndex, List.getElem?_cons_zero, List.getElem?_cons_succ, ok_bind]
  cases strptime (strDate e.timestamp.civil ++ ' ' :: strTime e.timestamp) with
  | error x => rfl
  | ok c =>
    simp only [ok_bind, FloatText.parse, hF.1.float_str, hF.2.1.float_str, hF.2.2.float_newline]
    rfl

/-- C102, the full claim: an ephemeris read from a log can be appended to the log, and read again. -/
def C102Claim (B : Backend) (F : FloatText B.α) : Prop :=
  ∀ (log : List Txt) (data : List (Ephemeris B)), ReadEphemeridesLog B F log = .ok data →
    ∀ e ∈ data, ReadEphemeridesLog B F (WriteEphemerisDatumToFile B F e log) = .ok (data ++ [e])

/-- What holds: writing an ephemeris with a naive timestamp in whole seconds (as the tool creates them) and reading the
log gives the previous entries and this one, with the time taken as UTC. -/
theorem C102_round_trip_partial (B : Backend) (F : FloatText B.α) (log : List Txt) (data : List (Ephemeris B))
    (hl : ReadEphemeridesLog B F log = .ok data) (e : Ephemeris B) (hF : Faithful F e) (h1 : ' ' ∉ e.latitude) (h2 : ' ' ∉ e.longitude)
    (hv : e.timestamp.civil.Valid) (hm : e.timestamp.civil.micro = 0) (hn : e.timestamp.tz = none) :
    ReadEphemeridesLog B F (WriteEphemerisDatumToFile B F e log)
      = .ok (data ++ [{ e with timestamp := utcDT e.timestamp.civil }]) := by
  unfold ReadEphemeridesLog WriteEphemerisDatumToFile at *
  have hn' : e.timestamp.utcoffset = none := by unfold DateTime.utcoffset; rw [hn]
  rw [List.mapM_append, hl]
  simp only [List.mapM_cons, List.mapM_nil, readLine_logLine B F e hF h1 h2, strptime_str hv hm hn', ok_bind]
  rfl

theorem strTime_length {d : DateTime} (h : d.civil.micro ≠ 0 ∨ d.utcoffset ≠ none) : 8 < (strTime d).length := by
  have hp : ∀ w n, (pad w n).length = w := fun w n => by simp [pad]
  unfold strTime
  rcases h with h | h
  · rw [if_neg h]
    simp [hp]
    omega
  · obtain ⟨o, ho⟩ := Option.ne_none_iff_exists'.mp h
    rw [ho]
    simp [hp, strOffset]
    omega

/-- What does not: a timestamp with a UTC offset, or with microseconds, is written so that the log can no longer be
read (ValueError). -/
theorem C102_value_error_partial (B : Backend) (F : FloatText B.α) (log : List Txt)
    (data : List (Ephemeris B)) (hl : ReadEphemeridesLog B F log = .ok data) (e : Ephemeris B) (hF : Faithful F e) (h1 : ' ' ∉ e.latitude)
    (h2 : ' ' ∉ e.longitude) (hm : e.timestamp.civil.micro ≠ 0 ∨ e.timestamp.utcoffset ≠ none) :
    ReadEphemeridesLog B F (WriteEphemerisDatumToFile B F e log) = .error .valueError := by
  unfold ReadEphemeridesLog WriteEphemerisDatumToFile at *
  have hp : ∀ w n, (pad w n).length = w := fun w n => by simp [pad]
  have hs : strptime (strDate e.timestamp.civil ++ ' ' :: strTime e.timestamp) = .error .valueError := by
    unfold strptime
    rw [if_neg]
    rintro ⟨h, -⟩
    have := strTime_length hm
    simp [strDate, hp] at h
    omega
  rw [List.mapM_append, hl]
  simp only [List.mapM_cons, readLine_logLine B F e hF h1 h2, hs, ok_bind]
  rfl

/-- C102 is false for every log with an entry whose coordinates are written without a space: what was read carries the
time zone UTC, which cannot be read back. -/
theorem C102_refuted (B : Backend) (F : FloatText B.α) (x : B.α) (hx : F.Faithful x) : ¬ C102Claim B F := by
  intro hcl
  have n1 : ' ' ∉ ['1'] := by decide
  have n2 : ' ' ∉ ['2'] := by decide
  have hv : Civil.Valid ⟨2013, 6, 15, 12, 0, 0, 0⟩ := civil_valid_of_check (by decide)
  have h := C102_round_trip_partial B F [] [] rfl
    ⟨⟨⟨2013, 6, 15, 12, 0, 0, 0⟩, false, none⟩, ['1'], ['2'], x, x, x⟩ ⟨hx, hx, hx⟩ n1 n2 hv rfl rfl
  have h2 := hcl _ _ h _ (List.mem_append_right _ (List.mem_singleton.mpr rfl))
  rw [C102_value_error_partial B F _ _ h _ ⟨hx, hx, hx⟩ n1 n2 (.inr (by simp [utcDT, DateTime.utcoffset, utcTz]))] at h2
  cases h2

/-- Natural numbers written in unary. -/
noncomputable def unary (tp : ℝ) : FloatText (mathB tp).α where
  str x := open Classical in if h : ∃ n : ℕ, x = num n then List.replicate h.choose '1' else ['?']
  float s := some (num (s.count '1'))

/-- The laws of `str` and `float` can be met. -/
theorem unary_faithful (tp : ℝ) (n : ℕ) : (unary tp).Faithful (num n) := by
  classical
  have h : ∃ m : ℕ, (num (tp := tp) n) = num m := ⟨n, rfl⟩
  have e : (unary tp).str (num n) = List.replicate n '1' := by
    simp only [unary]
    rw [dif_pos h, ← Nat.cast_injective (num_injective h.choose_spec)]
  refine ⟨?_, ?_, ?_⟩
  · rw [e]; simp [unary]
  · rw [e]; simp [unary]
  · rw [e]
    intro hm
    exact absurd (List.eq_of_mem_replicate hm) (by decide)

end Verif.Props
