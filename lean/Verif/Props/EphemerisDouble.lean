import Verif.Props.RestFraction
import Verif.Proofs.Position

/-!
# C173: the ephemeris day in double precision

In real arithmetic the Julian ephemeris day is strictly increasing in the instant (C12). A double near 2451545 resolves 40
microseconds, so two instants a microsecond apart may have the same ephemeris day; but time never runs backward, and instants at
least a millisecond apart are told apart, in every year from 1 to 9999.
-/

namespace Verif.Props

open Verif Verif.Spec Pysolar Pysolar.Solartime Chain

/-- Seconds of terrestrial time. -/
noncomputable def tt64 (t : ℝ) (l : ℤ) : ℝ := b64 (b64 (b64 t + b64 ((l : ℚ) : ℝ)) + b64 ((tt_offset : ℚ) : ℝ))

/-- Days. -/
noncomputable def day64 (t : ℝ) (l : ℤ) : ℝ := b64 (b64 (tt64 t l / b64 ((seconds_per_day : ℚ) : ℝ)) + b64 ((gregorian_day_offset : ℚ) : ℝ))

/-- The ephemeris day as computed. -/
noncomputable def jde64 (t : ℝ) (l : ℤ) : ℝ := b64 (day64 t l + b64 ((julian_day_offset : ℚ) : ℝ))

theorem spd64 : b64 ((seconds_per_day : ℚ) : ℝ) = 86400 := by
  have := b64_int 86400 (by norm_num)
  push_cast at this
  rw [show ((seconds_per_day : ℚ) : ℝ) = 86400 by norm_num [seconds_per_day]]
  exact this

theorem gdo64 : b64 ((gregorian_day_offset : ℚ) : ℝ) = 719163 := by
  have := b64_int 719163 (by norm_num)
  push_cast at this
  rw [show ((gregorian_day_offset : ℚ) : ℝ) = 719163 by norm_num [gregorian_day_offset]]
  exact this

theorem jdo64 : b64 ((julian_day_offset : ℚ) : ℝ) = 1721424.5 := by
  have := b64_near (x := 1721424.5) (3442849 * 2 ^ 31) 32 (by norm_num) (by norm_num) (by norm_num) (by norm_num)
  rw [show ((julian_day_offset : ℚ) : ℝ) = 1721424.5 by norm_num [julian_day_offset], this]
  norm_num

theorem ls64 {l : ℤ} (h0 : 0 ≤ l) (h1 : l ≤ 100) : b64 ((l : ℚ) : ℝ) = l := by
  rw [show ((l : ℚ) : ℝ) = (l : ℝ) by push_cast; rfl]
  exact b64_int l (by rw [abs_of_nonneg h0]; linarith)

theorem jde64_mono {t t' : ℝ} {l l' : ℤ} (ht : t ≤ t') (hl : l ≤ l') : jde64 t l ≤ jde64 t' l' := by
  have hl' : ((l : ℚ) : ℝ) ≤ ((l' : ℚ) : ℝ) := by exact_mod_cast hl
  refine b64_mono (add_le_add (b64_mono (add_le_add (b64_mono ?_) le_rfl)) le_rfl)
  rw [spd64]
  exact div_le_div_of_nonneg_right (b64_mono (add_le_add (b64_mono (add_le_add (b64_mono ht) (b64_mono hl'))) le_rfl)) (by norm_num)

/-- Rounding of a number of known size. -/
theorem size64 {x m : ℝ} (h : |x| ≤ m) : |b64 x - x| ≤ m / 2 ^ 53 + 1 / 2 ^ 60 := by
  have := b64_err x
  have t : (1 : ℝ) / 2 ^ 1075 ≤ 1 / 2 ^ 60 := one_div_le_one_div_of_le (by positivity) (pow_le_pow_right₀ (by norm_num) (by norm_num))
  generalize (1 : ℝ) / 2 ^ 1075 = u at *
  norm_num at *
  linarith

/-- The computed day is within 3e-9 days of the exact one. -/
theorem jde64_err {t : ℝ} {l : ℤ} (ht : |t| ≤ 3 * 10 ^ 11) (l0 : 0 ≤ l) (l1 : l ≤ 100) :
    |jde64 t l - ((t + l + 32.184) / 86400 + 719163 + 1721424.5)| ≤ 4 / 10 ^ 9 ∧
    |b64 t + l| ≤ 4 * 10 ^ 11 ∧ |b64 (b64 t + l) + b64 ((tt_offset : ℚ) : ℝ)| ≤ 4 * 10 ^ 11 ∧ |tt64 t l / 86400| ≤ 4 * 10 ^ 6 ∧
    |b64 (tt64 t l / 86400) + 719163| ≤ 5 * 10 ^ 6 ∧ |day64 t l + 1721424.5| ≤ 7 * 10 ^ 6 := by
  have l0' : (0 : ℝ) ≤ l := by exact_mod_cast l0
  have l1' : (l : ℝ) ≤ 100 := by exact_mod_cast l1
  have d : tt64 t l = b64 (b64 (b64 t + l) + b64 ((tt_offset : ℚ) : ℝ)) := by unfold tt64; rw [ls64 l0 l1]
  have d2 : day64 t l = b64 (b64 (tt64 t l / 86400) + 719163) := by unfold day64; rw [spd64, gdo64]
  have d3 : jde64 t l = b64 (day64 t l + 1721424.5) := by unfold jde64; rw [jdo64]
  generalize (l : ℝ) = x at *
  generalize jde64 t l = j at *
  generalize day64 t l = y at *
  generalize tt64 t l = z at *
  have o := abs_le.1 (size64 (x := ((tt_offset : ℚ) : ℝ)) (m := 40) (by norm_num [tt_offset]))
  have e1 := abs_le.1 (size64 ht)
  have ht' := abs_le.1 ht
  have b1 : |b64 t + x| ≤ 4 * 10 ^ 11 := by rw [abs_le]; constructor <;> norm_num at * <;> linarith
  have e2 := abs_le.1 (size64 b1)
  have b2 : |b64 (b64 t + x) + b64 ((tt_offset : ℚ) : ℝ)| ≤ 4 * 10 ^ 11 := by
    rw [abs_le]; constructor <;> norm_num [tt_offset] at * <;> linarith
  have e3 := abs_le.1 (size64 b2)
  rw [← d] at e3
  have b3 : |z / 86400| ≤ 4 * 10 ^ 6 := by
    rw [abs_le]; constructor <;> norm_num [tt_offset] at * <;> linarith
  have e4 := abs_le.1 (size64 b3)
  have b4 : |b64 (z / 86400) + 719163| ≤ 5 * 10 ^ 6 := by
    rw [abs_le]; constructor <;> norm_num [tt_offset] at * <;> linarith
  have e5 := abs_le.1 (size64 b4)
  rw [← d2] at e5
  have b5 : |y + 1721424.5| ≤ 7 * 10 ^ 6 := by
    rw [abs_le]; constructor <;> norm_num [tt_offset] at * <;> linarith
  have e6 := abs_le.1 (size64 b5)
  rw [← d3] at e6
  refine ⟨?_, b1, b2, b3, b4, b5⟩
  rw [abs_le]
  constructor <;> norm_num [tt_offset] at * <;> linarith

/-- Seconds since 1970 of a UTC time. -/
noncomputable def secondsOf (c : Civil) : ℝ := ((((c.micros - epochMicros : ℤ) : ℚ) / 1000000 : ℚ) : ℝ)

theorem seconds_range {c : Civil} (h : c.Valid) : |secondsOf c| ≤ 3 * 10 ^ 11 := by
  obtain ⟨h1, h2⟩ := micros_bounds h
  have a : ((86400000000 : ℤ) : ℝ) ≤ (c.micros : ℝ) := by exact_mod_cast h1
  have b : (c.micros : ℝ) ≤ ((3652060 * 86400000000 : ℤ) : ℝ) := by exact_mod_cast h2.le
  unfold secondsOf epochMicros
  push_cast at *
  rw [abs_le]
  constructor <;> norm_num [usPerDay] at * <;> linarith

/-- What the code computes, with `math` and with numpy. -/
theorem ephemeris64 (d : DateTime) (c : Civil) (h : UtcFields d c) :
    get_julian_ephemeris_day (rndB binary64) (.dt d) = .ok (V.fin (jde64 (secondsOf c) (taiMinusUtc c.year c.month))) ∧
    get_julian_ephemeris_day (nprB binary64) (.dt d) = .ok (V.fin (jde64 (secondsOf c) (taiMinusUtc c.year c.month))) := by
  obtain ⟨l0, l1⟩ := taiMinusUtc_bounds c.year c.month
  obtain ⟨-, b1, b2, b3, b4, b5⟩ := jde64_err (seconds_range h.1) (show 0 ≤ taiMinusUtc c.year c.month by omega) (by omega)
  have hl := ls64 (show 0 ≤ taiMinusUtc c.year c.month by omega) (by omega)
  have e1 : V.rnd binary64 (V.add (.fin (b64 (secondsOf c))) (.fin (b64 ((taiMinusUtc c.year c.month : ℚ) : ℝ))))
      = V.fin (b64 (b64 (secondsOf c) + b64 ((taiMinusUtc c.year c.month : ℚ) : ℝ))) := by
    refine vrnd64 (z := b64 (secondsOf c) + b64 ((taiMinusUtc c.year c.month : ℚ) : ℝ)) ?_ rfl
    rw [hl]
    exact b1.trans (by norm_num)
  have e2 : V.rnd binary64 (V.add (.fin (b64 (b64 (secondsOf c) + b64 ((taiMinusUtc c.year c.month : ℚ) : ℝ)))) (.fin (b64 ((tt_offset : ℚ) : ℝ))))
      = V.fin (tt64 (secondsOf c) (taiMinusUtc c.year c.month)) := by
    refine vrnd64 (z := b64 (b64 (secondsOf c) + b64 ((taiMinusUtc c.year c.month : ℚ) : ℝ)) + b64 ((tt_offset : ℚ) : ℝ)) ?_ rfl
    rw [hl]
    exact b2.trans (by norm_num)
  have e3 : V.rnd binary64 (V.divNZ (.fin (tt64 (secondsOf c) (taiMinusUtc c.year c.month))) (.fin (b64 ((seconds_per_day : ℚ) : ℝ))))
      = V.fin (b64 (tt64 (secondsOf c) (taiMinusUtc c.year c.month) / b64 ((seconds_per_day : ℚ) : ℝ))) := by
    refine vrnd64 (z := _ / _) ?_ rfl
    rw [spd64]
    exact b3.trans (by norm_num)
  have e4 : V.rnd binary64 (V.add (.fin (b64 (tt64 (secondsOf c) (taiMinusUtc c.year c.month) / b64 ((seconds_per_day : ℚ) : ℝ))))
      (.fin (b64 ((gregorian_day_offset : ℚ) : ℝ)))) = V.fin (day64 (secondsOf c) (taiMinusUtc c.year c.month)) := by
    refine vrnd64 (z := _ + _) ?_ rfl
    rw [spd64, gdo64]
    exact b4.trans (by norm_num)
  have e5 : V.rnd binary64 (V.add (.fin (day64 (secondsOf c) (taiMinusUtc c.year c.month))) (.fin (b64 ((julian_day_offset : ℚ) : ℝ))))
      = V.fin (jde64 (secondsOf c) (taiMinusUtc c.year c.month)) := by
    refine vrnd64 (z := _ + _) ?_ rfl
    rw [jdo64]
    exact b5.trans (by norm_num)
  rw [← e4, ← e3, ← e2, ← e1] at e5
  unfold get_julian_ephemeris_day
  rw [guard_denotes h.2, guard_denotes h.2, ok_bind, ok_bind, timestamp_dt, timestamp_dt, timestamp_of_denotes h.2, ok_bind, ok_bind,
    get_leap_seconds_eq h, get_leap_seconds_eq h, ok_bind, ok_bind]
  exact ⟨congrArg Except.ok e5, congrArg Except.ok e5⟩

/-- C173, the claim: of two different instants the later has the greater ephemeris day. -/
def C173_claim : Prop := ∀ (d d' : DateTime) (c c' : Civil), UtcFields d c → UtcFields d' c' → c.micros < c'.micros →
  ∃ x x' : ℝ, get_julian_ephemeris_day (rndB binary64) (.dt d) = .ok (V.fin x) ∧
    get_julian_ephemeris_day (rndB binary64) (.dt d') = .ok (V.fin x') ∧ x < x'

/-- C173, what holds of all instants: time never runs backward; and after a millisecond it has advanced. -/
theorem C173_advances_partial (d d' : DateTime) (c c' : Civil) (h : UtcFields d c) (h' : UtcFields d' c') (hle : c.micros ≤ c'.micros) :
    ∃ x x' : ℝ, get_julian_ephemeris_day (rndB binary64) (.dt d) = .ok (V.fin x) ∧
      get_julian_ephemeris_day (rndB binary64) (.dt d') = .ok (V.fin x') ∧
      get_julian_ephemeris_day (nprB binary64) (.dt d) = .ok (V.fin x) ∧
      get_julian_ephemeris_day (nprB binary64) (.dt d') = .ok (V.fin x') ∧
      x ≤ x' ∧ (c.micros + 1000 ≤ c'.micros → x < x') := by
  have a := h.1.2.2.1
  have b := h'.1.2.2.1
  have hm := taiMinusUtc_mono a.1 a.2.1 b.1 b.2.1 (monthIndex_le_of_micros_le h.1.2.2 h'.1.2.2 hle)
  simp only at hm
  have ht : secondsOf c ≤ secondsOf c' := by
    have : (c.micros : ℝ) ≤ c'.micros := by exact_mod_cast hle
    unfold secondsOf
    push_cast
    linarith
  refine ⟨_, _, (ephemeris64 d c h).1, (ephemeris64 d' c' h').1, (ephemeris64 d c h).2, (ephemeris64 d' c' h').2, jde64_mono ht hm,
    fun hg => ?_⟩
  obtain ⟨l0, l1⟩ := taiMinusUtc_bounds c.year c.month
  obtain ⟨l0', l1'⟩ := taiMinusUtc_bounds c'.year c'.month
  have e := abs_le.1 (jde64_err (seconds_range h.1) (show 0 ≤ taiMinusUtc c.year c.month by omega) (by omega)).1
  have e' := abs_le.1 (jde64_err (seconds_range h'.1) (show 0 ≤ taiMinusUtc c'.year c'.month by omega) (by omega)).1
  have hm' : (taiMinusUtc c.year c.month : ℝ) ≤ taiMinusUtc c'.year c'.month := by exact_mod_cast hm
  have hs : secondsOf c + 1 / 1000 ≤ secondsOf c' := by
    have : (c.micros : ℝ) + 1000 ≤ c'.micros := by exact_mod_cast hg
    unfold secondsOf
    push_cast
    linarith
  generalize (taiMinusUtc c.year c.month : ℝ) = u at *
  generalize (taiMinusUtc c'.year c'.month : ℝ) = u' at *
  generalize jde64 (secondsOf c) _ = y at *
  generalize jde64 (secondsOf c') _ = y' at *
  norm_num at *
  linarith

/-- Noon of 2000-01-01, and a microsecond later. -/
def noon0 : Civil := ⟨2000, 1, 1, 12, 0, 0, 0⟩
def noon1 : Civil := ⟨2000, 1, 1, 12, 0, 0, 1⟩

theorem noon_valid : noon0.Valid ∧ noon1.Valid := ⟨civil_valid_of_check rfl, civil_valid_of_check rfl⟩

theorem tt_offset64 : b64 ((tt_offset : ℚ) : ℝ) = 4529495325227876 / 2 ^ 47 := by
  have := b64_near (x := 32.184) 4529495325227876 47 (by norm_num) (by norm_num) (by norm_num) (by rw [abs_lt]; constructor <;> norm_num)
  rw [show ((tt_offset : ℚ) : ℝ) = 32.184 by norm_num [tt_offset], this]
  norm_num

theorem noon_equal : jde64 946728000 32 = jde64 946728000.000001 32 := by
  have a1 := b64_near (x := 946728000) 7941730074624000 23 (by norm_num) (by norm_num) (by norm_num) (by rw [abs_lt]; constructor <;> norm_num)
  have b1 := b64_near (x := 946728000.000001) 7941730074624008 23 (by norm_num) (by norm_num) (by norm_num) (by rw [abs_lt]; constructor <;> norm_num)
  have a2 := b64_near (x := ((7941730074624000 : ℤ) : ℝ) / 2 ^ 23 + (32 : ℤ)) 7941730343059456 23 (by norm_num) (by norm_num) (by norm_num) (by rw [abs_lt]; constructor <;> norm_num)
  have b2 := b64_near (x := ((7941730074624008 : ℤ) : ℝ) / 2 ^ 23 + (32 : ℤ)) 7941730343059464 23 (by norm_num) (by norm_num) (by norm_num) (by rw [abs_lt]; constructor <;> norm_num)
  have a3 := b64_near (x := ((7941730343059456 : ℤ) : ℝ) / 2 ^ 23 + 4529495325227876 / 2 ^ 47) 7941730613038416 23 (by norm_num) (by norm_num) (by norm_num) (by rw [abs_lt]; constructor <;> norm_num)
  have b3 := b64_near (x := ((7941730343059464 : ℤ) : ℝ) / 2 ^ 23 + 4529495325227876 / 2 ^ 47) 7941730613038424 23 (by norm_num) (by norm_num) (by norm_num) (by rw [abs_lt]; constructor <;> norm_num)
  have a4 := b64_near (x := ((7941730613038416 : ℤ) : ℝ) / 2 ^ 23 / 86400) 6023949739075065 39 (by norm_num) (by norm_num) (by norm_num) (by rw [abs_lt]; constructor <;> norm_num)
  have b4 := b64_near (x := ((7941730613038424 : ℤ) : ℝ) / 2 ^ 23 / 86400) 6023949739075071 39 (by norm_num) (by norm_num) (by norm_num) (by rw [abs_lt]; constructor <;> norm_num)
  have a5 := b64_near (x := ((6023949739075065 : ℤ) : ℝ) / 2 ^ 39 + 719163) 6271687345659544 33 (by norm_num) (by norm_num) (by norm_num) (by rw [abs_lt]; constructor <;> norm_num)
  have b5 := b64_near (x := ((6023949739075071 : ℤ) : ℝ) / 2 ^ 39 + 719163) 6271687345659544 33 (by norm_num) (by norm_num) (by norm_num) (by rw [abs_lt]; constructor <;> norm_num)
  unfold jde64 day64 tt64
  rw [ls64 (by norm_num) (by norm_num), tt_offset64, spd64, gdo64, a1, b1, a2, b2, a3, b3, a4, b4, a5, b5]

/-- C173 is false: at noon of 2000-01-01 and a microsecond later the ephemeris day is the same. -/
theorem C173_refuted : ¬C173_claim := by
  intro hc
  obtain ⟨x, x', h, h', hlt⟩ := hc (utcDT noon0) (utcDT noon1) noon0 noon1 (utcDT_fields noon_valid.1) (utcDT_fields noon_valid.2) (by decide)
  rw [(ephemeris64 _ _ (utcDT_fields noon_valid.1)).1] at h
  rw [(ephemeris64 _ _ (utcDT_fields noon_valid.2)).1] at h'
  have s0 : secondsOf noon0 = 946728000 := by
    unfold secondsOf
    rw [show noon0.micros - epochMicros = 946728000000000 by decide]
    norm_num
  have s1 : secondsOf noon1 = 946728000.000001 := by
    unfold secondsOf
    rw [show noon1.micros - epochMicros = 946728000000001 by decide]
    norm_num
  have t0 : taiMinusUtc noon0.year noon0.month = 32 := by decide
  have t1 : taiMinusUtc noon1.year noon1.month = 32 := by decide
  rw [s0, t0] at h
  rw [s1, t1, ← noon_equal] at h'
  injection h with h
  injection h with h
  injection h' with h'
  injection h' with h'
  linarith

/-- The hypotheses of the partial theorem hold of these two instants. -/
example : ∃ x x' : ℝ, get_julian_ephemeris_day (rndB binary64) (.dt (utcDT noon0)) = .ok (V.fin x) ∧
    get_julian_ephemeris_day (rndB binary64) (.dt (utcDT noon1)) = .ok (V.fin x') ∧ x ≤ x' := by
  obtain ⟨x, x', h, h', -, -, hle, -⟩ := C173_advances_partial (utcDT noon0) (utcDT noon1) noon0 noon1 (utcDT_fields noon_valid.1)
    (utcDT_fields noon_valid.2) (by decide)
  exact ⟨x, x', h, h', hle⟩

end Verif.Props
