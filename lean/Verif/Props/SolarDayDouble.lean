import Verif.Props.EphemerisDouble
import Verif.Proofs.FloatPos

/-!
# C174: the UT Julian day runs backward when delta-T changes

`get_delta_t` returns one value for each month. When the value rises, at the first instant of a month, the Julian day computed from it
falls; within a month, and after any full second (C13), it has advanced. The same in double precision.
-/

namespace Verif.Props

open Verif Verif.Spec Pysolar Pysolar.Solartime Chain

/-- C174, the claim: of two different instants the later has the greater UT Julian day. -/
def C174_claim (tp : ℝ) : Prop := ∀ (d d' : DateTime) (c c' : Civil), UtcFields d c → UtcFields d' c' → c.micros < c'.micros →
  ∃ x x' : ℝ, get_julian_solar_day (mathB tp) (.dt d) = .ok (num x) ∧ get_julian_solar_day (mathB tp) (.dt d') = .ok (num x') ∧ x < x'

/-- The same in double precision, and less: it does not decrease. -/
def C174_claim_double : Prop := ∀ (d d' : DateTime) (c c' : Civil), UtcFields d c → UtcFields d' c' → c.micros < c'.micros →
  ∃ x x' : ℝ, get_julian_solar_day (rndB binary64) (.dt d) = .ok (V.fin x) ∧
    get_julian_solar_day (rndB binary64) (.dt d') = .ok (V.fin x') ∧ x ≤ x'

/-- The last microsecond of January 1993, and the first of February. -/
def jan93 : Civil := ⟨1993, 1, 31, 23, 59, 59, 999999⟩
def feb93 : Civil := ⟨1993, 2, 1, 0, 0, 0, 0⟩

theorem month_end_valid : jan93.Valid ∧ feb93.Valid := ⟨civil_valid_of_check rfl, civil_valid_of_check rfl⟩

theorem month_end_values : jan93.micros + 1 = feb93.micros ∧ taiMinusUtc jan93.year jan93.month = 27 ∧ taiMinusUtc feb93.year feb93.month = 27 ∧
    dtVal jan93.year jan93.month = 59.1218 ∧ dtVal feb93.year feb93.month = 59.2003 := by
  refine ⟨by decide, by decide, by decide, ?_, ?_⟩ <;> decide +kernel

theorem backward : jdOf feb93 < jdOf jan93 - 0.0784 / 86400 := by
  obtain ⟨hm, t0, t1, v0, v1⟩ := month_end_values
  have hm' : (jan93.micros : ℝ) + 1 = feb93.micros := by exact_mod_cast hm
  unfold jdOf
  rw [t0, t1, v0, v1]
  push_cast
  rw [← hm']
  norm_num
  linarith

/-- C174 is false: at the end of January 1993 the UT Julian day falls by more than 0.078 seconds. -/
theorem C174_refuted (tp : ℝ) : ¬C174_claim tp := by
  intro hc
  obtain ⟨hm, -⟩ := month_end_values
  obtain ⟨x, x', h, h', hlt⟩ := hc (utcDT jan93) (utcDT feb93) jan93 feb93 (utcDT_fields month_end_valid.1) (utcDT_fields month_end_valid.2)
    (by omega)
  have e : jdOf jan93 = x := num_injective (Except.ok.inj ((jd_eq (utcDT_fields month_end_valid.1)).symm.trans h))
  have e' : jdOf feb93 = x' := num_injective (Except.ok.inj ((jd_eq (utcDT_fields month_end_valid.2)).symm.trans h'))
  have := backward
  rw [e, e'] at this
  norm_num at this
  linarith

/-- C174, what holds: within a month the UT Julian day advances exactly with the clock. -/
theorem C174_same_month_partial (tp : ℝ) (d d' : DateTime) (c c' : Civil) (h : UtcFields d c) (h' : UtcFields d' c')
    (hy : c.year = c'.year) (hm : c.month = c'.month) :
    ∃ x x' : ℝ, get_julian_solar_day (mathB tp) (.dt d) = .ok (num x) ∧ get_julian_solar_day (mathB tp) (.dt d') = .ok (num x') ∧
      (x' - x) * 86400000000 = (c'.micros - c.micros : ℤ) := by
  refine ⟨_, _, jd_eq h, jd_eq h', ?_⟩
  rw [hy, hm]
  push_cast
  ring

/-- After a second the UT Julian day has advanced by more than 0.8 seconds. -/
theorem jd_gap {c c' : Civil} (h : c.Valid) (h' : c'.Valid) (hge : c.micros + 1000000 ≤ c'.micros) : 0.8 < (jdOf c' - jdOf c) * 86400 := by
  have a := h.2.2.1
  have b := h'.2.2.1
  have hmi := monthIndex_le_of_micros_le h.2.2 h'.2.2 (by omega)
  have hm := taiMinusUtc_mono a.1 a.2.1 b.1 b.2.1 hmi
  simp only at hm
  have h2 : ((taiMinusUtc c.year c.month : ℤ) : ℝ) ≤ ((taiMinusUtc c'.year c'.month : ℤ) : ℝ) := by exact_mod_cast hm
  obtain ⟨n, hn⟩ : ∃ n : ℕ, monthIndex c'.year c'.month = monthIndex c.year c.month + n :=
    ⟨(monthIndex c'.year c'.month - monthIndex c.year c.month).toNat, by omega⟩
  have hd := dtIndex_steps (monthIndex c.year c.month) n
  rw [← hn, dtIndex_monthIndex b.1 b.2.1, dtIndex_monthIndex a.1 a.2.1] at hd
  have hdR : (dtVal c'.year c'.month : ℝ) - (dtVal c.year c.month : ℝ) ≤ 0.11 * (n : ℝ) := by
    have : ((dtVal c'.year c'.month - dtVal c.year c.month : ℚ) : ℝ) ≤ ((0.11 * (n : ℚ) : ℚ) : ℝ) := by
      exact_mod_cast hd
    push_cast at this
    norm_num at this ⊢
    linarith
  have hel : 0.11 * (n : ℝ) + 0.8 < ((c'.micros : ℝ) - (c.micros : ℝ)) / 1000000 := by
    have hgeR : (c.micros : ℝ) + 1000000 ≤ (c'.micros : ℝ) := by exact_mod_cast hge
    rcases Nat.lt_or_ge n 2 with hlt | hge2
    · have : (n : ℝ) ≤ 1 := by exact_mod_cast (by omega : n ≤ 1)
      rw [lt_div_iff₀ (by norm_num)]
      norm_num
      nlinarith
    · have hgap := ord_gap a b hn (by omega)
      simp only at hgap
      have hd1 := micros_div h.2.2
      have hd2 := micros_div h'.2.2
      unfold usPerDay at hd1 hd2
      have hint : (28 * ((n : ℤ) - 1)) * 86400000000 < c'.micros - c.micros := by omega
      have hR : (28 * ((n : ℝ) - 1)) * 86400000000 < (c'.micros : ℝ) - (c.micros : ℝ) := by
        exact_mod_cast hint
      have hn2 : (2 : ℝ) ≤ (n : ℝ) := by exact_mod_cast hge2
      rw [lt_div_iff₀ (by norm_num)]
      norm_num
      nlinarith
  unfold jdOf
  push_cast
  generalize ((taiMinusUtc c.year c.month : ℤ) : ℝ) = u at *
  generalize ((taiMinusUtc c'.year c'.month : ℤ) : ℝ) = u' at *
  norm_num at *
  linarith

/-! ## Double precision -/

/-- The UT Julian day as computed. -/
noncomputable def jd64 (t : ℝ) (l : ℤ) (v : ℚ) : ℝ :=
  b64 (b64 (b64 (b64 (tt64 t l - b64 v) / b64 ((seconds_per_day : ℚ) : ℝ)) + b64 ((gregorian_day_offset : ℚ) : ℝ))
    + b64 ((julian_day_offset : ℚ) : ℝ))

theorem jd64_err {t : ℝ} {l : ℤ} {v : ℚ} (ht : |t| ≤ 3 * 10 ^ 11) (l0 : 0 ≤ l) (l1 : l ≤ 100) (v0 : 0 ≤ v) (v1 : v ≤ 70) :
    |jd64 t l v - ((t + l + 32.184 - v) / 86400 + 719163 + 1721424.5)| ≤ 5 / 10 ^ 9 ∧ |tt64 t l - b64 v| ≤ 4 * 10 ^ 11 ∧
    |b64 (tt64 t l - b64 v) / 86400| ≤ 5 * 10 ^ 6 ∧ |b64 (b64 (tt64 t l - b64 v) / 86400) + 719163| ≤ 6 * 10 ^ 6 ∧
    |b64 (b64 (b64 (tt64 t l - b64 v) / 86400) + 719163) + 1721424.5| ≤ 8 * 10 ^ 6 := by
  obtain ⟨-, b1, b2, -⟩ := jde64_err ht l0 l1
  have l0' : (0 : ℝ) ≤ l := by exact_mod_cast l0
  have l1' : (l : ℝ) ≤ 100 := by exact_mod_cast l1
  have v0' : (0 : ℝ) ≤ v := by exact_mod_cast v0
  have v1' : (v : ℝ) ≤ 70 := by exact_mod_cast v1
  have o := abs_le.1 (size64 (x := ((tt_offset : ℚ) : ℝ)) (m := 40) (by norm_num [tt_offset]))
  have d : tt64 t l = b64 (b64 (b64 t + l) + b64 ((tt_offset : ℚ) : ℝ)) := by unfold tt64; rw [ls64 l0 l1]
  have d2 : jd64 t l v = b64 (b64 (b64 (b64 (tt64 t l - b64 v) / 86400) + 719163) + 1721424.5) := by
    unfold jd64; rw [spd64, gdo64, jdo64]
  rw [show ((tt_offset : ℚ) : ℝ) = 32.184 by norm_num [tt_offset]] at *
  generalize (l : ℝ) = x at *
  generalize (v : ℝ) = w at *
  generalize tt64 t l = z at *
  generalize jd64 t l v = j at *
  have ht' := abs_le.1 ht
  have e1 := abs_le.1 (size64 ht)
  have e2 := abs_le.1 (size64 b1)
  have e3 := abs_le.1 (size64 b2)
  rw [← d] at e3
  have ev := abs_le.1 (size64 (x := w) (m := 70) (by rw [abs_of_nonneg v0']; exact v1'))
  have c1 : |z - b64 w| ≤ 4 * 10 ^ 11 := by rw [abs_le]; constructor <;> norm_num at * <;> linarith
  have e4 := abs_le.1 (size64 c1)
  have c2 : |b64 (z - b64 w) / 86400| ≤ 5 * 10 ^ 6 := by rw [abs_le]; constructor <;> norm_num at * <;> linarith
  have e5 := abs_le.1 (size64 c2)
  have c3 : |b64 (b64 (z - b64 w) / 86400) + 719163| ≤ 6 * 10 ^ 6 := by rw [abs_le]; constructor <;> norm_num at * <;> linarith
  have e6 := abs_le.1 (size64 c3)
  have c4 : |b64 (b64 (b64 (z - b64 w) / 86400) + 719163) + 1721424.5| ≤ 8 * 10 ^ 6 := by
    rw [abs_le]; constructor <;> norm_num at * <;> linarith
  have e7 := abs_le.1 (size64 c4)
  rw [← d2] at e7
  refine ⟨?_, c1, c2, c3, c4⟩
  rw [abs_le]
  constructor <;> norm_num at * <;> linarith

/-- What the code computes. -/
theorem solar_day64 (d : DateTime) (c : Civil) (h : UtcFields d c) :
    get_julian_solar_day (rndB binary64) (.dt d)
      = .ok (V.fin (jd64 (secondsOf c) (taiMinusUtc c.year c.month) (dtVal c.year c.month))) ∧
    get_julian_solar_day (nprB binary64) (.dt d)
      = .ok (V.fin (jd64 (secondsOf c) (taiMinusUtc c.year c.month) (dtVal c.year c.month))) := by
  obtain ⟨l0, l1⟩ := taiMinusUtc_bounds c.year c.month
  obtain ⟨v0, v1⟩ := dT_range c.year c.month
  obtain ⟨-, b1, b2, -⟩ := jde64_err (seconds_range h.1) (show 0 ≤ taiMinusUtc c.year c.month by omega) (by omega)
  obtain ⟨-, c1, c2, c3, c4⟩ := jd64_err (seconds_range h.1) (show 0 ≤ taiMinusUtc c.year c.month by omega) (by omega) v0 v1
  have hl := ls64 (show 0 ≤ taiMinusUtc c.year c.month by omega) (by omega)
  have e1 : V.rnd binary64 (V.add (.fin (b64 (secondsOf c))) (.fin (b64 ((taiMinusUtc c.year c.month : ℚ) : ℝ))))
      = V.fin (b64 (b64 (secondsOf c) + b64 ((taiMinusUtc c.year c.month : ℚ) : ℝ))) := by
    refine vrnd64 (z := b64 (secondsOf c) + b64 ((taiMinusUtc c.year c.month : ℚ) : ℝ)) ?_ rfl
    rw [hl]
    exact b1.trans (by norm_num)
  have e2 : V.rnd binary64 (V.add (.fin (b64 (b64 (secondsOf c) + b64 ((taiMinusUtc c.year c.month : ℚ) : ℝ)))) (.fin (b64 ((tt_offset : ℚ) : ℝ))))
      = V.fin (tt64 (secondsOf c) (taiMinusUtc c.year c.month)) := by
    refine vrnd64 (z := b64 (b64 (secondsOf c) + b64 ((taiMinusUtc c.year c.month : ℚ) : ℝ)) + b64 ((tt_offset : ℚ) : ℝ)) ?_ rfl
    rw [hl]
    exact b2.trans (by norm_num)
  generalize hz : tt64 (secondsOf c) (taiMinusUtc c.year c.month) = z at *
  have f1 : V.rnd binary64 (V.sub (.fin z) (.fin (b64 (dtVal c.year c.month)))) = V.fin (b64 (z - b64 (dtVal c.year c.month))) :=
    vrnd64 (z := z + -b64 (dtVal c.year c.month)) (by rw [← sub_eq_add_neg]; exact c1.trans (by norm_num)) (by rw [← sub_eq_add_neg])
  have f2 : V.rnd binary64 (V.divNZ (.fin (b64 (z - b64 (dtVal c.year c.month)))) (.fin (b64 ((seconds_per_day : ℚ) : ℝ))))
      = V.fin (b64 (b64 (z - b64 (dtVal c.year c.month)) / b64 ((seconds_per_day : ℚ) : ℝ))) := by
    refine vrnd64 (z := _ / _) ?_ rfl
    rw [spd64]
    exact c2.trans (by norm_num)
  have f3 : V.rnd binary64 (V.add (.fin (b64 (b64 (z - b64 (dtVal c.year c.month)) / b64 ((seconds_per_day : ℚ) : ℝ))))
      (.fin (b64 ((gregorian_day_offset : ℚ) : ℝ))))
      = V.fin (b64 (b64 (b64 (z - b64 (dtVal c.year c.month)) / b64 ((seconds_per_day : ℚ) : ℝ)) + b64 ((gregorian_day_offset : ℚ) : ℝ))) := by
    refine vrnd64 (z := _ + _) ?_ rfl
    rw [spd64, gdo64]
    exact c3.trans (by norm_num)
  have f4 : V.rnd binary64 (V.add (.fin (b64 (b64 (b64 (z - b64 (dtVal c.year c.month)) / b64 ((seconds_per_day : ℚ) : ℝ)) + b64 ((gregorian_day_offset : ℚ) : ℝ))))
      (.fin (b64 ((julian_day_offset : ℚ) : ℝ)))) = V.fin (jd64 (secondsOf c) (taiMinusUtc c.year c.month) (dtVal c.year c.month)) := by
    refine vrnd64 (z := _ + _) ?_ (by unfold jd64; rw [hz])
    rw [spd64, gdo64, jdo64]
    exact c4.trans (by norm_num)
  rw [← f3, ← f2, ← f1, ← e2, ← e1] at f4
  unfold get_julian_solar_day
  rw [guard_denotes h.2, guard_denotes h.2, ok_bind, ok_bind, timestamp_dt, timestamp_dt, timestamp_of_denotes h.2, ok_bind, ok_bind,
    get_leap_seconds_eq h, get_leap_seconds_eq h, ok_bind, ok_bind, get_delta_t_eq h, get_delta_t_eq h, ok_bind, ok_bind]
  exact ⟨congrArg Except.ok f4, congrArg Except.ok f4⟩

theorem jd64_jdOf {c : Civil} (h : c.Valid) :
    |jd64 (secondsOf c) (taiMinusUtc c.year c.month) (dtVal c.year c.month) - jdOf c| ≤ 5 / 10 ^ 9 := by
  obtain ⟨l0, l1⟩ := taiMinusUtc_bounds c.year c.month
  obtain ⟨v0, v1⟩ := dT_range c.year c.month
  have e := (jd64_err (seconds_range h) (show 0 ≤ taiMinusUtc c.year c.month by omega) (by omega) v0 v1).1
  have : jdOf c = (secondsOf c + taiMinusUtc c.year c.month + 32.184 - dtVal c.year c.month) / 86400 + 719163 + 1721424.5 := by
    unfold jdOf secondsOf
    push_cast
    norm_num
  rw [this]
  exact e

/-- C174 in double precision: it decreases there too. -/
theorem C174_refuted_double : ¬C174_claim_double := by
  intro hc
  obtain ⟨hm, -⟩ := month_end_values
  obtain ⟨x, x', h, h', hlt⟩ := hc (utcDT jan93) (utcDT feb93) jan93 feb93 (utcDT_fields month_end_valid.1) (utcDT_fields month_end_valid.2)
    (by omega)
  rw [(solar_day64 _ _ (utcDT_fields month_end_valid.1)).1] at h
  rw [(solar_day64 _ _ (utcDT_fields month_end_valid.2)).1] at h'
  injection h with h
  injection h with h
  injection h' with h'
  injection h' with h'
  have e := abs_le.1 (jd64_jdOf month_end_valid.1)
  have e' := abs_le.1 (jd64_jdOf month_end_valid.2)
  have := backward
  rw [h] at e
  rw [h'] at e'
  norm_num at *
  linarith

/-- C174 in double precision, what holds: within a month it never decreases, and after a second it has advanced. -/
theorem C174_double_partial (d d' : DateTime) (c c' : Civil) (h : UtcFields d c) (h' : UtcFields d' c') :
    ∃ x x' : ℝ, get_julian_solar_day (rndB binary64) (.dt d) = .ok (V.fin x) ∧
      get_julian_solar_day (rndB binary64) (.dt d') = .ok (V.fin x') ∧
      get_julian_solar_day (nprB binary64) (.dt d) = .ok (V.fin x) ∧
      get_julian_solar_day (nprB binary64) (.dt d') = .ok (V.fin x') ∧
      (c.year = c'.year → c.month = c'.month → c.micros ≤ c'.micros → x ≤ x') ∧ (c.micros + 1000000 ≤ c'.micros → x < x') := by
  refine ⟨_, _, (solar_day64 d c h).1, (solar_day64 d' c' h').1, (solar_day64 d c h).2, (solar_day64 d' c' h').2, fun hy hm hle => ?_,
    fun hg => ?_⟩
  · have ht : secondsOf c ≤ secondsOf c' := by
      have : (c.micros : ℝ) ≤ c'.micros := by exact_mod_cast hle
      unfold secondsOf
      push_cast
      linarith
    rw [hy, hm]
    unfold jd64 tt64
    rw [spd64]
    refine b64_mono (add_le_add (b64_mono (add_le_add (b64_mono (div_le_div_of_nonneg_right (b64_mono (sub_le_sub_right
      (b64_mono (add_le_add (b64_mono (add_le_add (b64_mono ht) le_rfl)) le_rfl)) _)) (by norm_num))) le_rfl)) le_rfl)
  · have e := abs_le.1 (jd64_jdOf h.1)
    have e' := abs_le.1 (jd64_jdOf h'.1)
    have := jd_gap h.1 h'.1 hg
    norm_num at *
    linarith

/-- The hypotheses hold of the end of January 1993 and of two seconds later. -/
example : ∃ x x' : ℝ, get_julian_solar_day (rndB binary64) (.dt (utcDT jan93)) = .ok (V.fin x) ∧
    get_julian_solar_day (rndB binary64) (.dt (utcDT ⟨1993, 2, 1, 0, 0, 2, 0⟩)) = .ok (V.fin x') ∧ x < x' := by
  obtain ⟨x, x', h, h', -, -, -, hlt⟩ := C174_double_partial (utcDT jan93) (utcDT ⟨1993, 2, 1, 0, 0, 2, 0⟩) jan93 ⟨1993, 2, 1, 0, 0, 2, 0⟩
    (utcDT_fields month_end_valid.1) (utcDT_fields (civil_valid_of_check rfl))
  exact ⟨x, x', h, h', hlt (by decide)⟩

end Verif.Props
