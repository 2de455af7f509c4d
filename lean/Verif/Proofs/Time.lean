import Verif.Spec.Time
import Verif.Proofs.Calendar
import Verif.Proofs.Eval
import Mathlib.Tactic.Linarith

/-!
# Leap seconds, delta-T: closed forms of the lookups
-/

namespace Verif

open Pysolar Pysolar.Solartime Pysolar.Numeric Pysolar.TzCheck Verif.Spec

/-! ## Awareness and UTC fields -/

theorem guard_denotes {B : Backend} {d : DateTime} {t : ℤ} (h : Denotes d t) :
    TzCheck.guard (B := B) (.dt d) = .ok () := by
  obtain ⟨o, h1, h2, h3⟩ := h
  simp [TzCheck.guard, checkValue, whenView, Option.isSome_iff_ne_none.mp h1]

theorem utcMicros_of_denotes {d : DateTime} {t : ℤ} (h : Denotes d t) : d.utcMicros = t := by
  obtain ⟨o, h1, h2, h3⟩ := h
  simp [DateTime.utcMicros, h2, h3]

theorem utctimetuple_of_utcFields {d : DateTime} {c : Civil} (h : UtcFields d c) :
    d.utctimetuple = .ok c := by
  unfold DateTime.utctimetuple civilChecked
  rw [utcMicros_of_denotes h.2, civilOfMicros_micros h.1.2.2]
  simp [h.1.1, h.1.2.1]

@[simp] theorem utctimetuple_dt {B : Backend} (d : DateTime) :
    utctimetuple (B := B) (.dt d) = d.utctimetuple := rfl

theorem timestamp_of_denotes {d : DateTime} {t : ℤ} (h : Denotes d t) :
    d.timestamp = .ok (((t - epochMicros : ℤ) : ℚ) / 1000000) := by
  obtain ⟨o, h1, h2, rfl⟩ := h
  simp [DateTime.timestamp, h2]

@[simp] theorem timestamp_dt {B : Backend} (d : DateTime) :
    timestamp (B := B) (.dt d) = d.timestamp := rfl

/-! ## The leap second loop -/

/-- The loop as a recursion over the table. -/
def leapStruct (Y M : ℤ) : List (ℤ × ℤ) → ℤ → ℤ → ℤ
  | [], _, adj => adj
  | e :: rest, year, adj =>
    if year > Y then adj
    else if year = Y then (if M > 6 then adj + e.1 else adj)
    else leapStruct Y M rest (year + 1) (adj + (e.1 + e.2))

/-- The warnings of the loop. -/
def leapWarnings (len : ℕ) (Y M : ℤ) : List LeapWarning :=
  if Y - 1972 > len ∨ (Y - 1972 = len ∧ M > 6) then [⟨1972 + len - 1⟩] else []

theorem leapLoop_eq (table : List (ℤ × ℤ)) (Y M : ℤ) (k : ℕ) (adj : ℤ) (hk : k ≤ table.length) :
    leapLoop table Y M adj (1972 + k) =
      .ok (leapStruct Y M (table.drop k) (1972 + k) adj,
        if 1972 + (k : ℤ) > Y then [] else leapWarnings table.length Y M) := by
  induction hn : table.length - k generalizing k adj with
  | zero =>
    have hk' : k = table.length := by omega
    subst hk'
    rw [leapLoop]
    simp only [leap_seconds_base_year, List.drop_length, leapStruct]
    split
    · simp
    · rw [if_pos (by omega)]
      unfold leapWarnings
      split <;> rfl
  | succ n ih =>
    have hlt : k < table.length := by omega
    rw [leapLoop]
    simp only [leap_seconds_base_year]
    rw [List.drop_eq_getElem_cons hlt, leapStruct]
    split
    · simp
    · rw [if_neg (by omega)]
      have hidx : pyIndexInt table (1972 + (k : ℤ) - 1972) = .ok table[k] := by
        unfold pyIndexInt pyIndex
        rw [if_pos (by omega)]
        have : (1972 + (k : ℤ) - 1972).toNat = k := by omega
        rw [this]
        simp [hlt]
      rw [hidx]
      simp only []
      split
      · rename_i h1 h2
        unfold leapWarnings
        rw [if_neg (show ¬ (Y - 1972 > (table.length : ℤ) ∨ Y - 1972 = (table.length : ℤ) ∧ M > 6) by omega)]
      · rename_i h1 h2
        have := ih (k + 1) (adj + (table[k].1 + table[k].2)) hlt (by omega)
        push_cast at this
        rw [show (1972 + (k : ℤ) + 1) = 1972 + ((k : ℤ) + 1) by ring, this]
        rw [if_neg (by omega)]

theorem leapStruct_past (Y M : ℤ) (table : List (ℤ × ℤ)) (year adj : ℤ)
    (h : year + table.length ≤ Y) :
    leapStruct Y M table year adj = adj + (table.map fun e => e.1 + e.2).sum := by
  induction table generalizing year adj with
  | nil => simp [leapStruct]
  | cons e rest ih =>
    rw [List.length_cons] at h
    push_cast at h
    rw [leapStruct, if_neg (by omega), if_neg (by omega), ih _ _ (by omega)]
    simp
    ring

theorem leapTable_length : leap_seconds_adjustments.length = 54 := by decide

theorem leap_table_check : ∀ i : Fin 54, ∀ j : Fin 12,
    leapStruct (1972 + i.1) (1 + j.1) leap_seconds_adjustments 1972 10 =
      taiMinusUtc (1972 + i.1) (1 + j.1) := by decide +kernel

theorem leapStruct_eq_spec {Y M : ℤ} (h1 : 1 ≤ M) (h2 : M ≤ 12) :
    leapStruct Y M leap_seconds_adjustments 1972 10 = taiMinusUtc Y M := by
  rcases lt_or_ge Y 1972 with hY | hY
  · have hl : leapStruct Y M leap_seconds_adjustments 1972 10 = 10 := by
      unfold leap_seconds_adjustments
      rw [leapStruct, if_pos (by omega)]
    have hs : taiMinusUtc Y M = 10 := by
      unfold taiMinusUtc
      have : leapSecondMonths.countP (InEffect Y M) = 0 := by
        rw [List.countP_eq_zero]
        have hall : ∀ p ∈ leapSecondMonths, 1972 ≤ p.1 := by decide
        intro p hp
        have := hall p hp
        simp only [InEffect, Bool.or_eq_true, Bool.and_eq_true, decide_eq_true_eq]
        omega
      rw [this]; rfl
    rw [hl, hs]
  · rcases lt_or_ge Y 2026 with hY' | hY'
    · have := leap_table_check ⟨(Y - 1972).toNat, by omega⟩ ⟨(M - 1).toNat, by omega⟩
      have e1 : 1972 + (((Y - 1972).toNat : ℕ) : ℤ) = Y := by omega
      have e2 : 1 + (((M - 1).toNat : ℕ) : ℤ) = M := by omega
      simp only [e1, e2] at this
      exact this
    · rw [leapStruct_past _ _ _ _ _ (by rw [leapTable_length]; omega)]
      have hs : taiMinusUtc Y M = 37 := by
        unfold taiMinusUtc
        have : leapSecondMonths.countP (InEffect Y M) = leapSecondMonths.length := by
          rw [List.countP_eq_length]
          have hall : ∀ p ∈ leapSecondMonths, p.1 ≤ 2017 := by decide
          intro p hp
          have := hall p hp
          simp only [InEffect, Bool.or_eq_true, Bool.and_eq_true, decide_eq_true_eq]
          omega
        rw [this]; rfl
      rw [hs]
      decide

theorem leapLoop_spec {Y M : ℤ} (h1 : 1 ≤ M) (h2 : M ≤ 12) :
    leapLoop leap_seconds_adjustments Y M 10 leap_seconds_base_year =
      .ok (taiMinusUtc Y M, leapWarnings 54 Y M) := by
  have := leapLoop_eq leap_seconds_adjustments Y M 0 10 (by simp)
  simp only [Nat.cast_zero, add_zero, List.drop_zero, leapTable_length] at this
  rw [leap_seconds_base_year, this, leapStruct_eq_spec h1 h2]
  split
  · unfold leapWarnings
    rw [if_neg (by omega)]
  · rfl

theorem get_leap_seconds_warn_eq {B : Backend} {d : DateTime} {c : Civil} (h : UtcFields d c) :
    get_leap_seconds_warn (B := B) (.dt d) =
      .ok (taiMinusUtc c.year c.month, leapWarnings 54 c.year c.month) := by
  have hm := h.1.2.2.1
  simp only [get_leap_seconds_warn, guard_denotes h.2, utctimetuple_dt, utctimetuple_of_utcFields h,
    ok_bind]
  exact leapLoop_spec hm.1 hm.2.1

theorem get_leap_seconds_eq {B : Backend} {d : DateTime} {c : Civil} (h : UtcFields d c) :
    get_leap_seconds (B := B) (.dt d) = .ok (taiMinusUtc c.year c.month) := by
  simp [get_leap_seconds, get_leap_seconds_warn_eq h]

theorem taiMinusUtc_bounds (Y M : ℤ) : 10 ≤ taiMinusUtc Y M ∧ taiMinusUtc Y M ≤ 37 := by
  unfold taiMinusUtc
  have : leapSecondMonths.countP (InEffect Y M) ≤ leapSecondMonths.length := List.countP_le_length
  have hl : leapSecondMonths.length = 27 := by decide
  omega

/-! ## Order of months -/

theorem monthIndex_le_of_micros_le {c c' : Civil} (h : c.FieldsValid) (h' : c'.FieldsValid)
    (hle : c.micros ≤ c'.micros) : monthIndex c.year c.month ≤ monthIndex c'.year c'.month := by
  by_contra hlt
  rw [not_le] at hlt
  have hd := micros_div h
  have hd' := micros_div h'
  have hdd : c.micros / usPerDay ≤ c'.micros / usPerDay := Int.ediv_le_ediv (by decide) hle
  rw [hd, hd'] at hdd
  have hv := h.1
  have hv' := h'.1
  obtain ⟨a1, a2, -⟩ := id hv
  obtain ⟨b1, b2, -⟩ := id hv'
  simp only at a1 a2 b1 b2
  unfold monthIndex at hlt
  rcases lt_trichotomy c'.year c.year with hy | hy | hy
  · exact absurd (ymd2ord_lt_of_year_lt hv' hv hy) (by simp only; omega)
  · exact absurd (ymd2ord_lt_of_month_lt hv' hv hy (by simp only; omega)) (by simp only; omega)
  · omega

theorem taiMinusUtc_mono {Y M Y' M' : ℤ} (h1 : 1 ≤ M) (h2 : M ≤ 12) (h1' : 1 ≤ M') (h2' : M' ≤ 12)
    (h : monthIndex Y M ≤ monthIndex Y' M') : taiMinusUtc Y M ≤ taiMinusUtc Y' M' := by
  unfold taiMinusUtc
  have : leapSecondMonths.countP (InEffect Y M) ≤ leapSecondMonths.countP (InEffect Y' M') := by
    apply List.countP_mono_left
    intro p hp
    have hall : ∀ p ∈ leapSecondMonths, 1 ≤ p.2 ∧ p.2 ≤ 12 := by decide
    have := hall p hp
    unfold monthIndex at h
    simp only [InEffect, Bool.or_eq_true, Bool.and_eq_true, decide_eq_true_eq]
    omega
  omega

/-! ## Delta-T -/

/-- The lookup in closed form, by position in the monthly series. -/
def dtClamp (Y M : ℤ) : ℕ :=
  if Y < 1973 then 0
  else if Y = 1973 then (M - 2).toNat
  else if Y < 2014 then (12 * (Y - 1973) + (M - 2)).toNat
  else (490 + min M 4).toNat

/-- Value of delta-T the lookup returns in month `M` of year `Y`. -/
def dtVal (Y M : ℤ) : ℚ := delta_t.flatten.getD (dtClamp Y M) 0

theorem delta_table_check : ∀ i : Fin 42, ∀ j : Fin 12,
    deltaTLookup delta_t 1973 2 (1973 + i.1) (1 + j.1) = .ok (dtVal (1973 + i.1) (1 + j.1)) := by
  decide +kernel

theorem delta_t_length : delta_t.length = 42 := by decide

theorem deltaTLookup_before {Y : ℤ} (M : ℤ) (h : Y < 1973) :
    deltaTLookup delta_t 1973 2 Y M = deltaTLookup delta_t 1973 2 1973 1 := by
  simp only [deltaTLookup, if_pos h]
  norm_num

theorem deltaTLookup_after {Y : ℤ} (M : ℤ) (h : 2014 < Y) :
    deltaTLookup delta_t 1973 2 Y M = deltaTLookup delta_t 1973 2 2014 M := by
  have e1 : (if Y < 1973 then ((1973 : ℤ), (1 : ℤ)) else if Y = 1973 then (Y, max 0 (M - 2) + 1)
      else if Y ≥ 1973 + ((42 : ℕ) : ℤ) then (1973 + ((42 : ℕ) : ℤ) - 1, M) else (Y, M)) = (2014, M) := by
    rw [if_neg (by omega), if_neg (by omega), if_pos (by push_cast; omega)]
    norm_num
  have e2 : (if (2014 : ℤ) < 1973 then ((1973 : ℤ), (1 : ℤ))
      else if (2014 : ℤ) = 1973 then (2014, max 0 (M - 2) + 1)
      else if (2014 : ℤ) ≥ 1973 + ((42 : ℕ) : ℤ) then (1973 + ((42 : ℕ) : ℤ) - 1, M) else (2014, M)) =
      (2014, M) := by
    norm_num
  simp only [deltaTLookup, delta_t_length, e1, e2]

theorem deltaTLookup_eq {Y M : ℤ} (h1 : 1 ≤ M) (h2 : M ≤ 12) :
    deltaTLookup delta_t delta_t_base_year delta_t_base_month Y M = .ok (dtVal Y M) := by
  unfold delta_t_base_year delta_t_base_month
  have key : ∀ Y M : ℤ, 1973 ≤ Y → Y ≤ 2014 → 1 ≤ M → M ≤ 12 →
      deltaTLookup delta_t 1973 2 Y M = .ok (dtVal Y M) := by
    intro Y M hY1 hY2 h1 h2
    have := delta_table_check ⟨(Y - 1973).toNat, by omega⟩ ⟨(M - 1).toNat, by omega⟩
    have e1 : 1973 + (((Y - 1973).toNat : ℕ) : ℤ) = Y := by omega
    have e2 : 1 + (((M - 1).toNat : ℕ) : ℤ) = M := by omega
    simp only [e1, e2] at this
    exact this
  rcases lt_or_ge Y 1973 with hY | hY
  · rw [deltaTLookup_before M hY, key 1973 1 (by omega) (by omega) (by omega) (by omega)]
    simp [dtVal, dtClamp, hY]
  · rcases le_or_gt Y 2014 with hY' | hY'
    · exact key Y M hY hY' h1 h2
    · rw [deltaTLookup_after M hY', key 2014 M (by omega) (by omega) h1 h2]
      have : dtClamp Y M = dtClamp 2014 M := by
        unfold dtClamp
        rw [if_neg (by omega), if_neg (by omega), if_neg (by omega)]
        simp
      simp [dtVal, this]

theorem get_delta_t_eq {B : Backend} {d : DateTime} {c : Civil} (h : UtcFields d c) :
    get_delta_t (B := B) (.dt d) = .ok (dtVal c.year c.month) := by
  have hm := h.1.2.2.1
  simp only [get_delta_t, guard_denotes h.2, utctimetuple_dt, utctimetuple_of_utcFields h, ok_bind]
  exact deltaTLookup_eq hm.1 hm.2.1

/-- Every published value sits at the position the lookup uses. -/
theorem delta_labels_check : ∀ e ∈ deltaTData, 1 ≤ e.2.1 ∧ e.2.1 ≤ 12 ∧ dtVal e.1 e.2.1 = e.2.2 := by
  decide +kernel

theorem delta_steps_check : (∀ i : Fin 43, ∀ j : Fin 11,
    dtVal (1972 + i.1) (2 + j.1) - dtVal (1972 + i.1) (1 + j.1) ≤ 0.11) ∧
    ∀ i : Fin 43, dtVal (1973 + i.1) 1 - dtVal (1972 + i.1) 12 ≤ 0.11 := by decide +kernel

theorem dtVal_clamp_low {Y : ℤ} (M : ℤ) (h : Y ≤ 1972) : dtVal Y M = dtVal 1972 M := by
  unfold dtVal dtClamp
  rw [if_pos (by omega)]
  simp

theorem dtVal_low {Y : ℤ} (M : ℤ) (h : Y ≤ 1972) : dtVal Y M = dtVal 1973 1 := by
  unfold dtVal dtClamp
  rw [if_pos (by omega)]
  simp

theorem dtVal_clamp_high {Y : ℤ} (M : ℤ) (h : 2014 ≤ Y) : dtVal Y M = dtVal 2014 M := by
  unfold dtVal dtClamp
  rw [if_neg (by omega), if_neg (by omega), if_neg (by omega)]
  simp

/-- Delta-T as a function of the month counted from January of year 0. -/
def dtIndex (k : ℤ) : ℚ := dtVal (k / 12) (k % 12 + 1)

theorem dtIndex_monthIndex {Y M : ℤ} (h1 : 1 ≤ M) (h2 : M ≤ 12) :
    dtIndex (monthIndex Y M) = dtVal Y M := by
  unfold dtIndex monthIndex
  have e1 : (12 * Y + (M - 1)) / 12 = Y := by omega
  have e2 : (12 * Y + (M - 1)) % 12 + 1 = M := by omega
  rw [e1, e2]

theorem dtIndex_step (k : ℤ) : dtIndex (k + 1) - dtIndex k ≤ 0.11 := by
  obtain ⟨hA, hB⟩ := delta_steps_check
  unfold dtIndex
  have hr : k % 12 = 11 ∨ k % 12 < 11 := by omega
  rcases hr with hr | hr
  · have e1 : (k + 1) / 12 = k / 12 + 1 := by omega
    have e2 : (k + 1) % 12 + 1 = 1 := by omega
    rw [e1, e2, hr]
    norm_num only
    rcases lt_or_ge (k / 12) 1972 with h | h
    · rw [dtVal_low 1 (by omega), dtVal_low 12 (by omega)]
      norm_num
    · rcases lt_or_ge (k / 12) 2014 with h' | h'
      · have := hB ⟨(k / 12 - 1972).toNat, by omega⟩
        simp only at this
        have e3 : 1973 + (((k / 12 - 1972).toNat : ℕ) : ℤ) = k / 12 + 1 := by omega
        have e4 : 1972 + (((k / 12 - 1972).toNat : ℕ) : ℤ) = k / 12 := by omega
        rw [e3, e4] at this
        convert this using 2
        norm_num
      · rw [dtVal_clamp_high 1 (by omega), dtVal_clamp_high 12 h']
        have := hB ⟨42, by omega⟩
        simp only at this
        norm_num only [Nat.cast_ofNat] at this
        rw [dtVal_clamp_high 1 (show (2014 : ℤ) ≤ 2015 by omega)] at this
        convert this using 2
  · have e1 : (k + 1) / 12 = k / 12 := by omega
    have e2 : (k + 1) % 12 = k % 12 + 1 := by omega
    rw [e1, e2]
    have hlo : 0 ≤ k % 12 := by omega
    have hstep : ∀ Y : ℤ, 1972 ≤ Y → Y ≤ 2014 → dtVal Y (k % 12 + 1 + 1) - dtVal Y (k % 12 + 1) ≤ 0.11 := by
      intro Y hY1 hY2
      have := hA ⟨(Y - 1972).toNat, by omega⟩ ⟨(k % 12).toNat, by omega⟩
      simp only at this
      have e3 : 1972 + (((Y - 1972).toNat : ℕ) : ℤ) = Y := by omega
      have e4 : 2 + (((k % 12).toNat : ℕ) : ℤ) = k % 12 + 1 + 1 := by omega
      have e5 : 1 + (((k % 12).toNat : ℕ) : ℤ) = k % 12 + 1 := by omega
      rw [e3, e4, e5] at this
      exact this
    rcases lt_or_ge (k / 12) 1972 with h | h
    · rw [dtVal_low (Y := k / 12) (k % 12 + 1 + 1) (by omega),
        dtVal_low (Y := k / 12) (k % 12 + 1) (by omega)]
      norm_num
    · rcases le_or_gt (k / 12) 2014 with h' | h'
      · exact hstep _ h h'
      · rw [dtVal_clamp_high (Y := k / 12) (k % 12 + 1 + 1) (by omega),
          dtVal_clamp_high (Y := k / 12) (k % 12 + 1) (by omega)]
        exact hstep 2014 (by omega) (by omega)

theorem dtIndex_steps (k : ℤ) (n : ℕ) : dtIndex (k + n) - dtIndex k ≤ 0.11 * n := by
  induction n with
  | zero => simp
  | succ n ih =>
    have := dtIndex_step (k + n)
    push_cast
    rw [show k + ((n : ℤ) + 1) = k + n + 1 by ring]
    linarith

end Verif
