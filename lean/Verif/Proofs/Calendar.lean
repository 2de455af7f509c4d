import Verif.Model.Numeric
import Mathlib.Tactic.IntervalCases

/-!
# Calendar arithmetic: the civil date and its ordinal determine each other
-/

namespace Verif

theorem isLeap_iff (y : ℤ) : isLeap y = true ↔ (y % 4 = 0 ∧ (y % 100 ≠ 0 ∨ y % 400 = 0)) := by
  simp [isLeap]

/-- Days in a year. -/
def yearLen (y : ℤ) : ℤ := if isLeap y then 366 else 365

theorem daysBeforeYear_succ (y : ℤ) : daysBeforeYear (y + 1) = daysBeforeYear y + yearLen y := by
  unfold yearLen
  split
  · rename_i h
    rw [isLeap_iff] at h
    unfold daysBeforeYear
    omega
  · rename_i h
    rw [isLeap_iff] at h
    unfold daysBeforeYear
    omega

theorem daysBeforeYear_mono {y y' : ℤ} (h : y ≤ y') : daysBeforeYear y ≤ daysBeforeYear y' := by
  unfold daysBeforeYear
  omega

theorem daysBeforeMonth_succ (y : ℤ) {m : ℤ} (h1 : 1 ≤ m) (h2 : m ≤ 11) :
    daysBeforeMonth y (m + 1) = daysBeforeMonth y m + daysInMonth y m := by
  unfold daysBeforeMonth daysInMonth daysBeforeMonthTable daysInMonthTable
  cases isLeap y <;> interval_cases m <;> simp

theorem daysBeforeMonth_last (y : ℤ) : daysBeforeMonth y 12 + daysInMonth y 12 = yearLen y := by
  unfold daysBeforeMonth daysInMonth daysBeforeMonthTable daysInMonthTable yearLen
  cases isLeap y <;> simp

theorem daysBeforeMonth_one (y : ℤ) : daysBeforeMonth y 1 = 0 := by
  simp [daysBeforeMonth, daysBeforeMonthTable]

theorem daysInMonth_bounds (y m : ℤ) : 28 ≤ daysInMonth y m ∧ daysInMonth y m ≤ 31 := by
  unfold daysInMonth daysInMonthTable
  split
  · omega
  · split
    · omega
    · split <;> omega

theorem daysBeforeMonth_mono (y : ℤ) {m m' : ℤ} (h1 : 1 ≤ m) (h : m < m') (h2 : m' ≤ 12) :
    daysBeforeMonth y m + daysInMonth y m ≤ daysBeforeMonth y m' := by
  have hm : m ≤ 11 := by omega
  unfold daysBeforeMonth daysInMonth daysBeforeMonthTable daysInMonthTable
  cases isLeap y <;> interval_cases m <;> interval_cases m' <;> simp

theorem daysBeforeMonth_le_yearLen (y : ℤ) {m : ℤ} (h1 : 1 ≤ m) (h2 : m ≤ 12) :
    daysBeforeMonth y m + daysInMonth y m ≤ yearLen y := by
  rcases eq_or_lt_of_le h2 with rfl | h
  · exact (daysBeforeMonth_last y).le
  · have := daysBeforeMonth_mono y h1 h le_rfl
    have := daysBeforeMonth_last y
    have := (daysInMonth_bounds y 12).1
    omega

theorem daysBeforeMonth_nonneg (y m : ℤ) : 0 ≤ daysBeforeMonth y m := by
  unfold daysBeforeMonth daysBeforeMonthTable
  repeat' split
  all_goals omega

theorem yday_bounds {c : YMD} (h : c.Valid) : 1 ≤ yday c ∧ yday c ≤ yearLen c.year := by
  obtain ⟨h1, h2, h3, h4⟩ := h
  have := daysBeforeMonth_nonneg c.year c.month
  have := daysBeforeMonth_le_yearLen c.year h1 h2
  unfold yday
  omega

theorem ymd2ord_eq (c : YMD) : ymd2ord c.year c.month c.day = daysBeforeYear c.year + yday c := by
  unfold ymd2ord yday
  omega

/-- Order of ordinals is the order of dates. -/
theorem ymd2ord_lt_of_year_lt {c c' : YMD} (h : c.Valid) (h' : c'.Valid) (hy : c.year < c'.year) :
    ymd2ord c.year c.month c.day < ymd2ord c'.year c'.month c'.day := by
  rw [ymd2ord_eq, ymd2ord_eq]
  have h1 := (yday_bounds h).2
  have h2 := (yday_bounds h').1
  have h3 := daysBeforeYear_succ c.year
  have h4 : daysBeforeYear (c.year + 1) ≤ daysBeforeYear c'.year := daysBeforeYear_mono (by omega)
  omega

theorem ymd2ord_lt_of_month_lt {c c' : YMD} (h : c.Valid) (h' : c'.Valid) (hy : c.year = c'.year)
    (hm : c.month < c'.month) :
    ymd2ord c.year c.month c.day < ymd2ord c'.year c'.month c'.day := by
  obtain ⟨h1, h2, h3, h4⟩ := h
  obtain ⟨h1', h2', h3', h4'⟩ := h'
  have := daysBeforeMonth_mono c.year h1 hm h2'
  unfold ymd2ord
  rw [← hy]
  omega

theorem ymd2ord_injective {c c' : YMD} (h : c.Valid) (h' : c'.Valid)
    (he : ymd2ord c.year c.month c.day = ymd2ord c'.year c'.month c'.day) : c = c' := by
  have hy : c.year = c'.year := by
    rcases lt_trichotomy c.year c'.year with hy | hy | hy
    · exact absurd he (ymd2ord_lt_of_year_lt h h' hy).ne
    · exact hy
    · exact absurd he (ymd2ord_lt_of_year_lt h' h hy).ne'
  have hm : c.month = c'.month := by
    rcases lt_trichotomy c.month c'.month with hm | hm | hm
    · exact absurd he (ymd2ord_lt_of_month_lt h h' hy hm).ne
    · exact hm
    · exact absurd he (ymd2ord_lt_of_month_lt h' h hy.symm hm).ne'
  have hd : c.day = c'.day := by
    unfold ymd2ord at he
    rw [← hy, ← hm] at he
    omega
  cases c; cases c'; simp_all

/-- The month/day part of `_ord2ymd` for a 0-based day `n` of a year. -/
def mdOf (leap : Bool) (n : ℤ) : ℤ × ℤ :=
  let month := (n + 50) / 32
  let preceding := daysBeforeMonthTable month + (if month > 2 ∧ leap then 1 else 0)
  if preceding > n then
    let month := month - 1
    let preceding := preceding - (daysInMonthTable month + (if month = 2 ∧ leap then 1 else 0))
    (month, n - preceding + 1)
  else (month, n - preceding + 1)

/-- All 366 days of both kinds of years. -/
theorem mdOf_table : ∀ leap : Bool, ∀ k : Fin 366, (k.1 ≤ if leap then 365 else 364) →
    1 ≤ (mdOf leap (k.1 : ℤ)).1 ∧ (mdOf leap (k.1 : ℤ)).1 ≤ 12 ∧ 1 ≤ (mdOf leap (k.1 : ℤ)).2 ∧
    (mdOf leap (k.1 : ℤ)).2 ≤ (if (mdOf leap (k.1 : ℤ)).1 = 2 ∧ leap then 29
      else daysInMonthTable (mdOf leap (k.1 : ℤ)).1) ∧
    daysBeforeMonthTable (mdOf leap (k.1 : ℤ)).1 + (if (mdOf leap (k.1 : ℤ)).1 > 2 ∧ leap then 1 else 0)
      + (mdOf leap (k.1 : ℤ)).2 = k.1 + 1 := by
  decide +kernel

theorem month_of_yday (leap : Bool) {n : ℤ} (h0 : 0 ≤ n) (h1 : n ≤ if leap then 365 else 364)
    (y : ℤ) (hy : isLeap y = leap) :
    (⟨y, (mdOf leap n).1, (mdOf leap n).2⟩ : YMD).Valid ∧
      daysBeforeMonth y (mdOf leap n).1 + (mdOf leap n).2 = n + 1 := by
  have hn : n ≤ 365 := by split at h1 <;> omega
  have hk := mdOf_table leap ⟨n.toNat, by omega⟩ (by split at h1 <;> simp_all)
  have hn' : ((n.toNat : ℕ) : ℤ) = n := by omega
  simp only [hn'] at hk
  obtain ⟨a1, a2, a3, a4, a5⟩ := hk
  unfold YMD.Valid daysInMonth daysBeforeMonth
  simp only [hy]
  exact ⟨⟨a1, a2, a3, a4⟩, a5⟩

theorem ord2ymd_spec (ord : ℤ) : (ord2ymd ord).Valid ∧
    ymd2ord (ord2ymd ord).year (ord2ymd ord).month (ord2ymd ord).day = ord := by
  unfold ord2ymd
  simp only []
  set n400 := (ord - 1) / 146097 with hn400
  set r400 := (ord - 1) % 146097 with hr400
  set n100 := r400 / 36524 with hn100
  set r100 := r400 % 36524 with hr100
  set n4 := r100 / 1461 with hn4
  set r4 := r100 % 1461 with hr4
  set n1 := r4 / 365 with hn1
  set n := r4 % 365 with hn
  have e400 : ord - 1 = 146097 * n400 + r400 := by omega
  have b400 : 0 ≤ r400 ∧ r400 < 146097 := by omega
  have e100 : r400 = 36524 * n100 + r100 := by omega
  have b100 : 0 ≤ r100 ∧ r100 < 36524 := by omega
  have e4 : r100 = 1461 * n4 + r4 := by omega
  have b4 : 0 ≤ r4 ∧ r4 < 1461 := by omega
  have e1 : r4 = 365 * n1 + n := by omega
  have b1 : 0 ≤ n ∧ n < 365 := by omega
  clear_value n400 r400 n100 r100 n4 r4 n1 n
  by_cases hlast : n1 = 4 ∨ n100 = 4
  · rw [if_pos hlast]
    have hyear : n400 * 400 + 1 + n100 * 100 + n4 * 4 + n1 - 1 =
        n400 * 400 + n100 * 100 + n4 * 4 + n1 := by omega
    have hleap : isLeap (n400 * 400 + 1 + n100 * 100 + n4 * 4 + n1 - 1) = true := by
      rw [isLeap_iff]
      omega
    refine ⟨⟨by simp, by simp, by simp, by simp [daysInMonth, daysInMonthTable]⟩, ?_⟩
    simp only [ymd2ord, daysBeforeMonth, hleap, daysBeforeMonthTable, daysBeforeYear]
    norm_num
    rcases hlast with h | h
    · have : n100 ≤ 3 := by omega
      have : n4 ≤ 23 := by omega
      have h4 : (n400 * 400 + 1 + n100 * 100 + n4 * 4 + n1 - 1 - 1) / 4 =
          n400 * 100 + n100 * 25 + n4 := by omega
      have h100 : (n400 * 400 + 1 + n100 * 100 + n4 * 4 + n1 - 1 - 1) / 100 =
          n400 * 4 + n100 := by omega
      have h400 : (n400 * 400 + 1 + n100 * 100 + n4 * 4 + n1 - 1 - 1) / 400 = n400 := by omega
      rw [h4, h100, h400]
      omega
    · have : r100 = 0 := by omega
      have : n4 = 0 := by omega
      have : n1 = 0 := by omega
      omega
  · rw [if_neg hlast]
    push Not at hlast
    have c1 : 0 ≤ n1 ∧ n1 ≤ 3 := by omega
    have c100 : 0 ≤ n100 ∧ n100 ≤ 3 := by omega
    have c4 : 0 ≤ n4 ∧ n4 ≤ 24 := by omega
    have hleap : isLeap (n400 * 400 + 1 + n100 * 100 + n4 * 4 + n1) =
        (decide (n1 = 3) && (decide (n4 ≠ 24) || decide (n100 = 3))) := by
      rw [Bool.eq_iff_iff, isLeap_iff]
      simp only [Bool.and_eq_true, Bool.or_eq_true, decide_eq_true_eq]
      omega
    have hb : n ≤ if (decide (n1 = 3) && (decide (n4 ≠ 24) || decide (n100 = 3))) = true
        then 365 else 364 := by split <;> omega
    have key := month_of_yday _ b1.1 hb _ hleap
    have hform : ∀ y : ℤ, ∀ leap : Bool,
        (if daysBeforeMonthTable ((n + 50) / 32) + (if (n + 50) / 32 > 2 ∧ leap = true then 1 else 0) > n
        then (⟨y, (n + 50) / 32 - 1, n - (daysBeforeMonthTable ((n + 50) / 32) +
          (if (n + 50) / 32 > 2 ∧ leap = true then 1 else 0) - (daysInMonthTable ((n + 50) / 32 - 1) +
          (if (n + 50) / 32 - 1 = 2 ∧ leap = true then 1 else 0))) + 1⟩ : YMD)
        else ⟨y, (n + 50) / 32, n - (daysBeforeMonthTable ((n + 50) / 32) +
          (if (n + 50) / 32 > 2 ∧ leap = true then 1 else 0)) + 1⟩) =
        ⟨y, (mdOf leap n).1, (mdOf leap n).2⟩ := by
      intro y leap
      unfold mdOf
      simp only []
      split_ifs <;> rfl
    rw [hform]
    refine ⟨key.1, ?_⟩
    have h2 := key.2
    unfold ymd2ord
    simp only
    rw [add_assoc, h2]
    unfold daysBeforeYear
    have h4 : (n400 * 400 + 1 + n100 * 100 + n4 * 4 + n1 - 1) / 4 =
        n400 * 100 + n100 * 25 + n4 := by omega
    have h100 : (n400 * 400 + 1 + n100 * 100 + n4 * 4 + n1 - 1) / 100 =
        n400 * 4 + n100 := by omega
    have h400 : (n400 * 400 + 1 + n100 * 100 + n4 * 4 + n1 - 1) / 400 = n400 := by omega
    rw [h4, h100, h400]
    omega

theorem ord2ymd_ymd2ord {c : YMD} (h : c.Valid) : ord2ymd (ymd2ord c.year c.month c.day) = c :=
  ymd2ord_injective (ord2ymd_spec _).1 h (ord2ymd_spec _).2

/-! ## Civil time -/

theorem civilOfMicros_valid (t : ℤ) : (civilOfMicros t).FieldsValid := by
  refine ⟨(ord2ymd_spec _).1, ?_⟩
  simp only [civilOfMicros, usPerDay]
  omega

theorem micros_civilOfMicros (t : ℤ) : (civilOfMicros t).micros = t := by
  unfold Civil.micros
  have h : ymd2ord (civilOfMicros t).year (civilOfMicros t).month (civilOfMicros t).day
      = t / usPerDay := (ord2ymd_spec _).2
  rw [h]
  simp only [civilOfMicros, usPerDay]
  omega

theorem micros_div {c : Civil} (h : c.FieldsValid) :
    c.micros / usPerDay = ymd2ord c.year c.month c.day := by
  obtain ⟨-, h1, h2, h3, h4, h5, h6, h7, h8⟩ := h
  unfold Civil.micros usPerDay
  omega

theorem civilOfMicros_micros {c : Civil} (h : c.FieldsValid) : civilOfMicros c.micros = c := by
  have hd := micros_div h
  obtain ⟨hv, h1, h2, h3, h4, h5, h6, h7, h8⟩ := h
  have hc := ord2ymd_ymd2ord hv
  simp only at hc
  have hr : c.micros % usPerDay =
      c.hour * 3600000000 + c.minute * 60000000 + c.second * 1000000 + c.micro := by
    unfold Civil.micros usPerDay
    omega
  unfold civilOfMicros
  simp only [hd, hc, hr]
  have e1 : (c.hour * 3600000000 + c.minute * 60000000 + c.second * 1000000 + c.micro) / 3600000000
      = c.hour := by omega
  have e2 : (c.hour * 3600000000 + c.minute * 60000000 + c.second * 1000000 + c.micro) / 60000000 % 60
      = c.minute := by omega
  have e3 : (c.hour * 3600000000 + c.minute * 60000000 + c.second * 1000000 + c.micro) / 1000000 % 60
      = c.second := by omega
  have e4 : (c.hour * 3600000000 + c.minute * 60000000 + c.second * 1000000 + c.micro) % 1000000
      = c.micro := by omega
  rw [e1, e2, e3, e4]

theorem micros_injective {c c' : Civil} (h : c.FieldsValid) (h' : c'.FieldsValid)
    (he : c.micros = c'.micros) : c = c' := by
  rw [← civilOfMicros_micros h, ← civilOfMicros_micros h', he]

end Verif
