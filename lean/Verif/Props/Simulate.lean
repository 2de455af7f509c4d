import Verif.Proofs.SunriseEval
import Verif.Proofs.Position
import Verif.Props.Irradiance
import Verif.Model.Simulate

/-!
# C54-C56: `datetime_range` and `simulate_span`
-/

namespace Verif.Props

open Verif.Spec Pysolar Pysolar.Simulate Pysolar.Solar Pysolar.Constants Real

variable {tp : ℝ}

/-! ## Generators -/

section
variable {α β : Type} {f : α → Py β}

theorem ofLoop_get {xs : List α} {n : ℕ} {y : β} (h : (Gen.ofLoop f xs).yields[n]? = some y) :
    ∃ x, xs[n]? = some x ∧ f x = .ok y := by
  induction xs generalizing n with
  | nil => simp [Gen.ofLoop] at h
  | cons x xs ih =>
    rw [Gen.ofLoop] at h
    cases hf : f x with
    | error e => simp [hf] at h
    | ok z =>
      rw [hf] at h
      cases n with
      | zero => simp at h; exact ⟨x, rfl, by rw [hf, h]⟩
      | succ n => simp at h; simpa using ih h

theorem ofLoop_length {xs : List α} (h : (Gen.ofLoop f xs).err = none) :
    (Gen.ofLoop f xs).yields.length = xs.length := by
  induction xs with
  | nil => rfl
  | cons x xs ih =>
    rw [Gen.ofLoop] at h ⊢
    cases hf : f x with
    | error e => simp [hf] at h
    | ok z => rw [hf] at h; simp at h; simp [ih h]

theorem ofLoop_err {xs : List α} {e : PyErr} (h : (Gen.ofLoop f xs).err = some e) :
    ∃ x, xs[(Gen.ofLoop f xs).yields.length]? = some x ∧ f x = .error e := by
  induction xs with
  | nil => simp [Gen.ofLoop] at h
  | cons x xs ih =>
    rw [Gen.ofLoop] at h ⊢
    cases hf : f x with
    | error e' => rw [hf] at h; simp at h; exact ⟨x, rfl, by rw [hf, h]⟩
    | ok z => rw [hf] at h; simp at h; simpa using ih h

theorem ofLoop_ok {xs : List α} (h : ∀ x ∈ xs, ∃ y, f x = .ok y) : (Gen.ofLoop f xs).err = none := by
  induction xs with
  | nil => rfl
  | cons x xs ih =>
    obtain ⟨y, hy⟩ := h x (by simp)
    rw [Gen.ofLoop, hy]
    exact ih fun z hz => h z (by simp [hz])

end

/-! ## C54 -/

theorem spanSeconds_eq (us : ℤ) : spanSeconds us = us / 1000000 := by
  simp only [spanSeconds, usPerDay, usPerSecond, seconds_per_day]
  omega

theorem rangeCount_inv {s e : DateTime} {k count : ℤ} (h : rangeCount s e k = .ok count) :
    ∃ span, e.sub s = .ok span ∧ k ≠ 0 ∧ timedeltaChecked (k * 60 * usPerSecond) = .ok (k * 60 * usPerSecond) ∧
      count = Int.fdiv (span / 1000000) (k * 60) := by
  unfold rangeCount at h
  cases hs : e.sub s with
  | error e' => rw [hs] at h; simp at h
  | ok span =>
    rw [hs] at h
    simp only [ok_bind] at h
    cases ht : timedeltaChecked (k * 60 * usPerSecond) with
    | error e' => rw [ht] at h; simp at h
    | ok d =>
      have hd : d = k * 60 * usPerSecond := by
        unfold timedeltaChecked at ht
        split_ifs at ht
        exact (Except.ok.inj ht).symm
      subst hd
      rw [ht] at h
      simp only [ok_bind] at h
      by_cases hk : k * 60 = 0
      · rw [if_pos hk] at h; cases h
      · rw [if_neg hk, spanSeconds_eq] at h
        exact ⟨span, rfl, by omega, rfl, (Except.ok.inj h).symm⟩

/-- C54: the value yielded at index `n` is the start plus `n` steps on the clock, in the zone of the start. -/
theorem C54_nth (s e : DateTime) (k : ℤ) (n : ℕ) (y : DateTime) (h : (datetime_range s e k).yields[n]? = some y) :
    y.civil.micros = s.civil.micros + n * (k * 60000000) ∧ y.civil.Valid ∧ y.tz = s.tz ∧ y.fold = false := by
  unfold datetime_range at h
  cases hc : rangeCount s e k with
  | error e' => rw [hc] at h; simp at h
  | ok count =>
    rw [hc] at h
    obtain ⟨x, hx, hy⟩ := ofLoop_get h
    have hxn : x = n := by
      rw [List.getElem?_range] at hx
      · exact (Option.some.inj hx).symm
      · by_contra hlt
        rw [List.getElem?_eq_none (by simpa using hlt)] at hx
        simp at hx
    subst hxn
    unfold timedeltaChecked at hy
    split_ifs at hy with ht
    · simp only [ok_bind] at hy
      obtain ⟨rfl, hv, hm⟩ := add_inv hy
      refine ⟨?_, hv, rfl, rfl⟩
      rw [hm]
      simp only [usPerSecond]
      ring
    · simp at hy

theorem floor_div_pos (a : ℤ) {b : ℤ} (hb : 0 < b) : ⌊(a : ℚ) / (b : ℚ)⌋ = a / b := by
  lift b to ℕ using hb.le
  exact Rat.floor_intCast_div_natCast a b

theorem floor_div_eq_fdiv (a b : ℤ) : ⌊(a : ℚ) / (b : ℚ)⌋ = Int.fdiv a b := by
  rcases lt_trichotomy b 0 with h | rfl | h
  · rw [← Int.neg_fdiv_neg, Int.fdiv_eq_ediv_of_nonneg _ (by omega), ← floor_div_pos (-a) (b := -b) (by omega)]
    push_cast
    rw [neg_div_neg_eq]
  · simp
  · rw [floor_div_pos a h, Int.fdiv_eq_ediv_of_nonneg _ h.le]

/-- C54: the number of values of a range that ends normally: the span in whole seconds, floor-divided by the step in
seconds; for a positive step this is the floor of the exact quotient. -/
theorem C54_count (s e : DateTime) (k : ℤ) (h : (datetime_range s e k).err = none) :
    ∃ span, e.sub s = .ok span ∧ k ≠ 0 ∧
      (datetime_range s e k).yields.length = ⌊((⌊(span : ℚ) / 1000000⌋ : ℤ) : ℚ) / ((k * 60 : ℤ) : ℚ)⌋.toNat ∧
      (0 < k → (datetime_range s e k).yields.length = ⌊(span : ℚ) / ((k * 60000000 : ℤ) : ℚ)⌋.toNat) := by
  unfold datetime_range at h ⊢
  cases hc : rangeCount s e k with
  | error e' => rw [hc] at h; simp at h
  | ok count =>
    rw [hc] at h
    obtain ⟨span, hs, hk, -, rfl⟩ := rangeCount_inv hc
    have hl := ofLoop_length h
    have e1 : ⌊(span : ℚ) / 1000000⌋ = span / 1000000 := by
      exact_mod_cast floor_div_pos span (b := 1000000) (by norm_num)
    refine ⟨span, hs, hk, ?_, fun hpos => ?_⟩
    · rw [hl, List.length_range, e1, floor_div_eq_fdiv]
    · rw [hl, List.length_range, floor_div_pos _ (by omega), Int.fdiv_eq_ediv_of_nonneg _ (by omega),
        Int.ediv_ediv_of_nonneg (by norm_num)]
      congr 2
      ring

/-- The number of values never exceeds that, whether or not the range ends normally. -/
theorem range_index_lt {s e : DateTime} {k : ℤ} {n : ℕ} {y : DateTime}
    (h : (datetime_range s e k).yields[n]? = some y) {span : ℤ} (hs : e.sub s = .ok span) :
    (n : ℤ) < Int.fdiv (span / 1000000) (k * 60) := by
  unfold datetime_range at h
  cases hc : rangeCount s e k with
  | error e' => rw [hc] at h; simp at h
  | ok count =>
    rw [hc] at h
    obtain ⟨span', hs', hk, -, rfl⟩ := rangeCount_inv hc
    obtain rfl : span = span' := by rw [hs] at hs'; exact Except.ok.inj hs'
    obtain ⟨x, hx, -⟩ := ofLoop_get h
    have : n < (Int.fdiv (span / 1000000) (k * 60)).toNat := by
      by_contra hlt
      rw [List.getElem?_eq_none (by simpa using hlt)] at hx
      simp at hx
    omega

/-- C54: with a positive step, every value lies at or after the start, and a whole step fits between it and the end
of the span. -/
theorem C54_window (s e : DateTime) (k : ℤ) (hk : 0 < k) (span : ℤ) (hs : e.sub s = .ok span) (n : ℕ)
    (y : DateTime) (h : (datetime_range s e k).yields[n]? = some y) :
    s.civil.micros ≤ y.civil.micros ∧ y.civil.micros + k * 60000000 ≤ s.civil.micros + span := by
  obtain ⟨hm, -⟩ := C54_nth s e k n y h
  have hlt := range_index_lt h hs
  rw [Int.fdiv_eq_ediv_of_nonneg _ (by omega)] at hlt
  have h1 : ((n : ℤ) + 1) * (k * 60) ≤ span / 1000000 := by
    rw [← Int.le_ediv_iff_mul_le (by omega)]; omega
  have h2 : ((n : ℤ) + 1) * (k * 60) * 1000000 ≤ span := by omega
  have h3 : 0 ≤ (n : ℤ) * (k * 60000000) := by positivity
  rw [hm]
  constructor
  · omega
  · nlinarith

theorem sub_same_tz {a b : DateTime} (h : a.tz = b.tz) : a.sub b = .ok (a.civil.micros - b.civil.micros) := by
  unfold DateTime.sub
  rw [h]
  cases b.tz <;> simp

/-- C54: between two datetimes of the same zone (or two naive ones), all values are in `[start, end)`. -/
theorem C54_half_open (s e : DateTime) (k : ℤ) (hk : 0 < k) (hz : e.tz = s.tz) (n : ℕ) (y : DateTime)
    (h : (datetime_range s e k).yields[n]? = some y) :
    s.civil.micros ≤ y.civil.micros ∧ y.civil.micros < e.civil.micros := by
  obtain ⟨h1, h2⟩ := C54_window s e k hk _ (sub_same_tz hz) n y h
  exact ⟨h1, by omega⟩

theorem year_between {a b : Civil} (ha : a.Valid) (hb : b.Valid) {t : ℤ} (h1 : a.micros ≤ t) (h2 : t ≤ b.micros) :
    1 ≤ (civilOfMicros t).year ∧ (civilOfMicros t).year ≤ 9999 := by
  have hv : (civilOfMicros t).FieldsValid := civilOfMicros_valid t
  have m1 := micros_bounds ha
  have m2 := micros_bounds hb
  have d2 := micros_div hv
  rw [micros_civilOfMicros] at d2
  have o2 := ymd2ord_eq (civilOfMicros t).date
  have y2 := yday_bounds (c := (civilOfMicros t).date) hv.1
  have s2 := daysBeforeYear_succ (civilOfMicros t).year
  simp only [Civil.date] at o2 y2
  simp only [usPerDay] at *
  constructor
  · by_contra hn
    have m := daysBeforeYear_mono (y := (civilOfMicros t).year + 1) (y' := 1) (by omega)
    have e1 : daysBeforeYear 1 = 0 := by decide
    omega
  · by_contra hn
    have m := daysBeforeYear_mono (y := 10000) (y' := (civilOfMicros t).year) (by omega)
    have e1 : daysBeforeYear 10000 = 3652059 := by decide
    omega

/-- C54: such a range ends normally (the step being a possible `timedelta`). -/
theorem C54_complete (s e : DateTime) (k : ℤ) (hk : 0 < k) (hk2 : k ≤ 1000000000000) (hz : e.tz = s.tz)
    (hsv : s.civil.Valid) (hev : e.civil.Valid) : (datetime_range s e k).err = none := by
  have b1 := micros_bounds hsv
  have b2 := micros_bounds hev
  have hsub := sub_same_tz hz
  have hc : rangeCount s e k = .ok (Int.fdiv ((e.civil.micros - s.civil.micros) / 1000000) (k * 60)) := by
    unfold rangeCount
    rw [hsub]
    simp only [ok_bind, spanSeconds_eq]
    unfold timedeltaChecked
    rw [if_pos (by simp only [usPerDay, usPerSecond]; omega)]
    simp only [ok_bind]
    rw [if_neg (by omega)]
    rfl
  unfold datetime_range
  rw [hc]
  refine ofLoop_ok fun n hn => ?_
  rw [List.mem_range] at hn
  have hlt : (n : ℤ) < Int.fdiv ((e.civil.micros - s.civil.micros) / 1000000) (k * 60) := by omega
  rw [Int.fdiv_eq_ediv_of_nonneg _ (by omega)] at hlt
  have h1 : ((n : ℤ) + 1) * (k * 60) ≤ (e.civil.micros - s.civil.micros) / 1000000 := by
    rw [← Int.le_ediv_iff_mul_le (by omega)]; omega
  have h2 : ((n : ℤ) + 1) * (k * 60) * 1000000 ≤ e.civil.micros - s.civil.micros := by omega
  have h3 : 0 ≤ k * 60 * 1000000 * (n : ℤ) := by positivity
  have h4 : k * 60 * 1000000 * (n : ℤ) ≤ e.civil.micros - s.civil.micros := by nlinarith
  have ht : timedeltaChecked (k * 60 * usPerSecond * n) = .ok (k * 60 * 1000000 * n) := by
    unfold timedeltaChecked
    rw [if_pos (by simp only [usPerDay, usPerSecond]; omega)]
    rfl
  rw [ht]
  simp only [ok_bind]
  have hy : 1 ≤ (civilOfMicros (s.civil.micros + k * 60 * 1000000 * n)).year ∧
      (civilOfMicros (s.civil.micros + k * 60 * 1000000 * n)).year ≤ 9999 :=
    year_between hsv hev (by omega) (by omega)
  refine ⟨⟨civilOfMicros (s.civil.micros + k * 60 * 1000000 * n), false, s.tz⟩, ?_⟩
  unfold DateTime.add civilChecked
  dsimp only
  rw [if_pos hy]
  rfl

/-- C54: nothing is yielded with a positive step if the span is shorter than the step (in particular if the end is not
after the start). -/
theorem C54_empty (s e : DateTime) (k : ℤ) (hk : 0 < k) (span : ℤ) (hs : e.sub s = .ok span)
    (h : span < k * 60000000) : (datetime_range s e k).yields = [] := by
  by_contra hne
  obtain ⟨y, hy⟩ : ∃ y, (datetime_range s e k).yields[0]? = some y := by
    cases hl : (datetime_range s e k).yields with
    | nil => exact absurd hl hne
    | cons a l => exact ⟨a, rfl⟩
  have := (C54_window s e k hk span hs 0 y hy).2
  have h0 := (C54_window s e k hk span hs 0 y hy).1
  omega

/-- C54: step 0 raises `ZeroDivisionError` before anything is yielded. -/
theorem C54_zero (s e : DateTime) (span : ℤ) (hs : e.sub s = .ok span) :
    datetime_range s e 0 = ⟨[], some .zeroDivision⟩ := by
  have : rangeCount s e 0 = .error .zeroDivision := by
    unfold rangeCount
    rw [hs]
    simp only [ok_bind]
    unfold timedeltaChecked
    rw [if_pos (by simp only [usPerDay, usPerSecond]; omega)]
    rfl
  unfold datetime_range
  rw [this]

/-- C54: a naive and an aware datetime cannot be combined. -/
theorem C54_mixed (s e : DateTime) (k : ℤ)
    (h : (s.tz = none ∧ e.utcoffset.isSome) ∨ (e.tz = none ∧ s.utcoffset.isSome)) :
    datetime_range s e k = ⟨[], some .typeError⟩ := by
  have : e.sub s = .error .typeError := by
    unfold DateTime.sub
    rcases h with ⟨h1, h2⟩ | ⟨h1, h2⟩
    · cases h3 : e.tz with
      | none => rw [DateTime.utcoffset, h3] at h2; simp at h2
      | some z => rw [h1]; cases h4 : e.utcoffset <;> simp_all
    · cases h3 : s.tz with
      | none => rw [DateTime.utcoffset, h3] at h2; simp at h2
      | some z => rw [h1]; cases h4 : s.utcoffset <;> simp_all
  have : rangeCount s e k = .error .typeError := by
    unfold rangeCount
    rw [this]
    rfl
  unfold datetime_range
  rw [this]

/-- Two naive datetimes 59 minutes and 59.999999 s apart: with a step of 20 minutes, two values. -/
def naiveStart : DateTime := ⟨⟨2024, 2, 28, 23, 30, 0, 0⟩, false, none⟩
def naiveEnd : DateTime := ⟨⟨2024, 2, 29, 0, 29, 59, 999999⟩, false, none⟩

theorem naive_valid : naiveStart.civil.Valid ∧ naiveEnd.civil.Valid :=
  ⟨civil_valid_of_check (by decide), civil_valid_of_check (by decide)⟩

example : (datetime_range naiveStart naiveEnd 20).err = none :=
  C54_complete _ _ 20 (by norm_num) (by norm_num) rfl naive_valid.1 naive_valid.2
example : (datetime_range naiveStart naiveEnd 20).yields.map (·.civil)
    = [⟨2024, 2, 28, 23, 30, 0, 0⟩, ⟨2024, 2, 28, 23, 50, 0, 0⟩] := by decide +kernel
/-- A negative step backwards in time, with the floor of a negative quotient. -/
example : (datetime_range naiveEnd naiveStart (-20)).yields.map (·.civil)
    = [⟨2024, 2, 29, 0, 29, 59, 999999⟩, ⟨2024, 2, 29, 0, 9, 59, 999999⟩, ⟨2024, 2, 28, 23, 49, 59, 999999⟩] := by
  decide +kernel
example : naiveStart.tz = none ∧ sampleDT.utcoffset.isSome := ⟨rfl, rfl⟩

/-! ## C55 -/

/-- C55, for every backend: the row at index `n` belongs to the time at index `n` of `datetime_range`, and its other
entries are computed from it as stated. -/
theorem C55_rows (B : Backend) (lat lon : B.α) (horizon : List B.α) (s e : DateTime) (k : ℤ)
    (elev T P : B.α) (n : ℕ) (r : Row B)
    (h : (simulate_span B lat lon horizon s e k elev T P).yields[n]? = some r) :
    (datetime_range s e k).yields[n]? = some r.time ∧
    get_altitude B lat lon (.dt r.time) elev T P = .ok r.alt ∧
    get_azimuth B lat lon (.dt r.time) elev = .ok r.azi ∧
    (∃ i, B.round r.azi = .ok i ∧ pyIndexInt horizon i = .ok r.shade) ∧
    ∃ sn m shaded, B.sin (B.radians r.alt) = .ok sn ∧ B.round (B.lit 380 * sn) = .ok m ∧
      B.truth (B.lt r.shade (B.lit ((380 - m : ℤ) : ℚ))) = .ok shaded ∧
      (shaded = true → r.rad = 0) ∧
      (shaded = false → Radiation.get_radiation_direct B (.dt r.time) r.alt = .ok r.rad) := by
  have h' : (Gen.ofLoop (simulateRow B lat lon horizon elev T P) (datetime_range s e k).yields).yields[n]? = some r := by
    unfold simulate_span Gen.bindLoop at h
    dsimp only at h
    split at h <;> exact h
  obtain ⟨t, ht, hr⟩ := ofLoop_get h'
  unfold simulateRow at hr
  cases h1 : get_altitude B lat lon (.dt t) elev T P with
  | error e => rw [h1] at hr; simp at hr
  | ok alt =>
  rw [h1] at hr; simp only [ok_bind] at hr
  cases h2 : get_azimuth B lat lon (.dt t) elev with
  | error e => rw [h2] at hr; simp at hr
  | ok azi =>
  rw [h2] at hr; simp only [ok_bind] at hr
  cases h3 : B.round azi with
  | error e => rw [h3] at hr; simp at hr
  | ok i =>
  rw [h3] at hr; simp only [ok_bind] at hr
  cases h4 : pyIndexInt horizon i with
  | error e => rw [h4] at hr; simp at hr
  | ok shade =>
  rw [h4] at hr; simp only [ok_bind] at hr
  cases h5 : B.sin (B.radians alt) with
  | error e => rw [h5] at hr; simp at hr
  | ok sn =>
  rw [h5] at hr; simp only [ok_bind] at hr
  cases h6 : B.round (B.lit ((380 : ℤ) : ℚ) * sn) with
  | error e => rw [h6] at hr; simp at hr
  | ok m =>
  rw [h6] at hr; simp only [ok_bind] at hr
  cases h7 : B.truth (B.lt shade (B.lit ((380 - m : ℤ) : ℚ))) with
  | error e => rw [h7] at hr; simp at hr
  | ok c =>
  rw [h7] at hr; simp only [ok_bind] at hr
  cases c with
  | true =>
    simp only [if_true] at hr
    obtain rfl := Except.ok.inj hr
    exact ⟨ht, h1, h2, ⟨i, h3, h4⟩, sn, m, true, h5, by simpa using h6, h7, fun _ => rfl, by simp⟩
  | false =>
    simp only [Bool.false_eq_true, if_false] at hr
    cases h8 : Radiation.get_radiation_direct B (.dt t) alt with
    | error e => rw [h8] at hr; simp at hr
    | ok rd =>
    rw [h8] at hr; simp only [ok_bind] at hr
    obtain rfl := Except.ok.inj hr
    exact ⟨ht, h1, h2, ⟨i, h3, h4⟩, sn, m, false, h5, by simpa using h6, h7, by simp, fun _ => h8⟩

/-- C55: there is one row for each time, unless the iteration ends with an exception. -/
theorem C55_row_count (B : Backend) (lat lon : B.α) (horizon : List B.α) (s e : DateTime) (k : ℤ)
    (elev T P : B.α) (h : (simulate_span B lat lon horizon s e k elev T P).err = none) :
    (datetime_range s e k).err = none ∧
    (simulate_span B lat lon horizon s e k elev T P).yields.length = (datetime_range s e k).yields.length := by
  unfold simulate_span Gen.bindLoop at h ⊢
  dsimp only at h ⊢
  cases hh : (Gen.ofLoop (simulateRow B lat lon horizon elev T P) (datetime_range s e k).yields).err with
  | some e' => rw [hh] at h; simp at h
  | none =>
    rw [hh] at h
    exact ⟨h, ofLoop_length hh⟩

/-- C55: an exception that ends the iteration comes from `datetime_range` after all its times, or from the row of the
time that follows the last row yielded. -/
theorem C55_exception (B : Backend) (lat lon : B.α) (horizon : List B.α) (s e : DateTime) (k : ℤ)
    (elev T P : B.α) (x : PyErr) (h : (simulate_span B lat lon horizon s e k elev T P).err = some x) :
    (∃ t, (datetime_range s e k).yields[(simulate_span B lat lon horizon s e k elev T P).yields.length]? = some t ∧
      simulateRow B lat lon horizon elev T P t = .error x) ∨
    ((datetime_range s e k).err = some x ∧
      (simulate_span B lat lon horizon s e k elev T P).yields.length = (datetime_range s e k).yields.length) := by
  unfold simulate_span Gen.bindLoop at h ⊢
  dsimp only at h ⊢
  cases hh : (Gen.ofLoop (simulateRow B lat lon horizon elev T P) (datetime_range s e k).yields).err with
  | some e' =>
    rw [hh] at h
    obtain ⟨t, ht⟩ := ofLoop_err hh
    refine Or.inl ⟨t, ht.1, ?_⟩
    rw [ht.2, Option.some.inj h]
  | none =>
    rw [hh] at h
    exact Or.inr ⟨h, ofLoop_length hh⟩

/-- The exceptions of `datetime_range`. -/
theorem range_err {s e : DateTime} {k : ℤ} {x : PyErr} (h : (datetime_range s e k).err = some x) :
    x = .typeError ∨ x = .overflow ∨ x = .zeroDivision := by
  have hsub : ∀ a b : DateTime, ∀ x, a.sub b = .error x → x = .typeError := by
    intro a b x hx
    unfold DateTime.sub at hx
    repeat' split at hx
    all_goals first | exact (Except.error.inj hx).symm | cases hx
  have htd : ∀ us : ℤ, ∀ x, timedeltaChecked us = .error x → x = .overflow := by
    intro us x hx
    unfold timedeltaChecked at hx
    split_ifs at hx
    exact (Except.error.inj hx).symm
  unfold datetime_range at h
  cases hc : rangeCount s e k with
  | error e' =>
    rw [hc] at h
    obtain rfl := Option.some.inj h
    unfold rangeCount at hc
    cases hs : e.sub s with
    | error e'' =>
      rw [hs] at hc
      have : e'' = e' := by simpa using hc
      exact Or.inl (this ▸ hsub _ _ _ hs)
    | ok span =>
      rw [hs] at hc
      simp only [ok_bind] at hc
      cases ht : timedeltaChecked (k * 60 * usPerSecond) with
      | error e'' =>
        rw [ht] at hc
        have : e'' = e' := by simpa using hc
        exact Or.inr (Or.inl (this ▸ htd _ _ ht))
      | ok d =>
        rw [ht] at hc
        simp only [ok_bind] at hc
        by_cases hk : k * 60 = 0
        · rw [if_pos hk] at hc
          exact Or.inr (Or.inr (Except.error.inj hc).symm)
        · rw [if_neg hk] at hc; cases hc
  | ok count =>
    rw [hc] at h
    obtain ⟨n, -, hn⟩ := ofLoop_err h
    cases ht : timedeltaChecked (k * 60 * usPerSecond * n) with
    | error e'' =>
      rw [ht] at hn
      have : e'' = x := by simpa using hn
      exact Or.inr (Or.inl (this ▸ htd _ _ ht))
    | ok d =>
      rw [ht] at hn
      simp only [ok_bind] at hn
      exact Or.inr (Or.inl (add_err hn))

/-- C55 with real numbers: the horizon is read at the azimuth rounded to a whole degree (ties to even), and the
radiation is 0 if the horizon entry is below `380 - round(380 sin altitude)`, and the direct radiation otherwise. -/
theorem C55_math (tp lat lon elev T P : ℝ) (horizon : List (mathB tp).α) (s e : DateTime) (k : ℤ)
    (n : ℕ) (r : Row (mathB tp)) (alt azi shade : ℝ) (halt : r.alt = num alt) (hazi : r.azi = num azi)
    (hsh : r.shade = num shade)
    (h : (simulate_span (mathB tp) (num lat) (num lon) horizon s e k (num elev) (num T) (num P)).yields[n]? = some r) :
    pyIndexInt horizon (roundHalfEven azi) = .ok (num shade) ∧
    (shade < 380 - roundHalfEven (380 * sin (rad alt)) → r.rad = num 0) ∧
    (¬ shade < 380 - roundHalfEven (380 * sin (rad alt)) →
      Radiation.get_radiation_direct (mathB tp) (.dt r.time) (num alt) = .ok r.rad) := by
  obtain ⟨-, -, -, ⟨i, hi, hs⟩, sn, m, c, h1, h2, h3, h4, h5⟩ := C55_rows _ _ _ _ _ _ _ _ _ _ _ _ h
  rw [hazi] at hi
  rw [halt, m_radians, m_sin] at h1
  obtain rfl : i = roundHalfEven azi := (Except.ok.inj hi).symm
  obtain rfl : sn = num (sin (rad alt)) := (Except.ok.inj h1).symm
  rw [m_lit, m_mul] at h2
  have hm : m = roundHalfEven (380 * sin (rad alt)) := by
    have := (Except.ok.inj h2).symm
    rw [this]
    norm_num
  rw [hsh] at h3 hs
  rw [m_lit, m_lt] at h3
  have hc : c = true ↔ shade < 380 - roundHalfEven (380 * sin (rad alt)) := by
    have := (Except.ok.inj h3).symm
    rw [this, hm]
    push_cast
    simp [mb]
  refine ⟨hs, fun hlt => ?_, fun hlt => ?_⟩
  · rw [h4 (hc.mpr hlt), m_zero]
  · rw [← halt]
    refine h5 ?_
    by_contra hne
    exact hlt (hc.mp (by simpa using hne))

/-- C55 is not vacuous: on the equator at local noon one hour in one-hour steps gives exactly one row, with a horizon
high enough (a small entry) radiation 0, and with an open one (a large entry) the direct radiation. -/
def sampleEnd : DateTime := ⟨⟨2007, 2, 18, 16, 13, 1, 130320⟩, false, some (fixedTz 1 (-18000000000))⟩

theorem sample_range : (datetime_range sampleDT sampleEnd 60).yields = [sampleDT] ∧
    (datetime_range sampleDT sampleEnd 60).err = none := by
  have h : rangeCount sampleDT sampleEnd 60 = .ok 1 := by decide +kernel
  unfold datetime_range
  rw [h]
  have h' : (do
      let off ← timedeltaChecked (60 * 60 * usPerSecond * ((0 : ℕ) : ℤ))
      sampleDT.add off) = .ok sampleDT := by
    have : timedeltaChecked (60 * 60 * usPerSecond * ((0 : ℕ) : ℤ)) = .ok 0 := by decide +kernel
    rw [this]
    have hc : civilChecked (sampleDT.civil.micros + 0) = .ok sampleDT.civil := by decide +kernel
    unfold DateTime.add
    simp only [ok_bind, hc]
    rfl
  constructor <;>
  · dsimp only
    rw [show (1 : ℤ).toNat = 1 by rfl, List.range_succ, List.range_zero, List.nil_append, Gen.ofLoop, h']
    rfl

example (tp : ℝ) (htp : 1 ≤ |tp|) : ∃ lon : ℝ, ∃ r,
    (simulate_span (mathB tp) (num 0) (num lon) (List.replicate 361 (num (-1))) sampleDT sampleEnd 60
      (num 0)).yields[0]? = some r ∧ r.time = sampleDT ∧ r.rad = num 0 ∧ r.shade = num (-1) := by
  obtain ⟨a, -, ha⟩ := noon_standard htp sample_utc
  refine ⟨raOf tp sampleUTC - astOf sampleUTC, ⟨sampleDT, num a, num (aziOf tp 0 (raOf tp sampleUTC - astOf sampleUTC)
    0 sampleUTC), 0, num (-1)⟩, ?_, rfl, m_zero, rfl⟩
  set azi := aziOf tp 0 (raOf tp sampleUTC - astOf sampleUTC) 0 sampleUTC with hazi
  have z0 : 0 ≤ azi := mod360_nonneg _
  have z1 : azi < 360 := mod360_lt _
  have hr0 := roundHalfEven_mono z0
  have hr1 := roundHalfEven_mono z1.le
  have z := roundHalfEven_int 0
  have t := roundHalfEven_int 360
  push_cast at z t
  rw [z] at hr0
  rw [t] at hr1
  have hround : (mathB tp).round (num azi) = .ok (roundHalfEven azi) := rfl
  have hround' : (mathB tp).round (num (((380 : ℤ) : ℚ) * sin (rad a)))
      = .ok (roundHalfEven (((380 : ℤ) : ℚ) * sin (rad a))) := rfl
  have hidx : pyIndexInt (List.replicate 361 (num (-1) : (mathB tp).α)) (roundHalfEven azi) = .ok (num (-1)) := by
    unfold pyIndexInt pyIndex
    rw [if_pos hr0, List.getElem?_replicate, if_pos (by omega)]
  have hlev : roundHalfEven (((380 : ℤ) : ℚ) * sin (rad a)) ≤ 380 := by
    have e : (((380 : ℤ) : ℚ) : ℝ) * sin (rad a) ≤ ((380 : ℤ) : ℝ) := by
      have := sin_le_one (rad a)
      push_cast
      linarith
    have := roundHalfEven_mono e
    rwa [roundHalfEven_int] at this
  have hlt : (-1 : ℝ) < (((380 - roundHalfEven (((380 : ℤ) : ℚ) * sin (rad a)) : ℤ) : ℚ) : ℝ) := by
    have : (-1 : ℤ) < 380 - roundHalfEven (((380 : ℤ) : ℚ) * sin (rad a)) := by omega
    exact_mod_cast this
  have htruth : (mathB tp).truth ((mathB tp).lt (num (-1))
      (num (((380 - roundHalfEven (((380 : ℤ) : ℚ) * sin (rad a)) : ℤ) : ℚ) : ℝ))) = .ok true := by
    rw [m_lt]
    change Except.ok _ = _
    congr 1
    exact decide_eq_true hlt
  have hrow : simulateRow (mathB tp) (num 0) (num (raOf tp sampleUTC - astOf sampleUTC))
      (List.replicate 361 (num (-1))) (num 0) (num standard_temperature) (num standard_pressure) sampleDT
      = .ok ⟨sampleDT, num a, num azi, 0, num (-1)⟩ := by
    unfold simulateRow
    simp only [ha, azimuth_eval sample_utc, ← hazi, ok_bind, hround, hidx, m_radians, m_sin, m_lit, m_mul, hround',
      htruth, if_true]
    rfl
  unfold simulate_span Gen.bindLoop
  dsimp only
  rw [sample_range.1, Gen.ofLoop, m_lit, m_lit, hrow]
  rfl

end Verif.Props
