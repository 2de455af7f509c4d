import Verif.Model.SolarTest
import Verif.Props.SolarTest

/-!
# C125: the lines printed by `solar_test`
-/

namespace Verif.Props

open Verif.Spec Pysolar Pysolar.Solar Pysolar.Radiation

/-! ## `datetime.ctime()` -/

theorem digit_inj {a b : ℤ} (h : digit a = digit b) : a % 10 = b % 10 := by
  have key : ∀ i j : Fin 10, Char.ofNat (48 + i) = Char.ofNat (48 + j) → i = j := by decide
  have ha := Int.emod_nonneg a (by norm_num : (10 : ℤ) ≠ 0)
  have hb := Int.emod_nonneg b (by norm_num : (10 : ℤ) ≠ 0)
  have ha' := Int.emod_lt_of_pos a (by norm_num : (0 : ℤ) < 10)
  have hb' := Int.emod_lt_of_pos b (by norm_num : (0 : ℤ) < 10)
  have := key ⟨(a % 10).toNat, by omega⟩ ⟨(b % 10).toNat, by omega⟩ h
  have e : (a % 10).toNat = (b % 10).toNat := congrArg Fin.val this
  omega

theorem digit_ne_space (a : ℤ) : digit a ≠ ' ' := by
  have key : ∀ i : Fin 10, Char.ofNat (48 + i) ≠ ' ' := by decide
  have ha := Int.emod_nonneg a (by norm_num : (10 : ℤ) ≠ 0)
  have ha' := Int.emod_lt_of_pos a (by norm_num : (0 : ℤ) < 10)
  exact key ⟨(a % 10).toNat, by omega⟩

theorem pad0_inj {a b : ℤ} (ha : 0 ≤ a) (ha' : a ≤ 59) (hb : 0 ≤ b) (hb' : b ≤ 59) (h : pad0 a = pad0 b) : a = b := by
  unfold pad0 at h
  have h1 := digit_inj (List.cons.inj h).1
  have h2 := digit_inj (List.cons.inj (List.cons.inj h).2).1
  omega

theorem padSpace_inj {a b : ℤ} (ha : 1 ≤ a) (ha' : a ≤ 31) (hb : 1 ≤ b) (hb' : b ≤ 31) (h : padSpace a = padSpace b) : a = b := by
  unfold padSpace at h
  have h1 := (List.cons.inj h).1
  have h2 := digit_inj (List.cons.inj (List.cons.inj h).2).1
  split_ifs at h1 with c1 c2 c2
  · omega
  · exact absurd h1.symm (digit_ne_space _)
  · exact absurd h1 (digit_ne_space _)
  · have := digit_inj h1
    omega

theorem pad4_inj {a b : ℤ} (ha : 1 ≤ a) (ha' : a ≤ 9999) (hb : 1 ≤ b) (hb' : b ≤ 9999) (h : pad4 a = pad4 b) : a = b := by
  unfold pad4 at h
  have h1 := digit_inj (List.cons.inj h).1
  have h2 := digit_inj (List.cons.inj (List.cons.inj h).2).1
  have h3 := digit_inj (List.cons.inj (List.cons.inj (List.cons.inj h).2).2).1
  have h4 := digit_inj (List.cons.inj (List.cons.inj (List.cons.inj (List.cons.inj h).2).2).2).1
  omega

theorem month_name {a : ℤ} (ha : 1 ≤ a) (ha' : a ≤ 12) : (monthNames.getD (a - 1).toNat []).length = 3 := by
  have key : ∀ i : Fin 12, (monthNames.getD i []).length = 3 := by decide
  exact key ⟨(a - 1).toNat, by omega⟩

theorem month_inj {a b : ℤ} (ha : 1 ≤ a) (ha' : a ≤ 12) (hb : 1 ≤ b) (hb' : b ≤ 12)
    (h : monthNames.getD (a - 1).toNat [] = monthNames.getD (b - 1).toNat []) : a = b := by
  have key : ∀ i j : Fin 12, monthNames.getD i [] = monthNames.getD j [] → i = j := by decide
  have := key ⟨(a - 1).toNat, by omega⟩ ⟨(b - 1).toNat, by omega⟩ h
  have e : (a - 1).toNat = (b - 1).toNat := congrArg Fin.val this
  omega

/-- The text of `ctime()` determines every field down to the second. -/
theorem C125_ctime (a b : Civil) (ha : a.Valid) (hb : b.Valid) (h : ctime a = ctime b) :
    a.year = b.year ∧ a.month = b.month ∧ a.day = b.day ∧ a.hour = b.hour ∧ a.minute = b.minute ∧ a.second = b.second := by
  obtain ⟨y1, y2, ⟨m1, m2, d1, d2⟩, h1, h2, n1, n2, s1, s2, -, -⟩ := ha
  obtain ⟨y1', y2', ⟨m1', m2', d1', d2'⟩, h1', h2', n1', n2', s1', s2', -, -⟩ := hb
  have hda := (daysInMonth_bounds a.year a.month).2
  have hdb := (daysInMonth_bounds b.year b.month).2
  dsimp only at *
  unfold ctime at h
  obtain ⟨h, e1⟩ := List.append_inj' h rfl
  obtain ⟨h, e2⟩ := List.append_inj' h rfl
  obtain ⟨h, e3⟩ := List.append_inj' h rfl
  obtain ⟨h, e4⟩ := List.append_inj' h rfl
  obtain ⟨h, e5⟩ := List.append_inj' h rfl
  obtain ⟨-, e6⟩ := List.append_inj' h (by rw [List.length_cons, List.length_cons, month_name m1 m2, month_name m1' m2'])
  exact ⟨pad4_inj y1 y2 y1' y2' (List.cons.inj e1).2, month_inj m1 m2 m1' m2' (List.cons.inj e6).2,
    padSpace_inj d1 (by omega) d1' (by omega) (List.cons.inj e5).2, pad0_inj h1 (by omega) h1' (by omega) (List.cons.inj e4).2,
    pad0_inj n1 n2 n1' n2' (List.cons.inj e3).2, pad0_inj s1 s2 s1' s2' (List.cons.inj e2).2⟩

/-- The number written in a text, whatever else stands there. -/
def number (w : List Char) : ℤ := (w.filter Char.isDigit).foldl (fun n c => 10 * n + (c.toNat - 48)) 0

/-- Days from 2000-01-01, a Saturday. -/
def daysFrom2000 (c : Civil) : ℤ := (c.micros - (⟨2000, 1, 1, 0, 0, 0, 0⟩ : Civil).micros) / 86400000000

theorem digit_spec (n : ℤ) : (digit n).isDigit = true ∧ ((digit n).toNat : ℤ) - 48 = n % 10 := by
  have key : ∀ i : Fin 10, (Char.ofNat (48 + i)).isDigit = true ∧ ((Char.ofNat (48 + i)).toNat : ℤ) - 48 = (i : ℕ) := by decide
  have h0 := Int.emod_nonneg n (by norm_num : (10 : ℤ) ≠ 0)
  have h1 := Int.emod_lt_of_pos n (by norm_num : (0 : ℤ) < 10)
  have := key ⟨(n % 10).toNat, by omega⟩
  refine ⟨this.1, this.2.trans ?_⟩
  show (((n % 10).toNat : ℕ) : ℤ) = n % 10
  omega

theorem number_two (n m : ℤ) : number [digit n, digit m] = 10 * (n % 10) + m % 10 := by
  unfold number
  simp only [List.filter_cons, (digit_spec _).1, if_true, List.filter_nil, List.foldl_cons, List.foldl_nil, (digit_spec _).2]
  ring

theorem number_four (n m k l : ℤ) :
    number [digit n, digit m, digit k, digit l] = 1000 * (n % 10) + 100 * (m % 10) + 10 * (k % 10) + l % 10 := by
  unfold number
  simp only [List.filter_cons, (digit_spec _).1, if_true, List.filter_nil, List.foldl_cons, List.foldl_nil, (digit_spec _).2]
  ring

theorem number_space (m : ℤ) : number [' ', digit m] = m % 10 := by
  have : Char.isDigit ' ' = false := by decide
  unfold number
  simp only [List.filter_cons, (digit_spec _).1, this, if_true, List.filter_nil, List.foldl_cons, List.foldl_nil, (digit_spec _).2,
    Bool.false_eq_true, if_false]
  ring

/-- C125: the timestamp reads `Sat Jan  1 00:00:00 2000`: the weekday, counted from a known Saturday, the English name of the
month, and the fields of date and time at their places. -/
theorem C125_timestamp (c : Civil) (hv : c.Valid) :
    (ctime c).length = 24 ∧
    [(ctime c)[3]?, (ctime c)[7]?, (ctime c)[10]?, (ctime c)[13]?, (ctime c)[16]?, (ctime c)[19]?]
      = [some ' ', some ' ', some ' ', some ':', some ':', some ' '] ∧
    some ((ctime c).take 3) = ["Sat".toList, "Sun".toList, "Mon".toList, "Tue".toList, "Wed".toList, "Thu".toList,
      "Fri".toList][(daysFrom2000 c % 7).toNat]? ∧
    some (((ctime c).drop 4).take 3) = ["Jan".toList, "Feb".toList, "Mar".toList, "Apr".toList, "May".toList, "Jun".toList,
      "Jul".toList, "Aug".toList, "Sep".toList, "Oct".toList, "Nov".toList, "Dec".toList][(c.month - 1).toNat]? ∧
    number (((ctime c).drop 8).take 2) = c.day ∧ ((ctime c)[8]? = some ' ' ↔ c.day < 10) ∧
    number (((ctime c).drop 11).take 2) = c.hour ∧ number (((ctime c).drop 14).take 2) = c.minute ∧
    number (((ctime c).drop 17).take 2) = c.second ∧ number ((ctime c).drop 20) = c.year := by
  obtain ⟨y1, y2, ⟨m1, m2, d1, d2⟩, h1, h2, n1, n2, s1, s2, u1, u2⟩ := hv
  have hd := (daysInMonth_bounds c.year c.month).2
  dsimp only at *
  have hw : (daysFrom2000 c % 7).toNat = ((ymd2ord c.year c.month c.day + 6 - 5) % 7).toNat := by
    have e : (⟨2000, 1, 1, 0, 0, 0, 0⟩ : Civil).micros = 730120 * 86400000000 := by decide +kernel
    unfold daysFrom2000
    rw [e]
    unfold Civil.micros
    omega
  have kw : ∀ i : Fin 7, ∃ x y z : Char, dayNames.getD i [] = [x, y, z] ∧ some [x, y, z] = ["Sat".toList, "Sun".toList, "Mon".toList,
      "Tue".toList, "Wed".toList, "Thu".toList, "Fri".toList][(((i : ℕ) : ℤ) - 5) % 7 |>.toNat]? := by
    intro i
    fin_cases i <;> exact ⟨_, _, _, rfl, rfl⟩
  have km : ∀ i : Fin 12, ∃ x y z : Char, monthNames.getD i [] = [x, y, z] ∧ some [x, y, z] = ["Jan".toList, "Feb".toList, "Mar".toList,
      "Apr".toList, "May".toList, "Jun".toList, "Jul".toList, "Aug".toList, "Sep".toList, "Oct".toList, "Nov".toList, "Dec".toList][i.val]? := by
    intro i
    fin_cases i <;> exact ⟨_, _, _, rfl, rfl⟩
  obtain ⟨w1, w2, w3, e1, e2⟩ := kw ⟨((ymd2ord c.year c.month c.day + 6) % 7).toNat, by omega⟩
  obtain ⟨x1, x2, x3, e3, e4⟩ := km ⟨(c.month - 1).toNat, by omega⟩
  dsimp only at e1 e2 e3 e4
  have hw2 : (((((ymd2ord c.year c.month c.day + 6) % 7).toNat : ℕ) : ℤ) - 5) % 7 = (ymd2ord c.year c.month c.day + 6 - 5) % 7 := by omega
  rw [hw2, ← hw] at e2
  rw [← e2, ← e4]
  have hc : ctime c = [w1, w2, w3, ' ', x1, x2, x3, ' ', if c.day < 10 then ' ' else digit (c.day / 10), digit c.day, ' ',
      digit (c.hour / 10), digit c.hour, ':', digit (c.minute / 10), digit c.minute, ':', digit (c.second / 10), digit c.second, ' ',
      digit (c.year / 1000), digit (c.year / 100), digit (c.year / 10), digit c.year] := by
    unfold ctime padSpace pad0 pad4
    rw [e1, e3]
    rfl
  rw [hc]
  refine ⟨rfl, rfl, rfl, rfl, ?_, ?_, ?_, ?_, ?_, ?_⟩
  · show number [if c.day < 10 then ' ' else digit (c.day / 10), digit c.day] = c.day
    split_ifs
    · rw [number_space]; omega
    · rw [number_two]; omega
  · show some (if c.day < 10 then ' ' else digit (c.day / 10)) = some ' ' ↔ _
    split_ifs with h
    · simp [h]
    · simp [h, digit_ne_space]
  · exact (number_two _ _).trans (by omega)
  · exact (number_two _ _).trans (by omega)
  · exact (number_two _ _).trans (by omega)
  · exact (number_four _ _ _ _).trans (by omega)

/-- The example of the Python documentation, and a day of two digits. -/
example : ctime ⟨2002, 12, 4, 20, 30, 40, 0⟩ = "Wed Dec  4 20:30:40 2002".toList := by decide
example : ctime ⟨2026, 11, 16, 9, 5, 0, 123⟩ = "Mon Nov 16 09:05:00 2026".toList := by decide

/-! ## The printed lines -/

/-- A line reports, for the half-hour number `k` after `now`, what the functions of the library return. -/
def LineFor (B : Backend) (now : DateTime) (k : ℕ) (line : Line B) : Prop :=
  ∃ d : DateTime, d.civil.Valid ∧ d.civil.micros = now.civil.micros + 1800000000 * k ∧ d.tz = now.tz ∧
    line.timestamp = ctime d.civil ∧ line.zone = "UTC".toList ∧
    get_altitude B 42.364908 (-71.112828) (.dt d) = .ok line.altitude_deg ∧
    get_azimuth B 42.364908 (-71.112828) (.dt d) = .ok line.azimuth_deg ∧
    get_radiation_direct B (.dt d) line.altitude_deg = .ok line.power ∧
    B.truth (B.lt 0 line.altitude_deg) = .ok true

theorem step_inv {B : Backend} {now d : DateTime} {k : ℕ} {line : Line B} (h : solarTestStep B d = .ok (some line))
    (hv : d.civil.Valid) (hm : d.civil.micros = now.civil.micros + 1800000000 * k) (ht : d.tz = now.tz) :
    LineFor B now k line := by
  unfold solarTestStep at h
  dsimp only at h
  cases ha : get_altitude B 42.364908 (-71.112828) (.dt d) with
  | error e => rw [ha] at h; cases h
  | ok alt =>
    cases hz : get_azimuth B 42.364908 (-71.112828) (.dt d) with
    | error e => rw [ha, ok_bind, hz] at h; cases h
    | ok azi =>
      cases hr : get_radiation_direct B (.dt d) alt with
      | error e => rw [ha, ok_bind, hz, ok_bind, hr] at h; cases h
      | ok r =>
        cases hc : B.truth (B.lt 0 alt) with
        | error e => rw [ha, ok_bind, hz, ok_bind, hr, ok_bind, hc] at h; cases h
        | ok b =>
          rw [ha, ok_bind, hz, ok_bind, hr, ok_bind, hc, ok_bind] at h
          cases b with
          | false => cases h
          | true =>
            cases h
            exact ⟨d, hv, hm, ht, rfl, rfl, ha, hz, hr, hc⟩

theorem loop_lines {B : Backend} {now : DateTime} (n : ℕ) : ∀ (d : DateTime) (k : ℕ), d.civil.Valid →
    d.civil.micros = now.civil.micros + 1800000000 * k → d.tz = now.tz →
    ∃ l : List ℕ, l.Sublist (List.range' k n) ∧ List.Forall₂ (LineFor B now) l (solarTestLoop B n d).printed := by
  induction n with
  | zero => intro d k _ _ _; exact ⟨[], .slnil, .nil⟩
  | succ n ih =>
    intro d k hv hm ht
    cases hs : solarTestStep B d with
    | error e => exact ⟨[], List.nil_sublist _, by rw [loop_error hs]; exact .nil⟩
    | ok line =>
      have e : solarTestLoop B (n + 1) d = Run.andThen (solarTestStep B d) (d.add 1800000000) (solarTestLoop B n) := rfl
      rw [e, hs]
      have hline : ∀ l2 p2, List.Forall₂ (LineFor B now) l2 p2 → l2.Sublist (List.range' (k + 1) n) →
          ∃ l : List ℕ, l.Sublist (List.range' k (n + 1)) ∧ List.Forall₂ (LineFor B now) l (line.toList ++ p2) := by
        intro l2 p2 h2 hsub
        rw [List.range'_succ]
        cases line with
        | none => exact ⟨l2, hsub.cons _, h2⟩
        | some x => exact ⟨k :: l2, hsub.cons_cons _, .cons (step_inv hs hv hm ht) h2⟩
      cases ha : d.add 1800000000 with
      | error e =>
        obtain ⟨l, h1, h2⟩ := hline [] [] .nil (List.nil_sublist _)
        rw [List.append_nil] at h2
        exact ⟨l, h1, h2⟩
      | ok d' =>
        obtain ⟨r, v, m⟩ := add_inv ha
        obtain ⟨l2, s2, f2⟩ := ih d' (k + 1) v (by rw [m, hm]; push_cast; ring) (by rw [r]; exact ht)
        exact hline l2 _ f2 s2

/-- C125: in every number system (floats, arrays, ...), whatever the starting instant and whether or not the run ends with
an exception, every printed line reports the results of `get_altitude`, `get_azimuth` and `get_radiation_direct` for one of
the 48 half-hours, at which the altitude is positive; the half-hours are in order, at most one line each. -/
theorem C125_lines (B : Backend) (now : DateTime) (hv : now.civil.Valid) :
    ∃ l : List ℕ, l.Sublist (List.range 48) ∧ List.Forall₂ (LineFor B now) l (solar_test B now).printed := by
  rw [List.range_eq_range']
  exact loop_lines 48 now 0 hv (by simp) rfl

/-- The half-hour `k` after `now` has the sun at or below the horizon: no line. -/
def NoLine (B : Backend) (now : DateTime) (k : ℕ) : Prop :=
  ∃ (d : DateTime) (a : B.α), d.civil.Valid ∧ d.civil.micros = now.civil.micros + 1800000000 * k ∧ d.tz = now.tz ∧
    get_altitude B 42.364908 (-71.112828) (.dt d) = .ok a ∧ B.truth (B.lt 0 a) = .ok false

theorem step_none {B : Backend} {now d : DateTime} {k : ℕ} (h : solarTestStep B d = .ok none)
    (hv : d.civil.Valid) (hm : d.civil.micros = now.civil.micros + 1800000000 * k) (ht : d.tz = now.tz) :
    NoLine B now k := by
  unfold solarTestStep at h
  dsimp only at h
  cases ha : get_altitude B 42.364908 (-71.112828) (.dt d) with
  | error e => rw [ha] at h; cases h
  | ok a =>
    cases hz : get_azimuth B 42.364908 (-71.112828) (.dt d) with
    | error e => rw [ha, ok_bind, hz] at h; cases h
    | ok z =>
      cases hr : get_radiation_direct B (.dt d) a with
      | error e => rw [ha, ok_bind, hz, ok_bind, hr] at h; cases h
      | ok r =>
        cases hc : B.truth (B.lt 0 a) with
        | error e => rw [ha, ok_bind, hz, ok_bind, hr, ok_bind, hc] at h; cases h
        | ok b =>
          rw [ha, ok_bind, hz, ok_bind, hr, ok_bind, hc, ok_bind] at h
          cases b with
          | true => cases h
          | false => exact ⟨d, a, hv, hm, ht, ha, hc⟩

theorem loop_complete {B : Backend} {now : DateTime} (n : ℕ) : ∀ (d : DateTime) (k : ℕ), d.civil.Valid →
    d.civil.micros = now.civil.micros + 1800000000 * k → d.tz = now.tz → (solarTestLoop B n d).err = none →
    ∃ l : List ℕ, l.Sublist (List.range' k n) ∧ List.Forall₂ (LineFor B now) l (solarTestLoop B n d).printed ∧
      ∀ j ∈ List.range' k n, j ∉ l → NoLine B now j := by
  induction n with
  | zero => intro d k _ _ _ _; exact ⟨[], .slnil, .nil, fun j hj => by cases hj⟩
  | succ n ih =>
    intro d k hv hm ht hn
    have e : solarTestLoop B (n + 1) d = Run.andThen (solarTestStep B d) (d.add 1800000000) (solarTestLoop B n) := rfl
    cases hs : solarTestStep B d with
    | error x => rw [e, hs] at hn; cases hn
    | ok line =>
      cases ha : d.add 1800000000 with
      | error x => rw [e, hs, ha] at hn; cases hn
      | ok d' =>
        rw [e, hs, ha] at hn ⊢
        obtain ⟨r, v, m⟩ := add_inv ha
        obtain ⟨l2, s2, f2, c2⟩ := ih d' (k + 1) v (by rw [m, hm]; push_cast; ring) (by rw [r]; exact ht) hn
        rw [List.range'_succ]
        cases line with
        | none =>
          refine ⟨l2, s2.cons _, f2, fun j hj hl => ?_⟩
          rcases List.mem_cons.1 hj with rfl | hj
          · exact step_none hs hv hm ht
          · exact c2 j hj hl
        | some x =>
          refine ⟨k :: l2, s2.cons_cons _, .cons (step_inv hs hv hm ht) f2, fun j hj hl => ?_⟩
          rw [List.mem_cons, not_or] at hl
          rcases List.mem_cons.1 hj with rfl | hj
          · exact absurd rfl hl.1
          · exact c2 j hj hl.2

/-- C125: a run without an exception leaves out only half-hours at which the altitude is not positive. -/
theorem C125_complete (B : Backend) (now : DateTime) (hv : now.civil.Valid) (hn : (solar_test B now).err = none) :
    ∃ l : List ℕ, l.Sublist (List.range 48) ∧ List.Forall₂ (LineFor B now) l (solar_test B now).printed ∧
      ∀ k < 48, k ∉ l → NoLine B now k := by
  obtain ⟨l, h1, h2, h3⟩ := loop_complete 48 now 0 hv (by simp) rfl hn
  rw [← List.range_eq_range'] at h1
  exact ⟨l, h1, h2, fun k hk => h3 k (by simp [hk])⟩

/-- C125: no two lines of a run have the same timestamp. -/
theorem C125_distinct (B : Backend) (now : DateTime) (hv : now.civil.Valid) :
    ((solar_test B now).printed.map Line.timestamp).Nodup := by
  obtain ⟨l, hs, hf⟩ := C125_lines B now hv
  have hl : l.Nodup := hs.nodup List.nodup_range
  revert hl
  clear hs
  generalize (solar_test B now).printed = p at hf ⊢
  induction hf with
  | nil => intro _; exact List.nodup_nil
  | @cons k line l p hk hf ih =>
    intro hl
    rw [List.nodup_cons] at hl
    rw [List.map_cons, List.nodup_cons]
    refine ⟨?_, ih hl.2⟩
    intro hmem
    obtain ⟨line', hp, he⟩ := List.mem_map.1 hmem
    obtain ⟨j, hj, hline'⟩ : ∃ j ∈ l, LineFor B now j line' := by
      clear ih hl hmem
      induction hf with
      | nil => cases hp
      | @cons j x l p hx hf ih =>
        rcases List.mem_cons.1 hp with rfl | hp
        · exact ⟨j, List.mem_cons_self, hx⟩
        · obtain ⟨j', h1, h2⟩ := ih hp
          exact ⟨j', List.mem_cons_of_mem _ h1, h2⟩
    obtain ⟨d, v, m, -, ts, -⟩ := hk
    obtain ⟨d', v', m', -, ts', -⟩ := hline'
    obtain ⟨e1, e2, e3, e4, e5, e6⟩ := C125_ctime _ _ v v' (by rw [← ts, ← ts', he])
    have hne : j ≠ k := fun e => hl.1 (e ▸ hj)
    have u := v.2.2.2
    have u' := v'.2.2.2
    unfold Civil.micros at m m'
    rw [e1, e2, e3, e4, e5, e6] at m
    omega

end Verif.Props
