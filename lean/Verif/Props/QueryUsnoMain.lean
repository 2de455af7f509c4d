import Verif.Model.QueryUsnoMain
import Verif.Props.QueryUsno

/-!
# C129, C130: the answer of the server and the CSV file of test/query_usno.py
-/

namespace Verif.Props

open Verif.Spec Pysolar Pysolar.Solar Pysolar.QueryUsno

/-! ## C129 -/

/-- Words with runs of spaces before them, and spaces at the end. -/
def spaced : List (ℕ × Txt) → ℕ → Txt
  | [], n => List.replicate n ' '
  | (k, w) :: ws, n => List.replicate k ' ' ++ (w ++ spaced ws n)

/-- Words are not empty and have no spaces; there is at least one space between two of them. -/
structure Words (ws : List (ℕ × Txt)) : Prop where
  nonempty : ∀ p ∈ ws, p.2 ≠ []
  no_space : ∀ p ∈ ws, ' ' ∉ p.2
  gap : ∀ p ∈ ws.tail, 1 ≤ p.1

theorem splitSpace_replicate (k : ℕ) (s : Txt) : splitSpace (List.replicate k ' ' ++ s) = List.replicate k [] ++ splitSpace s := by
  induction k with
  | zero => rfl
  | succ k ih => rw [List.replicate_succ, List.cons_append, splitSpace, if_pos rfl, ih]; rfl

theorem tokensOf_replicate (k : ℕ) (s : Txt) : tokensOf (List.replicate k ' ' ++ s) = tokensOf s := by
  unfold tokensOf
  rw [splitSpace_replicate, List.filter_append, List.filter_eq_nil_iff.2, List.nil_append]
  intro x hx
  rw [List.eq_of_mem_replicate hx]
  decide

theorem token_kept {w : Txt} (h0 : w ≠ []) (h1 : ' ' ∉ w) : (!(w == [] || w == [' '])) = true := by
  have h2 : w ≠ [' '] := by rintro rfl; simp at h1
  simp [h0, h2]

theorem tokensOf_app {w : Txt} (s : Txt) (h0 : w ≠ []) (h1 : ' ' ∉ w) : tokensOf (w ++ ' ' :: s) = w :: tokensOf s := by
  unfold tokensOf
  rw [splitSpace_app _ h1]
  exact List.filter_cons_of_pos (p := fun x : Txt => !(x == [] || x == [' '])) (token_kept h0 h1)

theorem tokensOf_word {w : Txt} (h0 : w ≠ []) (h1 : ' ' ∉ w) : tokensOf w = [w] := by
  unfold tokensOf
  rw [splitSpace_no h1]
  exact List.filter_cons_of_pos (p := fun x : Txt => !(x == [] || x == [' '])) (token_kept h0 h1)

theorem tokensOf_spaces (n : ℕ) : tokensOf (List.replicate n ' ') = [] := by
  have := tokensOf_replicate n []
  rw [List.append_nil] at this
  exact this

theorem tokens_spaced : ∀ (ws : List (ℕ × Txt)) (n : ℕ), Words ws → tokensOf (spaced ws n) = ws.map Prod.snd
  | [], n, _ => tokensOf_spaces n
  | [(k, w)], 0, h => by
    rw [spaced, tokensOf_replicate]
    show tokensOf (w ++ []) = [w]
    rw [List.append_nil, tokensOf_word (h.nonempty _ List.mem_cons_self) (h.no_space _ List.mem_cons_self)]
  | [(k, w)], n + 1, h => by
    rw [spaced, tokensOf_replicate]
    show tokensOf (w ++ ' ' :: List.replicate n ' ') = [w]
    rw [tokensOf_app _ (h.nonempty _ List.mem_cons_self) (h.no_space _ List.mem_cons_self), tokensOf_spaces]
  | (k, w) :: (k', w') :: ws, n, h => by
    have ih := tokens_spaced ((k', w') :: ws) n ⟨fun p hp => h.nonempty p (List.mem_cons_of_mem _ hp),
      fun p hp => h.no_space p (List.mem_cons_of_mem _ hp), fun p hp => h.gap p (List.mem_of_mem_tail hp)⟩
    obtain ⟨j, rfl⟩ : ∃ j, k' = j + 1 := ⟨k' - 1, by have := h.gap (k', w') List.mem_cons_self; simp only at this; omega⟩
    have e : spaced ((j + 1, w') :: ws) n = ' ' :: (List.replicate j ' ' ++ (w' ++ spaced ws n)) := rfl
    have e2 := tokensOf_replicate 1 (List.replicate j ' ' ++ (w' ++ spaced ws n))
    rw [List.replicate_one, List.singleton_append, ← e, ih] at e2
    rw [spaced, tokensOf_replicate, e, tokensOf_app _ (h.nonempty (k, w) List.mem_cons_self) (h.no_space (k, w) List.mem_cons_self), ← e2]
    rfl

/-- The numbers in words 5 to 10 of a line, if they are numbers. -/
def fields {α : Type} (F : FloatText α) (ws : List (ℕ × Txt)) : List (Option α) := (((ws.map Prod.snd).drop 4).take 6).map F.float

/-- C129: the answer is read correctly whatever the spacing of its line 22 and whatever its other lines: the zenith distance
(called altitude) and the azimuth are the values of words 5 to 7 and 8 to 10, degrees, minutes and seconds, and everything
else is taken from the question. -/
theorem C129_response (tp : ℝ) (F : FloatText (mathB tp).α) (datum : Ephemeris (mathB tp)) (lines : List Txt) (ws : List (ℕ × Txt)) (n : ℕ)
    (h : Words ws) (hl : lines[21]? = some (spaced ws n)) (zd zm zs ad am as : ℝ)
    (hw : fields F ws = [some (num zd), some (num zm), some (num zs), some (num ad), some (num am), some (num as)]) :
    decodeResponse (mathB tp) F datum lines
      = .ok { datum with azimuth := num (ad + am / 60 + as / 3600), altitude := num (zd + zm / 60 + zs / 3600) } := by
  have key : ∀ i x, (fields F ws)[i]? = some (some x) → i < 6 →
      ∃ w, pyIndex (ws.map Prod.snd) (4 + i) = .ok w ∧ F.parse w = .ok x := by
    intro i x hx hi
    unfold fields at hx
    rw [List.getElem?_map, List.getElem?_take_of_lt hi, List.getElem?_drop] at hx
    obtain ⟨w, h1, h2⟩ := Option.map_eq_some_iff.1 hx
    refine ⟨w, by rw [pyIndex, h1], by rw [FloatText.parse, h2]⟩
  rw [hw] at key
  obtain ⟨w0, a0, b0⟩ := key 0 _ rfl (by norm_num)
  obtain ⟨w1, a1, b1⟩ := key 1 _ rfl (by norm_num)
  obtain ⟨w2, a2, b2⟩ := key 2 _ rfl (by norm_num)
  obtain ⟨w3, a3, b3⟩ := key 3 _ rfl (by norm_num)
  obtain ⟨w4, a4, b4⟩ := key 4 _ rfl (by norm_num)
  obtain ⟨w5, a5, b5⟩ := key 5 _ rfl (by norm_num)
  norm_num at a0 a1 a2 a3 a4 a5
  have hl' : pyIndex lines 21 = .ok (spaced ws n) := by rw [pyIndex, hl]
  unfold decodeResponse
  rw [hl', ok_bind]
  simp only [tokens_spaced ws n h, a0, a1, a2, a3, a4, a5, b0, b1, b2, b3, b4, b5, ok_bind, m_divq, m_add, pure_eq_ok]
  norm_num

/-- C129: an answer that is too short is an `IndexError`. -/
theorem C129_short (B : Backend) (F : FloatText B.α) (datum : Ephemeris B) (lines : List Txt) (h : lines.length ≤ 21) :
    decodeResponse B F datum lines = .error .indexError := by
  have : pyIndex lines 21 = .error .indexError := by rw [pyIndex, List.getElem?_eq_none h]
  unfold decodeResponse
  rw [this]
  rfl

/-- A line as the server wrote them. -/
def sampleWords : List (ℕ × Txt) :=
  [(0, "2013".toList), (1, "Jun".toList), (1, "15".toList), (1, "12:00:00.0".toList), (4, "56".toList), (1, "41".toList),
    (2, "20.7".toList), (5, "179".toList), (1, "53".toList), (1, "57.5".toList), (3, "1.015".toList)]

example : Words sampleWords ∧ tokensOf "2013 Jun 15 12:00:00.0    56 41  20.7     179 53 57.5   1.015".toList = sampleWords.map Prod.snd :=
  ⟨⟨by decide, by decide, by decide⟩, by decide +kernel⟩

/-! ## C130 -/

/-- Texts of numbers contain neither commas nor newlines. -/
structure Plain {α : Type} (F : FloatText α) : Prop where
  no_comma : ∀ x, ',' ∉ F.str x
  no_newline : ∀ x, '\n' ∉ F.str x

/-- The columns of a row. -/
def columns (B : Backend) (F : FloatText B.α) (c : EphemerisComparison B) : List Txt :=
  [strDateTime c.timestamp, c.latitude, c.longitude, F.str c.elevation, F.str c.alt1, F.str c.alt2, F.str c.alt_error, F.str c.az1,
    F.str c.az2, F.str c.az_error]

theorem strDateTime_no {x : Char} (hd : digitVal x = none) (h1 : x ≠ '-') (h2 : x ≠ ':') (h3 : x ≠ ' ') (h4 : x ≠ '.') (h5 : x ≠ '+')
    (d : DateTime) : x ∉ strDateTime d := by
  have hp : ∀ w n, x ∉ pad w n := fun w n => mem_digits_ne hd w
  have ho : ∀ o, x ∉ strOffset o := by
    intro o
    unfold strOffset
    split_ifs <;> simp [hp, h1, h2, h4, h5]
  unfold strDateTime strDate strTime
  cases d.utcoffset with
  | none => split_ifs <;> simp [hp, h1, h2, h3, h4]
  | some o => split_ifs <;> simp [hp, h1, h2, h3, h4, ho o]

theorem csvLine_eq (B : Backend) (F : FloatText B.α) (c : EphemerisComparison B) :
    csvLine B F c = [','].intercalate (columns B F c) ++ ['\n'] := by
  simp [csvLine, columns, List.intercalate_cons_cons]

theorem lines_eq (hd : Txt) (rows : List Txt) : hd ++ '\n' :: rows.flatMap (fun r => r ++ ['\n']) = ['\n'].intercalate (hd :: rows ++ [[]]) := by
  induction rows generalizing hd with
  | nil => simp [List.intercalate_cons_cons]
  | cons r rows ih =>
    have := ih r
    rw [List.flatMap_cons, List.append_assoc, List.singleton_append, this]
    simp [List.intercalate_cons_cons]

/-- C130: split into lines and at commas, the CSV file gives the header, then the ten columns of each comparison, in order. -/
theorem C130_csv (B : Backend) (F : FloatText B.α) (hF : Plain F) (comps : List (EphemerisComparison B))
    (h1 : ∀ c ∈ comps, ',' ∉ c.latitude ∧ ',' ∉ c.longitude ∧ '\n' ∉ c.latitude ∧ '\n' ∉ c.longitude) :
    ((WriteComparisonsToCSV B F comps).splitOn '\n').map (fun l => l.splitOn ',')
      = ["timestamp".toList, "latitude".toList, "longitude".toList, "elevation".toList, "alt1".toList, "alt2".toList, "alt_error".toList,
          "az1".toList, "az2".toList, "az_error".toList] :: comps.map (columns B F) ++ [[[]]] := by
  have hcol : ∀ c ∈ comps, ∀ x, (x = ',' ∨ x = '\n') → ∀ w ∈ columns B F c, x ∉ w := by
    intro c hc x hx w hw
    obtain ⟨a1, a2, a3, a4⟩ := h1 c hc
    have hs : x ∉ strDateTime c.timestamp := by
      rcases hx with rfl | rfl <;> exact strDateTime_no (by decide) (by decide) (by decide) (by decide) (by decide) (by decide) _
    have hf : ∀ v, x ∉ F.str v := by
      intro v
      rcases hx with rfl | rfl
      · exact hF.no_comma v
      · exact hF.no_newline v
    have hlat : x ∉ c.latitude := by rcases hx with rfl | rfl <;> assumption
    have hlon : x ∉ c.longitude := by rcases hx with rfl | rfl <;> assumption
    simp only [columns, List.mem_cons, List.not_mem_nil, or_false] at hw
    rcases hw with rfl | rfl | rfl | rfl | rfl | rfl | rfl | rfl | rfl | rfl <;> first | assumption | exact hf _
  have hrow : ∀ c ∈ comps, '\n' ∉ [','].intercalate (columns B F c) := by
    intro c hc hm
    have := fun w hw => hcol c hc '\n' (.inr rfl) w hw
    simp only [columns, List.forall_mem_cons] at this
    simp only [columns, List.intercalate_cons_cons, List.mem_append, List.intercalate_singleton, List.mem_singleton] at hm
    simp_all
  have e : WriteComparisonsToCSV B F comps
      = ['\n'].intercalate (csvHeader :: (comps.map fun c => [','].intercalate (columns B F c)) ++ [[]]) := by
    rw [← lines_eq]
    unfold WriteComparisonsToCSV
    rw [List.flatMap_map]
    congr 2
    exact List.flatMap_congr fun c _ => csvLine_eq B F c
  rw [e, List.splitOn_intercalate]
  · rw [List.map_append, List.map_cons, List.map_map]
    congr 1
    refine congrArg₂ List.cons (by decide +kernel) (List.map_congr_left fun c hc => ?_)
    exact List.splitOn_intercalate _ (fun w hw => hcol c hc ',' (.inl rfl) w hw) (by simp [columns])
  · intro l hl
    simp only [List.mem_append, List.mem_cons, List.mem_map, List.not_mem_nil, or_false] at hl
    rcases hl with (rfl | ⟨c, hc, rfl⟩) | rfl
    · decide +kernel
    · exact hrow c hc
    · simp
  · simp

/-- What the tool writes to the log: a time without zone in whole seconds; coordinates written as numbers; and finite values
from the server. -/
structure Logged {tp : ℝ} (F : FloatText (mathB tp).α) (e : Ephemeris (mathB tp)) : Prop where
  valid : e.timestamp.civil.Valid
  micro : e.timestamp.civil.micro = 0
  naive : e.timestamp.tz = none
  faithful : Faithful F e
  plain : ∀ x, (x = ' ' ∨ x = ',' ∨ x = '\n') → x ∉ e.latitude ∧ x ∉ e.longitude

/-- The row wanted for an entry of the log: `alt` and `az` are pysolar's values for the place and the time, taken as UTC; `zd` and
`a` are those of the server. -/
def Row {tp : ℝ} (F : FloatText (mathB tp).α) (e : Ephemeris (mathB tp)) (row : List Txt) : Prop :=
  ∃ lat lon alt az zd a : ℝ, F.float e.latitude = some (num lat) ∧ F.float e.longitude = some (num lon) ∧
    get_altitude (mathB tp) (num lat) (num lon) (.dt (utcDT e.timestamp.civil)) e.elevation = .ok (num alt) ∧
    get_azimuth (mathB tp) (num lat) (num lon) (.dt (utcDT e.timestamp.civil)) e.elevation = .ok (num az) ∧
    e.altitude = num zd ∧ e.azimuth = num a ∧
    row = [strDateTime (utcDT e.timestamp.civil), e.latitude, e.longitude, F.str e.elevation, F.str (num (90 - alt)), F.str (num zd),
      F.str (num |90 - alt - zd|), F.str (num (mod360 (180 - az))), F.str (num a), F.str (num |mod360 (180 - az) - a|)]

theorem compare_eval {tp : ℝ} (F : FloatText (mathB tp).α) (e : Ephemeris (mathB tp)) (lat lon alt az zd a : ℝ)
    (h1 : F.float e.latitude = some (num lat)) (h2 : F.float e.longitude = some (num lon))
    (h3 : get_altitude (mathB tp) (num lat) (num lon) (.dt e.timestamp) e.elevation = .ok (num alt))
    (h4 : get_azimuth (mathB tp) (num lat) (num lon) (.dt e.timestamp) e.elevation = .ok (num az))
    (h5 : e.altitude = num zd) (h6 : e.azimuth = num a) :
    ComparePysolarToUSNO (mathB tp) F e = .ok ⟨e.timestamp, e.latitude, e.longitude, e.elevation, num (90 - alt), num (mod360 (180 - az)),
      num zd, num a, num |90 - alt - zd|, num |mod360 (180 - az) - a|⟩ := by
  have e1 : ((180.0 : (mathB tp).α) - num az) %. 360.0 = num (mod360 (180 - az)) := by
    have : ((360.0 : ℚ) : ℝ) = 360 := by norm_num
    simp only [m_sci, m_sub, m_modq, this]
    norm_num [mod360]
  have e2 : (90.0 : (mathB tp).α) - num alt = num (90 - alt) := by
    simp only [m_sci, m_sub]
    norm_num
  unfold ComparePysolarToUSNO FloatText.parse
  rw [h1, h2]
  simp only [ok_bind, h3, h4, pure_eq_ok, e1, e2, compareEphemerides, h5, h6, m_sub, pyAbs_eval]

/-- The log after writing the entries, one after the other. -/
def written (B : Backend) (F : FloatText B.α) (data : List (Ephemeris B)) : List Txt :=
  data.foldl (fun log e => WriteEphemerisDatumToFile B F e log) []

theorem read_written {tp : ℝ} (F : FloatText (mathB tp).α) (data : List (Ephemeris (mathB tp)))
    (h : ∀ e ∈ data, Logged F e) :
    ReadEphemeridesLog (mathB tp) F (written (mathB tp) F data)
      = .ok (data.map fun e => { e with timestamp := utcDT e.timestamp.civil }) := by
  induction data using List.reverseRecOn with
  | nil => rfl
  | append_singleton data e ih =>
    have he := h e (by simp)
    have ih := ih fun x hx => h x (List.mem_append_left _ hx)
    have := C102_round_trip_partial (mathB tp) F _ _ ih e he.faithful (he.plain ' ' (.inl rfl)).1 (he.plain ' ' (.inl rfl)).2 he.valid he.micro he.naive
    rw [written, List.foldl_append, List.foldl_cons, List.foldl_nil, List.map_append]
    exact this

/-- C130: the tool run on a log of entries written by it produces a CSV file with one row for each of them, in order, in which
the values of pysolar for this place and time stand beside those of the server. -/
theorem C130_main (tp : ℝ) (F : FloatText (mathB tp).α) (hP : Plain F) (data : List (Ephemeris (mathB tp)))
    (h : ∀ e ∈ data, Logged F e) (hr : ∀ e ∈ data, ∃ row, Row F e row) :
    ∃ text rows, main (mathB tp) F (written (mathB tp) F data) = .ok text ∧ List.Forall₂ (Row F) data rows ∧
      (text.splitOn '\n').map (fun l => l.splitOn ',')
        = ["timestamp".toList, "latitude".toList, "longitude".toList, "elevation".toList, "alt1".toList, "alt2".toList, "alt_error".toList,
          "az1".toList, "az2".toList, "az_error".toList] :: rows ++ [[[]]] := by
  obtain ⟨comps, h1, h2, h3⟩ : ∃ comps, (data.map fun e => { e with timestamp := utcDT e.timestamp.civil }).mapM
      (ComparePysolarToUSNO (mathB tp) F) = .ok comps ∧ List.Forall₂ (Row F) data (comps.map (columns (mathB tp) F)) ∧
      ∀ c ∈ comps, ',' ∉ c.latitude ∧ ',' ∉ c.longitude ∧ '\n' ∉ c.latitude ∧ '\n' ∉ c.longitude := by
    induction data with
    | nil => exact ⟨[], rfl, .nil, by simp⟩
    | cons e data ih =>
      obtain ⟨comps, h1, h2, h3⟩ := ih (fun x hx => h x (List.mem_cons_of_mem _ hx)) fun x hx => hr x (List.mem_cons_of_mem _ hx)
      obtain ⟨row, lat, lon, alt, az, zd, a, a1, a2, a3, a4, a5, a6, a7⟩ := hr e List.mem_cons_self
      have he := (h e List.mem_cons_self).plain
      have hc := compare_eval F { e with timestamp := utcDT e.timestamp.civil } lat lon alt az zd a a1 a2 a3 a4 a5 a6
      generalize hg : (⟨utcDT e.timestamp.civil, e.latitude, e.longitude, e.elevation, num (90 - alt), num (mod360 (180 - az)),
        num zd, num a, num |90 - alt - zd|, num |mod360 (180 - az) - a|⟩ : EphemerisComparison (mathB tp)) = g at hc
      have hrow : Row F e (columns (mathB tp) F g) := ⟨lat, lon, alt, az, zd, a, a1, a2, a3, a4, a5, a6, by rw [← hg]; rfl⟩
      refine ⟨g :: comps, ?_, .cons hrow h2, ?_⟩
      · rw [List.map_cons, List.mapM_cons, hc, ok_bind, h1]
        rfl
      · intro c hc
        rcases List.mem_cons.1 hc with rfl | hc
        · rw [← hg]
          exact ⟨(he ',' (by simp)).1, (he ',' (by simp)).2, (he '\n' (by simp)).1, (he '\n' (by simp)).2⟩
        · exact h3 c hc
  refine ⟨_, _, ?_, h2, C130_csv (mathB tp) F hP comps h3⟩
  unfold main
  rw [read_written F data h, ok_bind, h1]
  rfl

/-- An entry meeting the hypotheses of `C130_main`, apart from pysolar's own values. -/
example (tp : ℝ) : Logged (unary tp) ⟨⟨⟨2013, 6, 15, 12, 0, 0, 0⟩, false, none⟩, ['1', '1'], ['1'], num 0, num 179, num 56⟩ ∧ Plain (unary tp) := by
  have f : ∀ n : ℕ, (unary tp).Faithful (num n) := unary_faithful tp
  have hv : Civil.Valid ⟨2013, 6, 15, 12, 0, 0, 0⟩ := civil_valid_of_check (by decide)
  refine ⟨⟨hv, rfl, rfl, ⟨?_, ?_, ?_⟩, ?_⟩, ⟨fun x => ?_, fun x => ?_⟩⟩
  · simpa using f 0
  · simpa using f 179
  · simpa using f 56
  · rintro x (rfl | rfl | rfl) <;> simp
  all_goals
    simp only [unary]
    split_ifs with h
    · intro hm
      exact absurd (List.eq_of_mem_replicate hm) (by decide)
    · decide

end Verif.Props
