import Verif.Props.Simulate
import Verif.Props.Exceptions

/-!
# C157: the times shown in the documentation of `simulate_span`
-/

namespace Verif.Props

open Verif.Spec Pysolar Pysolar.Simulate Pysolar.Numeric

/-- simulate.py:65, the example in the last line: `s = datetime.datetime(2008,1,1); e = datetime.datetime(2008,1,5)`. -/
def docStart : DateTime := ⟨⟨2008, 1, 1, 0, 0, 0, 0⟩, false, none⟩
def docEnd : DateTime := ⟨⟨2008, 1, 5, 0, 0, 0, 0⟩, false, none⟩

/-- simulate.py:45, the start in the docstring: `datetime.datetime(2008, 12, 23, 23, 14, 0)`. -/
def docstringStart : DateTime := ⟨⟨2008, 12, 23, 23, 14, 0, 0⟩, false, none⟩

theorem row_naive (B : Backend) (lat lon : B.α) (horizon : List B.α) (elev T P : B.α) {d : DateTime} (h : d.Naive) :
    simulateRow B lat lon horizon elev T P d = .error naiveError := by
  unfold simulateRow
  rw [(C01_solar B d h lat lon elev T P).2.2.1]
  rfl

/-- A start without time zone: no row, ever; and `NoTimeZoneInfoError` as soon as the range is not empty. -/
theorem simulate_naive (B : Backend) (lat lon : B.α) (horizon : List B.α) (s e : DateTime) (k : ℤ) (elev T P : B.α)
    (hs : s.Naive) :
    (simulate_span B lat lon horizon s e k elev T P).yields = [] ∧
    ((datetime_range s e k).yields ≠ [] →
      (simulate_span B lat lon horizon s e k elev T P).err = some naiveError) ∧
    ((datetime_range s e k).yields = [] →
      (simulate_span B lat lon horizon s e k elev T P).err = (datetime_range s e k).err) := by
  unfold simulate_span Gen.bindLoop
  cases hy : (datetime_range s e k).yields with
  | nil => exact ⟨rfl, fun h => absurd rfl h, fun _ => rfl⟩
  | cons y ys =>
    have htz : y.tz = s.tz := (C54_nth s e k 0 y (by rw [hy]; rfl)).2.2.1
    have hr := row_naive B lat lon horizon elev T P (d := y) (htz.trans hs)
    have : Gen.ofLoop (simulateRow B lat lon horizon elev T P) (y :: ys) = ⟨[], some naiveError⟩ := by
      rw [Gen.ofLoop, hr]
    rw [this]
    exact ⟨rfl, fun _ => rfl, fun h => absurd h (by simp)⟩

/-- C157 is false: with the times of the docstring and of the example, in every arithmetic, for every place and horizon,
no row is yielded and `NoTimeZoneInfoError` is raised. -/
theorem C157_refuted (B : Backend) (lat lon : B.α) (horizon : List B.α) (elev T P : B.α) :
    simulate_span B lat lon horizon docStart docEnd 30 elev T P = ⟨[], some naiveError⟩ ∧
    (∀ e k, e.tz = none → e.civil.Valid → 0 < k → k ≤ 1000000000000 →
      docstringStart.civil.micros + k * 60000000 ≤ e.civil.micros →
      simulate_span B lat lon horizon docstringStart e k elev T P = ⟨[], some naiveError⟩) := by
  have gen : ∀ s e k, s.tz = none → e.tz = none → s.civil.Valid → e.civil.Valid → 0 < k → k ≤ 1000000000000 →
      s.civil.micros + k * 60000000 ≤ e.civil.micros →
      simulate_span B lat lon horizon s e k elev T P = ⟨[], some naiveError⟩ := by
    intro s e k h1 h2 hsv hev hk hk2 h
    have hz : e.tz = s.tz := h2.trans h1.symm
    have hc := C54_complete s e k hk hk2 hz hsv hev
    have hne : (datetime_range s e k).yields ≠ [] := by
      obtain ⟨span, hsp, -, -, hl⟩ := C54_count s e k hc
      rw [sub_same_tz hz] at hsp
      obtain rfl := Except.ok.inj hsp
      have hl := hl hk
      intro h0
      rw [h0] at hl
      have h3 : (1 : ℤ) ≤ ⌊((e.civil.micros - s.civil.micros : ℤ) : ℚ) / ((k * 60000000 : ℤ) : ℚ)⌋ := by
        rw [Int.le_floor, le_div_iff₀ (by exact_mod_cast (by omega : 0 < k * 60000000))]
        push_cast
        have : ((s.civil.micros + k * 60000000 : ℤ) : ℚ) ≤ (e.civil.micros : ℤ) := by exact_mod_cast h
        push_cast at this
        linarith
      simp only [List.length_nil] at hl
      omega
    obtain ⟨a, b, -⟩ := simulate_naive B lat lon horizon s e k elev T P h1
    have b := b hne
    revert a b
    cases simulate_span B lat lon horizon s e k elev T P
    rintro a b
    simp only at a b
    rw [a, b]
  refine ⟨gen _ _ _ rfl rfl (civil_valid_of_check (by decide)) (civil_valid_of_check (by decide)) (by norm_num)
    (by norm_num) (by decide +kernel), fun e k he hev hk hk2 h => ?_⟩
  exact gen _ _ _ rfl he (civil_valid_of_check (by decide)) hev hk hk2 h

theorem row_other {B : Backend} (hB : Scal Other B) (hround : ∀ x, Raises Other (B.round x)) (lat lon : B.α)
    (horizon : List B.α) (elev T P : B.α) {d : DateTime} (h : d.tz ≠ none) : Raises Other (simulateRow B lat lon horizon elev T P d) := by
  have hw : At Other (.dt d : When B) := at_other (by rintro ⟨d', h1, h2⟩; cases h1; exact h h2)
  have hi : Other .indexError := fun n h => by cases h
  unfold simulateRow
  refine Raises.bind (hB.toElem.get_altitude _ _ hw _ _ _) fun _ => Raises.bind (hB.toElem.get_azimuth _ _ hw _) fun _ =>
    Raises.bind (hround _) fun _ => Raises.bind (Raises.pyIndexInt hi _ _) fun _ => Raises.bind (hB.sin _) fun _ =>
    Raises.bind (hround _) fun _ => Raises.bind (hB.truth _) fun b => ?_
  cases b
  · exact Raises.bind (hB.toElem.get_radiation_direct hw _) fun _ => Raises.pure _
  · exact Raises.pure _

/-- C157, partial: `NoTimeZoneInfoError` is raised for nothing but a start without `tzinfo`: if the start has one, every
time of the range has it too. What is missing: the start of the documentation has none. -/
theorem C157_partial (B : Backend) (hB : Scal Other B) (hround : ∀ x, Raises Other (B.round x)) (lat lon : B.α)
    (horizon : List B.α) (s e : DateTime) (k : ℤ) (elev T P : B.α) (hs : s.tz ≠ none) (n : String) :
    (simulate_span B lat lon horizon s e k elev T P).err ≠ some (.noTimeZoneInfo n) := by
  intro he
  unfold simulate_span Gen.bindLoop at he
  dsimp only at he
  cases hr : (Gen.ofLoop (simulateRow B lat lon horizon elev T P) (datetime_range s e k).yields).err with
  | some er =>
    rw [hr] at he
    obtain ⟨x, hx, hf⟩ := ofLoop_err hr
    have htz := (C54_nth s e k _ x hx).2.2.1
    exact row_other hB hround lat lon horizon elev T P (d := x) (htz ▸ hs) _ hf n (Option.some.inj he)
  | none =>
    rw [hr] at he
    simp only at he
    unfold datetime_range at he
    cases hc : rangeCount s e k with
    | error er =>
      rw [hc] at he
      obtain rfl := Option.some.inj he
      have : Raises Other (rangeCount s e k) := by
        have o1 : Other .overflow := fun n h => by cases h
        have o2 : Other .typeError := fun n h => by cases h
        have o3 : Other .zeroDivision := fun n h => by cases h
        unfold rangeCount
        refine Raises.bind ?_ fun _ => Raises.bind ?_ fun _ => ?_
        · unfold DateTime.sub
          repeat' first | exact Raises.ok _ | exact Raises.error o2 | split
        · unfold timedeltaChecked
          split_ifs
          · exact Raises.ok _
          · exact Raises.error o1
        · split_ifs
          · exact Raises.error o3
          · exact Raises.pure _
      exact this _ hc n rfl
    | ok count =>
      rw [hc] at he
      obtain ⟨x, -, hf⟩ := ofLoop_err he
      have o1 : Other .overflow := fun n h => by cases h
      have : Raises Other (do
          let off ← timedeltaChecked (k * 60 * usPerSecond * x)
          s.add off) := by
        refine Raises.bind ?_ fun _ => ?_
        · unfold timedeltaChecked
          split_ifs
          · exact Raises.ok _
          · exact Raises.error o1
        · unfold DateTime.add civilChecked
          dsimp only
          split_ifs
          · exact Raises.ok _
          · exact Raises.error o1
      exact this _ hf n rfl

/-- The arithmetics meant by `C157_partial`. -/
theorem C157_backends (tp : ℝ) (F : F64) :
    (Scal Other (mathB tp) ∧ ∀ x, Raises Other ((mathB tp).round x)) ∧
    (Scal Other (rndB F) ∧ ∀ x, Raises Other ((rndB F).round x)) ∧
    (Scal Other (npB tp) ∧ ∀ x, Raises Other ((npB tp).round x)) ∧
    (Scal Other (nprB F) ∧ ∀ x, Raises Other ((nprB F).round x)) := by
  obtain ⟨h1, h2, h3, h4, -⟩ := C137_backends tp F Unit
  refine ⟨⟨h1, ?_⟩, ⟨h2, ?_⟩, ⟨h3, ?_⟩, ⟨h4, ?_⟩⟩ <;>
  · rintro x e h n rfl
    cases x <;> cases h

example (tp : ℝ) (F : F64) : (Scal Other (mathB tp) ∧ ∀ x, Raises Other ((mathB tp).round x)) ∧ sampleDT.tz ≠ none :=
  ⟨(C157_backends tp F).1, by decide⟩

end Verif.Props
