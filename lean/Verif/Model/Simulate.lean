import Verif.Model.Solar
import Verif.Model.Radiation

/-!
# Model of pysolar/simulate.py

A generator run to exhaustion is described by the values it yields and the exception that ends it, if
any.
-/

open Verif

namespace Pysolar.Simulate

open Pysolar.Constants

/-- A generator: the yielded values in order, and the exception that ends it (`none`: normal end). -/
structure Gen (α : Type) where
  yields : List α
  err : Option PyErr

/-- A `for x in xs: yield f(x)` loop where evaluating `f(x)` may raise. -/
def Gen.ofLoop {α β : Type} (f : α → Py β) : List α → Gen β
  | [] => ⟨[], none⟩
  | x :: xs =>
    match f x with
    | .error e => ⟨[], some e⟩
    | .ok y => let rest := Gen.ofLoop f xs; ⟨y :: rest.yields, rest.err⟩

/-- A `for x in g: yield f(x)` loop over another generator. -/
def Gen.bindLoop {α β : Type} (f : α → Py β) (g : Gen α) : Gen β :=
  let r := Gen.ofLoop f g.yields
  match r.err with
  | some e => ⟨r.yields, some e⟩
  | none => ⟨r.yields, g.err⟩

/-- A timedelta must have at most 999999999 days in magnitude: from -999999999 days to
999999999 days plus 86399.999999 s. -/
def timedeltaChecked (us : ℤ) : Py ℤ :=
  if -999999999 * usPerDay ≤ us ∧ us < 1000000000 * usPerDay then .ok us else .error .overflow

/-- `span.days * seconds_per_day + span.seconds` of a timedelta given in microseconds: its floor in
seconds. -/
def spanSeconds (us : ℤ) : ℤ := us / usPerDay * seconds_per_day + us % usPerDay / usPerSecond

/-- simulate.py:29-32: what is computed before the loop: the number of iterations. `step_minutes` is an
`int` here (with a float step Python's `range` raises `TypeError`). -/
def rangeCount (start_datetime end_datetime : DateTime) (step_minutes : ℤ) : Py ℤ := do
  let step := step_minutes * 60
  let span ← end_datetime.sub start_datetime
  let _dt ← timedeltaChecked (step * usPerSecond)
  if step = 0 then .error .zeroDivision
  else return Int.fdiv (spanSeconds span) step

/-- simulate.py:27-35 `datetime_range`. -/
def datetime_range (start_datetime end_datetime : DateTime) (step_minutes : ℤ) : Gen DateTime :=
  match rangeCount start_datetime end_datetime step_minutes with
  | .error e => ⟨[], some e⟩
  | .ok count =>
    Gen.ofLoop (fun (n : ℕ) => do
      let off ← timedeltaChecked (step_minutes * 60 * usPerSecond * n)
      start_datetime.add off) (List.range count.toNat)

/-- A row yielded by `simulate_span` (simulate.py:57). -/
structure Row (B : Backend) where
  time : DateTime
  alt : B.α
  azi : B.α
  rad : B.α
  shade : B.α

/-- simulate.py:49-57: the body of the loop for one time. -/
def simulateRow (B : Backend) (latitude_deg longitude_deg : B.α) (horizon : List B.α)
    (elevation temperature pressure : B.α) (time : DateTime) : Py (Row B) := do
  let alt_zero : ℤ := 380
  let alt ← Solar.get_altitude B latitude_deg longitude_deg (.dt time) elevation temperature pressure
  let azi ← Solar.get_azimuth B latitude_deg longitude_deg (.dt time) elevation
  let shade ← pyIndexInt horizon (← B.round azi)
  let level := alt_zero - (← B.round (B.lit alt_zero * (← B.sin (B.radians alt))))
  if ← B.truth (B.lt shade (B.lit level)) then
    return ⟨time, alt, azi, 0, shade⟩
  else
    let rad ← Radiation.get_radiation_direct B (.dt time) alt
    return ⟨time, alt, azi, rad, shade⟩

/-- simulate.py:37-59 `simulate_span`. -/
def simulate_span (B : Backend) (latitude_deg longitude_deg : B.α) (horizon : List B.α)
    (start_datetime end_datetime : DateTime) (step_minutes : ℤ) (elevation : B.α := 0)
    (temperature : B.α := B.lit standard_temperature)
    (pressure : B.α := B.lit standard_pressure) : Gen (Row B) :=
  Gen.bindLoop (simulateRow B latitude_deg longitude_deg horizon elevation temperature pressure)
    (datetime_range start_datetime end_datetime step_minutes)

end Pysolar.Simulate
