import Verif.Model.Simulate
import Verif.Py.Rounded

/-!
# `datetime_range` and `simulate_span` with a step of either number type

The model in Verif/Model/Simulate.lean takes `step_minutes` to be an `int`; the type stubs declare it a `float`.
-/

open Verif

namespace Pysolar.Simulate

/-- `step_minutes`: a Python `int` or `float`. -/
inductive Step where
  | int (n : ℤ)
  | float (x : V)

open scoped Classical

noncomputable section

/-- `timedelta(seconds = x)` for a float: as `tdHoursF`, with 10^6 microseconds to the unit. -/
def tdSecondsF (F : F64) : V → Py ℤ
  | .fin a => timedeltaChecked (roundHalfEven (truncR a * 1000000 + F.rnd (1000000 * (a - truncR a))))
  | .nan => .error .valueError
  | _ => .error .overflow

/-- `range(x)` for a number: a float is refused, whatever its value. -/
def rangeArg : Step → Py ℤ
  | .int n => .ok n
  | .float _ => .error .typeError

/-- `n // x` for an `int` and a number. The value of a float quotient is never used. -/
def floorDiv (n : ℤ) : Step → Py Step
  | .int k => if k = 0 then .error .zeroDivision else .ok (.int (Int.fdiv n k))
  | .float x => if x = .fin 0 then .error .zeroDivision else .ok (.float .nan)

/-- `x * 60`. -/
def timesSixty (F : F64) : Step → Step
  | .int k => .int (k * 60)
  | .float x => .float (V.rnd F (V.mul x (.fin 60)))

/-- `datetime.timedelta(seconds = x)`. -/
def tdSeconds (F : F64) : Step → Py ℤ
  | .int k => timedeltaChecked (k * usPerSecond)
  | .float x => tdSecondsF F x

/-- simulate.py:27-35 `datetime_range` for a step of either type. -/
def datetime_rangeN (F : F64) (start_datetime end_datetime : DateTime) (step_minutes : Step) : Gen DateTime :=
  let step := timesSixty F step_minutes
  match (do
      let span ← end_datetime.sub start_datetime
      let dt ← tdSeconds F step
      let count ← rangeArg (← floorDiv (spanSeconds span) step)
      return (dt, count) : Py (ℤ × ℤ)) with
  | .error e => ⟨[], some e⟩
  | .ok (dt, count) =>
    Gen.ofLoop (fun (n : ℕ) => do
      let off ← timedeltaChecked (dt * n)
      start_datetime.add off) (List.range count.toNat)

/-- simulate.py:37-59 `simulate_span` for a step of either type. -/
def simulate_spanN (F : F64) (B : Backend) (latitude_deg longitude_deg : B.α) (horizon : List B.α)
    (start_datetime end_datetime : DateTime) (step_minutes : Step) (elevation temperature pressure : B.α) : Gen (Row B) :=
  Gen.bindLoop (simulateRow B latitude_deg longitude_deg horizon elevation temperature pressure)
    (datetime_rangeN F start_datetime end_datetime step_minutes)

end

end Pysolar.Simulate
