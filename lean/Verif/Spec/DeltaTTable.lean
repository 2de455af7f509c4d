import Verif.Model.DeltaTGen

/-!
# Specification for the delta-T table generator: its input, and how Python reads its output
-/

namespace Verif.Spec

open Pysolar.DeltaTGen

/-- Consecutive months, each entry for day 1. -/
def MonthlyData (data : List Entry) : Prop :=
  ∃ first : ℤ, ∀ (n : ℕ) (e : Entry), data[n]? = some e →
    e.day = 1 ∧ 1 ≤ e.month ∧ e.month ≤ 12 ∧ e.year * 12 + e.month = first + n

/-- The rows of the list display that starts inside a row, of which `cur` has been read. -/
def readRows (cur : List ℚ) : List Token → Option (List (List ℚ))
  | .value v _ :: ts => readRows (cur ++ [v]) ts
  | .closeRow :: .openRow _ :: ts => (readRows [] ts).map (cur :: ·)
  | [.closeRow, .closeTable] => some [cur]
  | _ => none

/-- The three names defined by the printed source: base year, base month and table. -/
def readSource : List Token → Option (ℤ × ℤ × List (List ℚ))
  | .baseYear y :: .baseMonth m :: .openTable :: .openRow _ :: ts => (readRows [] ts).map fun t => (y, m, t)
  | _ => none

end Verif.Spec
