import Verif.Py.Real

/-!
# Specification for C58 and C59: entries of arrays
-/

namespace Verif.Spec

open Verif

/-- numpy arrays of shape `ι`. -/
noncomputable abbrev arrB (tp : ℝ) (ι : Type) : Backend := vecB (npB tp) ι

/-- The `i`-th entry of a call's result: exceptions stay. -/
def entry {ι : Type} {β : Type} (i : ι) : Py (ι → β) → Py β
  | .ok y => .ok (y i)
  | .error e => .error e

/-- The `i`-th entries of a pair of arrays. -/
def entry2 {ι : Type} {β : Type} (i : ι) : Py ((ι → β) × (ι → β)) → Py (β × β)
  | .ok y => .ok (y.1 i, y.2 i)
  | .error e => .error e

/-- The `i`-th entry of the time argument: a single datetime serves for all entries. -/
def entryW {tp : ℝ} {ι : Type} (i : ι) : When (arrB tp ι) → When (npB tp)
  | .dt d => .dt d
  | .arr t => .arr (t i)
  | .other => .other

end Verif.Spec
