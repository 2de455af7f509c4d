import Verif.Model.Numeric

/-!
# Specification of the backend switch: which object each numeric name should denote
-/

namespace Verif.Spec

open Pysolar.Numeric

/-- The two sets of functions. -/
inductive Chosen where
  | math
  | numpy
  deriving DecidableEq, Repr

/-- The set selected by a history of calls: the last one; before any call, numpy if it is installed.  Without numpy,
`use_numpy` is not a possible selection. -/
def selected (numpyInstalled : Bool) (ops : List Op) : Chosen :=
  if numpyInstalled then
    match ops.getLast? with
    | some .use_math => .math
    | _ => .numpy
  else .math

/-- Names with the same name in `math` and in numpy. -/
def sharedNames : List String := ["degrees", "cos", "sin", "radians", "tan", "pi", "exp", "e"]

/-- Names that numpy spells differently. -/
def renamed : List (String × String) :=
  [("acos", "arccos"), ("atan", "arctan"), ("asin", "arcsin"), ("atan2", "arctan2")]

/-- Names implemented in numeric.py itself for both sets. -/
def dateNames : List (String × String × String) :=
  [("tm_yday", "tm_yday_math", "tm_yday_numpy"), ("tm_hour", "tm_hour_math", "tm_hour_numpy"),
   ("tm_min", "tm_min_math", "tm_min_numpy")]

/-- The object that a name should denote, for all the names except `where`. -/
def Denoted (c : Chosen) (k : String) (b : Binding) : Prop :=
  (k ∈ sharedNames ∧ b = match c with | .math => ⟨.math, k⟩ | .numpy => ⟨.numpy, k⟩) ∨
  (∃ k', (k, k') ∈ renamed ∧ b = match c with | .math => ⟨.math, k⟩ | .numpy => ⟨.numpy, k'⟩) ∨
  (∃ m n, (k, m, n) ∈ dateNames ∧ b = match c with | .math => ⟨.ownMath, m⟩ | .numpy => ⟨.ownNumpy, n⟩)

/-- The object that `where` should denote. -/
def whereDenoted : Chosen → Binding
  | .math => ⟨.ownMath, "where_math"⟩
  | .numpy => ⟨.numpy, "where"⟩

end Verif.Spec
