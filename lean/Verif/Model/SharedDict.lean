import Verif.Model.Solar

/-!
# The global dictionary of constants.py and its users

`get_aberration_coeffs` returns the dictionary object itself, not a copy. The state below is the value of the global
`aberration_coeffs`; it is changed by the functions of pysolar and by whoever writes to the returned dictionary.
-/

namespace Pysolar

open Verif Constants Solar

/-- The value of the global `constants.aberration_coeffs`, constants.py:41. -/
abbrev Shared (B : Backend) := Option (AberrationDict B)

/-- solar.py:270-300 `get_nutation` with the global dictionary as found, and its value afterwards. -/
def get_nutation_st (B : Backend) (g : Shared B) (jce : B.α) : Py (Nutation B) × Shared B :=
  let abcd := nutation_coefficients
  let r := get_aberration_coeffs B g
  (do
    let x ← nutationX B r.1 jce nutationArgs
    let y := aberration_sin_terms
    let terms ← nutationLoop B jce abcd x y (List.range abcd.length)
    return ⟨pySum B terms.1 /. 36000000.0, pySum B terms.2 /. 36000000.0⟩, r.2)

/-- `d[k] = f` on a dictionary. -/
def dictSet {β : Type} (d : List (String × β)) (k : String) (f : β) : List (String × β) :=
  (k, f) :: d.filter (fun e => e.1 != k)

/-- `d.pop(k, None)`. -/
def dictPop {β : Type} (d : List (String × β)) (k : String) : List (String × β) :=
  d.filter (fun e => e.1 != k)

/-- What a program may do with the dictionary. -/
inductive DictOp (B : Backend) where
  /-- a call of `get_nutation` -/
  | nutation (jce : B.α)
  /-- `constants.get_aberration_coeffs()`, result only read -/
  | read
  /-- `constants.get_aberration_coeffs()[k] = f` -/
  | set (k : String) (f : B.α → B.α)
  /-- `constants.get_aberration_coeffs().pop(k, None)` -/
  | pop (k : String)

/-- One step of a program; constants.py:43-65 is called first in each case. -/
def DictOp.run (B : Backend) (g : Shared B) : DictOp B → Shared B
  | .nutation jce => (get_nutation_st B g jce).2
  | .read => (get_aberration_coeffs B g).2
  | .set k f => some (dictSet (get_aberration_coeffs B g).1 k f)
  | .pop k => some (dictPop (get_aberration_coeffs B g).1 k)

/-- The state after a sequence of steps from the loading of the module. -/
def runDict (B : Backend) (ops : List (DictOp B)) : Shared B := ops.foldl (DictOp.run B) (aberration_coeffs0 B)

end Pysolar
