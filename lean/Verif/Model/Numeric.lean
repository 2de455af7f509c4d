import Verif.Model.TzCheck

/-!
# Model of pysolar/numeric.py: date parts and backend switching
-/

open Verif

namespace Pysolar.Numeric

/-- `w.utctimetuple()`; objects other than datetimes have no such attribute. -/
def utctimetuple {B : Backend} (w : When B) : Py Civil :=
  match w with
  | .dt d => d.utctimetuple
  | _ => .error .attributeError

/-- numeric.py:55-56 `tm_yday_math`. -/
def tm_yday_math {B : Backend} (w : When B) : Py ℤ := do
  let t ← utctimetuple w
  return yday t.date

/-- numeric.py:67-68 `tm_hour_math`. -/
def tm_hour_math {B : Backend} (w : When B) : Py ℤ := do
  let t ← utctimetuple w
  return t.hour

/-- numeric.py:79-80 `tm_min_math`. -/
def tm_min_math {B : Backend} (w : When B) : Py ℤ := do
  let t ← utctimetuple w
  return t.minute

/-! `datetime64[D]`, `[h]`, `[m]` of an instant are its floor in days, hours, minutes; `datetime64[Y]`
is its calendar year (numpy converts aware datetimes to UTC). Instants are in microseconds, with the
origin of `Civil.micros`. -/

/-- numeric.py:61-64 `tm_yday_numpy` on one instant: days since the first day of its year, plus 1. -/
def ydayOfMicros (t : ℤ) : ℤ :=
  t / usPerDay - ymd2ord (ord2ymd (t / usPerDay)).year 1 1 + 1

/-- numeric.py:73-76 `tm_hour_numpy` on one instant. -/
def hourOfMicros (t : ℤ) : ℤ := t / 3600000000 - t / usPerDay * 24

/-- numeric.py:85-88 `tm_min_numpy` on one instant. -/
def minOfMicros (t : ℤ) : ℤ := t / 60000000 - t / 3600000000 * 60

/-- numeric.py:61-64 `tm_yday_numpy` on a `datetime`. -/
def tm_yday_numpy (d : DateTime) : ℤ := ydayOfMicros d.utcMicros
/-- numeric.py:73-76. -/
def tm_hour_numpy (d : DateTime) : ℤ := hourOfMicros d.utcMicros
/-- numeric.py:85-88. -/
def tm_min_numpy (d : DateTime) : ℤ := minOfMicros d.utcMicros

/-- `math.tm_yday(when)` as bound by the active backend (numeric.py:58, 108, 131). numpy cannot convert
objects that are no datetimes (`ValueError`). -/
def tm_yday (B : Backend) (w : When B) : Py B.α :=
  if B.npTime then
    match w with
    | .dt d => .ok (B.lit (tm_yday_numpy d))
    | .arr t => .ok (B.arrYday t)
    | .other => .error .valueError
  else do
    let n ← tm_yday_math w
    return B.lit n

/-- `math.tm_hour(when)` (numeric.py:70, 109, 132). -/
def tm_hour (B : Backend) (w : When B) : Py B.α :=
  if B.npTime then
    match w with
    | .dt d => .ok (B.lit (tm_hour_numpy d))
    | .arr t => .ok (B.arrHour t)
    | .other => .error .valueError
  else do
    let n ← tm_hour_math w
    return B.lit n

/-- `math.tm_min(when)` (numeric.py:82, 110, 133). -/
def tm_min (B : Backend) (w : When B) : Py B.α :=
  if B.npTime then
    match w with
    | .dt d => .ok (B.lit (tm_min_numpy d))
    | .arr t => .ok (B.arrMin t)
    | .other => .error .valueError
  else do
    let n ← tm_min_math w
    return B.lit n

/-! ## The switchable global names -/

/-- The module a global function of `numeric` was taken from. -/
inductive Origin where
  | math
  | numpy
  /-- defined in numeric.py itself for scalars: `where_math`, `tm_yday_math`, ... -/
  | ownMath
  /-- defined in numeric.py itself for numpy: `tm_yday_numpy`, ... -/
  | ownNumpy
  deriving DecidableEq, Repr

/-- A binding: the module and the name under which the object was found. -/
structure Binding where
  origin : Origin
  name : String
  deriving DecidableEq, Repr

/-- The global namespace of `numeric`, as far as it is rebound. -/
abbrev Globals := String → Option Binding

/-- `globals()[k] = v`. -/
def Globals.set (g : Globals) (k : String) (v : Option Binding) : Globals :=
  fun x => if x = k then v else g x

/-- numeric.py:37-42 `globals_import_from(module, name, name_as)`. -/
def globals_import_from (o : Origin) (name name_as : String) (g : Globals) : Globals :=
  g.set name_as (some ⟨o, name⟩)

/-- State of the module: the globals and `current_mod`. -/
structure State where
  g : Globals
  current_mod : String

/-- numeric.py:31-34,52,58,70,82: bindings in force when the module body reaches line 137. -/
def initGlobals : Globals := fun k =>
  if k ∈ ["degrees", "cos", "sin", "radians", "tan", "pi", "acos", "atan", "asin", "atan2", "exp", "e"]
  then some ⟨.math, k⟩
  else if k = "where" then some ⟨.ownMath, "where_math"⟩
  else if k = "tm_yday" then some ⟨.ownMath, "tm_yday_math"⟩
  else if k = "tm_hour" then some ⟨.ownMath, "tm_hour_math"⟩
  else if k = "tm_min" then some ⟨.ownMath, "tm_min_math"⟩
  else none

/-- State after numeric.py:31-134 (before the numpy import is attempted). -/
def init0 : State := ⟨initGlobals, "math"⟩

/-- numeric.py:91-111 `use_numpy` (with numpy installed). -/
def use_numpy (s : State) : State :=
  let g := s.g
  let g := globals_import_from .numpy "degrees" "degrees" g
  let g := globals_import_from .numpy "cos" "cos" g
  let g := globals_import_from .numpy "sin" "sin" g
  let g := globals_import_from .numpy "radians" "radians" g
  let g := globals_import_from .numpy "tan" "tan" g
  let g := globals_import_from .numpy "pi" "pi" g
  let g := globals_import_from .numpy "arccos" "acos" g
  let g := globals_import_from .numpy "arctan" "atan" g
  let g := globals_import_from .numpy "arcsin" "asin" g
  let g := globals_import_from .numpy "arctan2" "atan2" g
  let g := globals_import_from .numpy "exp" "exp" g
  let g := globals_import_from .numpy "e" "e" g
  let g := globals_import_from .numpy "where" "where" g
  let g := g.set "tm_yday" (some ⟨.ownNumpy, "tm_yday_numpy"⟩)
  let g := g.set "tm_hour" (some ⟨.ownNumpy, "tm_hour_numpy"⟩)
  let g := g.set "tm_min" (some ⟨.ownNumpy, "tm_min_numpy"⟩)
  ⟨g, "numpy"⟩

/-- numeric.py:114-134 `use_math`. Line 130 rebinds `where` to the *current* global `where`. -/
def use_math (s : State) : State :=
  let g := s.g
  let g := globals_import_from .math "degrees" "degrees" g
  let g := globals_import_from .math "cos" "cos" g
  let g := globals_import_from .math "sin" "sin" g
  let g := globals_import_from .math "radians" "radians" g
  let g := globals_import_from .math "tan" "tan" g
  let g := globals_import_from .math "pi" "pi" g
  let g := globals_import_from .math "acos" "acos" g
  let g := globals_import_from .math "atan" "atan" g
  let g := globals_import_from .math "asin" "asin" g
  let g := globals_import_from .math "atan2" "atan2" g
  let g := globals_import_from .math "exp" "exp" g
  let g := globals_import_from .math "e" "e" g
  let g := g.set "where" (g "where")
  let g := g.set "tm_yday" (some ⟨.ownMath, "tm_yday_math"⟩)
  let g := g.set "tm_hour" (some ⟨.ownMath, "tm_hour_math"⟩)
  let g := g.set "tm_min" (some ⟨.ownMath, "tm_min_math"⟩)
  ⟨g, "math"⟩

/-- numeric.py:137-141: state after importing the module. -/
def initState (numpyInstalled : Bool) : State :=
  if numpyInstalled then use_numpy init0 else init0

/-- A call made by the user (pysolar/__init__.py:9-13). -/
inductive Op where
  | use_numpy
  | use_math
  deriving DecidableEq, Repr

/-- One call. Without numpy installed, `use_numpy` raises in its first statement
(numeric.py:41, `__import__`) and leaves the state unchanged. -/
def step (numpyInstalled : Bool) (s : State) : Op → State
  | .use_numpy => if numpyInstalled then use_numpy s else s
  | .use_math => use_math s

/-- State after a history of calls. -/
def run (numpyInstalled : Bool) (ops : List Op) : State :=
  ops.foldl (step numpyInstalled) (initState numpyInstalled)

end Pysolar.Numeric
