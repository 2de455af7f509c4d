import Verif.Py.Backend

/-!
# Scalars and arrays mixed, with the functions of the `math` module

After `use_math()` (numeric.py:117-141) the functions are those of `math`, but a caller can still pass numpy arrays.
The operators `+ - * / % **` and the comparisons act on arrays as in numpy; the functions of `math` accept only what
converts to one float, and raise `TypeError` for an array of a size other than 1.
-/

namespace Verif

/-- The scalar backend `B` with arrays (of a size other than 1) among its values: `some x` is a scalar, `none` an
array. The entries of arrays are left out, because what is raised does not depend on them. Simplifications: the
operations that the model keeps pure do not raise on an array but return one: `radians` and `degrees`, which raise
`TypeError` (every use of `radians` in the library feeds a function that raises it here), and `where`, which raises
`ValueError`. -/
def mixB (B : Backend) : Backend where
  α := Option B.α
  C := Option B.C
  T := B.T
  lit q := some (B.lit q)
  pi := some B.pi
  e := some B.e
  inf := some B.inf
  add x y := do return B.add (← x) (← y)
  sub x y := do return B.sub (← x) (← y)
  mul x y := do return B.mul (← x) (← y)
  neg x := do return B.neg (← x)
  divq x q := do return B.divq (← x) q
  modq x q := do return B.modq (← x) q
  powN x n := do return B.powN (← x) n
  div x y := match x, y with
    | some a, some b => some <$> B.div a b
    | _, _ => .ok none
  rpow x y := match x, y with
    | some a, some b => some <$> B.rpow a b
    | _, _ => .ok none
  sin x := match x with
    | some a => some <$> B.sin a
    | none => .error .typeError
  cos x := match x with
    | some a => some <$> B.cos a
    | none => .error .typeError
  tan x := match x with
    | some a => some <$> B.tan a
    | none => .error .typeError
  asin x := match x with
    | some a => some <$> B.asin a
    | none => .error .typeError
  acos x := match x with
    | some a => some <$> B.acos a
    | none => .error .typeError
  atan x := match x with
    | some a => some <$> B.atan a
    | none => .error .typeError
  atan2 y x := match y, x with
    | some a, some b => some <$> B.atan2 a b
    | _, _ => .error .typeError
  exp x := match x with
    | some a => some <$> B.exp a
    | none => .error .typeError
  radians x := do return B.radians (← x)
  degrees x := do return B.degrees (← x)
  lt x y := do return B.lt (← x) (← y)
  le x y := do return B.le (← x) (← y)
  where_ c x y := do return B.where_ (← c) (← x) (← y)
  ofC c := do return B.ofC (← c)
  truth c := match c with
    | some a => B.truth a
    | none => .error .valueError
  tdHours x := match x with
    | some a => B.tdHours a
    | none => .error .typeError
  round x := match x with
    | some a => B.round a
    | none => .error .typeError
  npTime := B.npTime
  arrYday t := some (B.arrYday t)
  arrHour t := some (B.arrHour t)
  arrMin t := some (B.arrMin t)

/-- A scalar among scalars and arrays. -/
def mixScalar {B : Backend} (x : B.α) : (mixB B).α := some x

/-- An array among scalars and arrays. -/
def mixArray (B : Backend) : (mixB B).α := none

/-- The same `when`. -/
def mixWhen {B : Backend} : When B → When (mixB B)
  | .dt d => .dt d
  | .arr t => .arr t
  | .other => .other

end Verif
