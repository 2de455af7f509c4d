import Verif.Py.Backend

/-!
# Model of pysolar/tzinfo_check.py
-/

open Verif

namespace Pysolar.TzCheck

/-- What `check_aware_dt` looks at in an argument object (tzinfo_check.py:86,87,91):
whether it has a `shape` attribute, whether it has a `tzinfo` attribute, whether that is `None`. -/
structure ObjView (O : Type) where
  hasShape : O → Bool
  hasTzinfo : O → Bool
  tzinfoIsNone : O → Bool

/-- The part of `inspect.getfullargspec(func)` used by the checker (tzinfo_check.py:77). -/
structure Signature where
  args : List String
  kwonlyargs : List String

/-- tzinfo_check.py:86-92: the test applied to one value. -/
def checkValue {O : Type} (V : ObjView O) (argname : String) (dt : O) : Py Unit :=
  if V.hasShape dt then .ok ()
  else if !V.hasTzinfo dt then .error .valueError
  else if V.tzinfoIsNone dt then .error (.noTimeZoneInfo argname)
  else .ok ()

/-- tzinfo_check.py:81-84: `args[full.args.index(argname)]`, falling back to `kwargs[argname]` on
`IndexError`/`ValueError`; a name missing from both raises `KeyError`. -/
def fetch {O : Type} (sig : Signature) (argname : String) (args : List O)
    (kwargs : List (String × O)) : Py O :=
  match sig.args.idxOf? argname with
  | some i =>
    match args[i]? with
    | some dt => .ok dt
    | none => pyLookup kwargs argname
  | none => pyLookup kwargs argname

/-- tzinfo_check.py:75-92: the loop over the guarded names. -/
def checkAll {O : Type} (V : ObjView O) (sig : Signature) (args : List O)
    (kwargs : List (String × O)) : List String → Py Unit
  | [] => .ok ()
  | argname :: rest => do
    if argname ∈ sig.args ∨ argname ∈ sig.kwonlyargs then
      let dt ← fetch sig argname args kwargs
      checkValue V argname dt
    checkAll V sig args kwargs rest

/-- tzinfo_check.py:20-95: `check_aware_dt(*argnames)(func)`, as a function of the call's positional
and keyword arguments. -/
def check_aware_dt {O β : Type} (V : ObjView O) (argnames : List String) (sig : Signature)
    (func : List O → List (String × O) → Py β) (args : List O) (kwargs : List (String × O)) : Py β := do
  checkAll V sig args kwargs argnames
  func args kwargs

/-- The attributes of a `When` argument: datetimes have `tzinfo` and no `shape`, arrays have `shape`. -/
def whenView (B : Backend) : ObjView (When B) where
  hasShape w := match w with | .arr _ => true | _ => false
  hasTzinfo w := match w with | .dt _ => true | _ => false
  tzinfoIsNone w := match w with | .dt d => d.tz.isNone | _ => false

/-- The decorator `@check_aware_dt('when')` as it acts on a call in which `when` has been supplied:
the value is tested, then the body runs (the general decorator reduces to this, see
`Verif/Props/Guard.lean`). -/
def guard {B : Backend} (w : When B) : Py Unit := checkValue (whenView B) "when" w

end Pysolar.TzCheck
