import Verif.Model.TzCheck

/-!
# Specification of the timezone guard (C01-C03)

How Python binds a call `f(*args, **kwargs)` to the parameter names of `f`, and what the guard must do
with the bound value.
-/

namespace Verif.Spec

open Pysolar.TzCheck

variable {O : Type}

/-- Parameter `name` is bound to `dt` by the call: positionally, or by keyword if no positional argument
reaches it. -/
def Supplied (sig : Signature) (args : List O) (kwargs : List (String × O)) (name : String)
    (dt : O) : Prop :=
  (∃ i : ℕ, sig.args[i]? = some name ∧ args[i]? = some dt) ∨
  ((∀ i : ℕ, sig.args[i]? = some name → args.length ≤ i) ∧ (name, dt) ∈ kwargs)

/-- The parameter exists. -/
def Param (sig : Signature) (name : String) : Prop := name ∈ sig.args ∨ name ∈ sig.kwonlyargs

/-- What Python itself guarantees: parameter names are distinct, keyword names are distinct. -/
structure WellFormed (sig : Signature) (kwargs : List (String × O)) : Prop where
  args : sig.args.Nodup
  keys : (kwargs.map Prod.fst).Nodup

/-- A value that the guard accepts: an array, or an object whose `tzinfo` is not `None`. -/
def Acceptable (V : ObjView O) (dt : O) : Prop :=
  V.hasShape dt = true ∨ (V.hasTzinfo dt = true ∧ V.tzinfoIsNone dt = false)

/-- The guarded name raises nothing: it is no parameter, or it is bound to an acceptable value. -/
def Fine (V : ObjView O) (sig : Signature) (args : List O) (kwargs : List (String × O))
    (name : String) : Prop :=
  Param sig name → ∃ dt, Supplied sig args kwargs name dt ∧ Acceptable V dt

/-- The guarded name must raise `e`. -/
inductive Offends (V : ObjView O) (sig : Signature) (args : List O) (kwargs : List (String × O))
    (name : String) : PyErr → Prop
  | missing (hp : Param sig name) (h : ∀ dt, ¬ Supplied sig args kwargs name dt) :
      Offends V sig args kwargs name .keyError
  | notDatetime (hp : Param sig name) (dt : O) (h : Supplied sig args kwargs name dt)
      (hs : V.hasShape dt = false) (ht : V.hasTzinfo dt = false) :
      Offends V sig args kwargs name .valueError
  | naive (hp : Param sig name) (dt : O) (h : Supplied sig args kwargs name dt)
      (hs : V.hasShape dt = false) (ht : V.hasTzinfo dt = true) (hn : V.tzinfoIsNone dt = true) :
      Offends V sig args kwargs name (.noTimeZoneInfo name)

end Verif.Spec
