import Verif.Py.Backend

/-!
# Binding of arguments to parameters in a Python call

Parameters that can be given by position or by keyword; `*args`, `**kwargs`, keyword-only and positional-only parameters do
not occur in the modules with stubs.
-/

namespace Verif

/-- A signature: names of the parameters in order, and whether they have a default. -/
abbrev Sig := List (String × Bool)

/-- The values a call binds to parameters (those left to their defaults are not listed), or `TypeError`: too many positional
arguments, an unknown keyword, a parameter given twice, a missing argument. -/
def bindArgs {α : Type} (s : Sig) (args : List α) (kwargs : List (String × α)) : Py (List (String × α)) :=
  let names := s.map Prod.fst
  let positional := names.zip args
  if s.length < args.length then .error .typeError
  else if ∃ k ∈ kwargs, k.1 ∉ names then .error .typeError
  else if ∃ k ∈ kwargs, k.1 ∈ positional.map Prod.fst then .error .typeError
  else if ∃ p ∈ s, p.2 = false ∧ p.1 ∉ (positional ++ kwargs).map Prod.fst then .error .typeError
  else .ok (positional ++ kwargs)

end Verif
