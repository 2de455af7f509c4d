#!/usr/bin/env python3
"""Writes lean/Verif/Model/Signatures.lean from the text of /repo/pysolar/*.py and *.pyi (parsed, not executed)."""
import ast
R = '/repo/pysolar/'

def sigs(path):
    out = {}
    for n in ast.parse(open(path).read()).body:
        if isinstance(n, ast.FunctionDef):
            a = n.args
            assert not (a.vararg or a.kwarg or a.kwonlyargs or a.posonlyargs), (path, n.name)
            ps = [x.arg for x in a.args]
            nd = len(a.defaults)
            out[n.name] = (n.lineno, [(p, i >= len(ps) - nd) for i, p in enumerate(ps)])
    return out

def show(ps):
    return '[' + ', '.join('("%s", %s)' % (p, str(d).lower()) for p, d in ps) + ']'

L = ['''import Verif.Py.Call

/-!
# Signatures of the functions and of their type stubs

Written by tools/gen_signatures.py. Each entry: module, function, parameters in the stub (`.pyi`), parameters in the code
(`.py`); `true` marks a parameter with a default. Types are not recorded. Functions without a stub: those of numeric.py,
rest.py and tzinfo_check.py, and `get_topocentric_position` (solar.py).
-/

namespace Pysolar.Stubs

open Verif

/-- A function with a stub. -/
structure Function where
  file : String
  name : String
  stub : Sig
  code : Sig
''']
names = []
for mod in ['solar', 'util', 'simulate', 'radiation', 'elevation', 'solartime', 'constants']:
    S = sigs(R + mod + '.pyi'); I = sigs(R + mod + '.py')
    rows = []
    for f, (ln, ps) in S.items():
        rows.append('  -- %s.pyi:%d, %s.py:%d\n  ⟨"%s", "%s",\n    %s,\n    %s⟩' % (mod, ln, mod, I[f][0], mod, f, show(ps), show(I[f][1])))
    names.append(mod + 'Functions')
    L.append('/-- pysolar/%s.pyi and pysolar/%s.py. -/\ndef %sFunctions : List Function := [\n%s]\n' % (mod, mod, mod, ',\n'.join(rows)))
L.append('/-- All functions with a stub. -/\ndef functions : List Function :=\n  ' + ' ++\n    '.join(names) + '\n')
L.append('end Pysolar.Stubs\n')
open('/verif/lean/Verif/Model/Signatures.lean', 'w').write('\n'.join(L))
