import ast
S='/repo/pysolar/solartime.py'; C='/repo/pysolar/constants.py'
def node(fn,name):
    src=open(fn).read()
    for n in ast.parse(src).body:
        if isinstance(n,ast.Assign) and getattr(n.targets[0],'id',None)==name:
            return src,n
def num(src,e):
    t=ast.get_source_segment(src,e)
    t=t.replace('+','').strip()
    if t.endswith('.0'): t=t[:-2]
    if t.startswith('-'): t='('+t+')'
    return t
def lst(src,e,ind):
    pad=' '*ind
    if isinstance(e,ast.List):
        if e.elts and isinstance(e.elts[0],(ast.List,ast.Tuple)):
            return '[\n'+',\n'.join(pad+'  '+lst(src,x,ind+2) for x in e.elts)+']'
        # list of numbers: wrap
        xs=[num(src,x) for x in e.elts]
        return '['+', '.join(xs)+']'
    if isinstance(e,ast.Tuple):
        return '('+', '.join(num(src,x) for x in e.elts)+')'
def emit(fn,name,ty,rel,lname=None):
    src,n=node(fn,name)
    return f"/-- `{name}`, {rel}:{n.lineno}-{n.end_lineno}. -/\ndef {lname or name} : {ty} :=\n  {lst(src,n.value,2)}\n"
hdr="""import Mathlib.Data.Rat.Defs

/-!
# Tables, generated mechanically from the text of /repo (decimal literals kept exactly)

Do not edit by hand.  Decimal literals become exact rationals.
-/

namespace Pysolar

"""
out=hdr
out+="namespace Constants\n\n"
src,n=node(C,'aberration_sin_terms')
# 5-tuples of ints as lists
def emit5(fn,name,ty):
    src,n=node(fn,name)
    rows=',\n'.join('    ['+', '.join(num(src,x) for x in r.elts)+']' for r in n.value.elts)
    return f"/-- `{name}`, constants.py:{n.lineno}-{n.end_lineno}. -/\ndef {name} : {ty} :=\n  [\n{rows}]\n\n"
out+=emit5(C,'aberration_sin_terms','List (List ℚ)')
out+=emit(C,'nutation_coefficients','List (ℚ × ℚ × ℚ × ℚ)','constants.py')+"\n"
for nm in ['heliocentric_longitude_coeffs','heliocentric_latitude_coeffs','sun_earth_distance_coeffs']:
    out+=emit(C,nm,'List (List (ℚ × ℚ × ℚ))','constants.py')+"\n"
out+="end Constants\n\nnamespace Solartime\n\n"
out+=emit(S,'leap_seconds_adjustments','List (ℤ × ℤ)','solartime.py')+"\n"
out+=emit(S,'delta_t','List (List ℚ)','solartime.py')+"\n"
out+="end Solartime\n\nend Pysolar\n"
open('/verif/lean/Verif/Model/Tables.lean','w').write(out)
