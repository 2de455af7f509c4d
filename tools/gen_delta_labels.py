"""Extract the delta-T table of /repo/pysolar/solartime.py as labelled triples, using the year and month
written in its comments (not the position in the list)."""
import re
src = open('/repo/pysolar/solartime.py').read().split('\n')
rows, year, on = [], None, False
for l in src:
    if l.startswith('delta_t ='):
        on = True
    if not on:
        continue
    if '# delta_t' in l:
        break
    m = re.match(r'\s*\[ # (\d+)', l)
    if m:
        year = int(m.group(1)); continue
    m = re.match(r'\s*([\d.]+), # (\d+)', l)
    if m:
        rows.append((year, int(m.group(2)), m.group(1)))
out = """import Mathlib.Data.Rat.Defs

/-!
# The delta-T data as published: year, month, TT - UT1 in seconds on the first of the month

Generated by tools/gen_delta_labels.py from the labels written beside each value in
/repo/pysolar/solartime.py:141-721. Independent of the position of the values in the list.
-/

namespace Verif.Spec

/-- Year, month, value. -/
def deltaTData : List (ℤ × ℤ × ℚ) :=
  [
"""
out += ',\n'.join('    (%d, %d, %s)' % r for r in rows)
out += "]\n\nend Verif.Spec\n"
open('/verif/lean/Verif/Spec/DeltaTData.lean', 'w').write(out)
print(len(rows), rows[0], rows[-1])
