"""Run `#print axioms` on every theorem of MANIFEST.json and write AXIOMS.md (needs a finished `lake build`)."""
import json, os, re, subprocess
root = os.path.dirname(os.path.dirname(os.path.abspath(__file__)))
claims = json.load(open(root + '/MANIFEST.json'))['claims']
ths = [t for c in claims for t in c['theorems']]
src = 'import Verif\n' + ''.join(f'#print axioms {t}\n' for t in ths)
tmp = '/tmp/axioms_check.lean'
open(tmp, 'w').write(src)
out = subprocess.run(['lake', 'env', 'lean', tmp], cwd=root + '/lean', capture_output=True, text=True).stdout
res = {}
for b in re.split(r"(?=^')", out, flags=re.M):
    m = re.match(r"'([\w.]+)' depends on axioms: \[([^\]]*)\]", b.replace('\n', ' '))
    if m:
        res[m.group(1)] = ', '.join(x.strip() for x in m.group(2).split(','))
        continue
    m = re.match(r"'([\w.]+)' does not depend on any axioms", b)
    if m:
        res[m.group(1)] = 'none'
missing = [t for t in ths if t not in res]
assert not missing, missing[:5]
groups = {}
for t in ths:
    groups.setdefault(res[t], []).append(t)
with open(root + '/AXIOMS.md', 'w') as f:
    f.write('# Axioms of the property theorems\n\nOutput of `#print axioms`, grouped (`tools/gen_axioms.py`).\n')
    for a in sorted(groups, key=lambda a: -len(groups[a])):
        f.write(f'\n## {a}\n\n')
        for t in groups[a]:
            f.write(f'- `{t}`\n')
print({a: len(g) for a, g in groups.items()})
