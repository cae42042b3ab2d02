"""Writes the table of axioms at the end of DESIGN.md: asks Lean for the axioms of every theorem in MANIFEST.json."""
import json, re, subprocess, os
root = os.path.dirname(os.path.dirname(os.path.abspath(__file__)))
names = [t for c in json.load(open(root + '/MANIFEST.json'))['claims'] for t in c['theorems']]
src = 'import Verif\n' + ''.join(f'#print axioms Verif.Props.{n.split(".")[-1]}\n' for n in names)
tmp = '/tmp/axioms_query.lean'
open(tmp, 'w').write(src)
out = subprocess.run(['lake', 'env', 'lean', tmp], cwd=root + '/lean', capture_output=True, text=True).stdout
out = re.sub(r'\s+', ' ', out)
found = {}
for m in re.finditer(r"'Verif\.Props\.(\w+)' (does not depend on any axioms|depends on axioms: \[([^\]]*)\])", out):
    found[m.group(1)] = m.group(3) or 'none'
groups = {}
for n in names:
    n = n.split('.')[-1]
    groups.setdefault(', '.join(sorted(found[n].split(', '))), []).append(n)
table = '## Axioms of each theorem\n\nGenerated by `tools/axioms.py` from `#print axioms`.\n\n| Axioms | Theorems |\n|---|---|\n'
for a in sorted(groups):
    table += f'| {a} | ' + ', '.join(sorted(set(groups[a]))) + ' |\n'
p = root + '/DESIGN.md'
s = open(p).read()
i = s.find('## Axioms of each theorem')
open(p, 'w').write((s if i < 0 else s[:i]).rstrip() + '\n\n' + table)
print({a: len(v) for a, v in groups.items()})
