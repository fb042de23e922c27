#!/usr/bin/env python3
"""Write AXIOMS.md: the axioms of every theorem named in MANIFEST.json, as Lean reports them.

Run after `lake build` in lean/."""
import json, os, re, subprocess, tempfile
root = os.path.dirname(os.path.dirname(os.path.abspath(__file__)))
claims = json.load(open(os.path.join(root, 'MANIFEST.json')))['claims']
names = []
for c in claims:
    for t in c['theorems']:
        names.append((c['property'], t if '.' in t else 'Uni.Props.' + t))
with tempfile.NamedTemporaryFile('w', suffix='.lean', delete=False) as f:
    f.write('import Verif\n' + ''.join(f'#print axioms {n}\n' for _, n in names))
out = subprocess.run(['lake', 'env', 'lean', f.name], cwd=os.path.join(root, 'lean'), capture_output=True, text=True).stdout
os.unlink(f.name)
found = {}
for m in re.finditer(r"'([^']+(?:'+[^' ]*)*)' (?:depends on axioms: \[([^\]]*)\]|does not depend on any axioms)", out):
    found[m.group(1)] = sorted(re.split(r',\s*', m.group(2))) if m.group(2) else []
missing = [n for _, n in names if n not in found]
assert not missing, missing[:5]
allowed = {'propext', 'Classical.choice', 'Quot.sound'}
bad = [n for n in found if set(found[n]) - allowed]
assert not bad, bad
with open(os.path.join(root, 'AXIOMS.md'), 'w') as g:
    g.write('# Axioms of each theorem\n\nWritten by `tools/axioms.py` from `#print axioms`. P = `propext`, C = `Classical.choice`, Q = `Quot.sound`; no other axiom occurs.\n\n')
    g.write('| Property | Theorem | Axioms |\n|---|---|---|\n')
    short = {'propext': 'P', 'Classical.choice': 'C', 'Quot.sound': 'Q'}
    for p, n in names:
        g.write(f"| {p} | `{n.removeprefix('Uni.Props.')}` | {' '.join(short[a] for a in found[n]) or 'none'} |\n")
print(len(names), 'theorems')
