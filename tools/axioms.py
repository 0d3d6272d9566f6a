#!/usr/bin/env python3
"""Rebuilds AXIOMS.md: the axioms every theorem of MANIFEST.json depends on, as printed by Lean. Needs a built project."""
import json, os, re, subprocess, tempfile
root = os.path.join(os.path.dirname(os.path.abspath(__file__)), '..')
names = [t for c in json.load(open(os.path.join(root, 'MANIFEST.json')))['claims'] for t in c['theorems']]
with tempfile.NamedTemporaryFile('w', suffix='.lean', delete=False) as f:
    f.write('import Verif\n' + ''.join(f'#print axioms {n}\n' for n in names))
out = subprocess.run(['lake', 'env', 'lean', f.name], cwd=os.path.join(root, 'lean'), stdout=subprocess.PIPE, text=True).stdout
os.unlink(f.name)
found = {}
for m in re.finditer(r"'([\w.]+)' (does not depend on any axioms|depends on axioms: \[([^\]]*)\])", out):
    found[m.group(1)] = sorted(a.strip() for a in m.group(3).split(',')) if m.group(3) else []
groups = {}
for n in names:
    groups.setdefault(', '.join(found[n]) or 'none', []).append(n)
with open(os.path.join(root, 'AXIOMS.md'), 'w') as f:
    f.write('# Axioms per theorem\n\nPrinted by `#print axioms` (regenerate with `tools/axioms.py`).\n')
    for axioms, ns in sorted(groups.items()):
        f.write(f'\n## {axioms}\n\n' + ''.join(f'* `{n}`\n' for n in ns))
print({k: len(v) for k, v in groups.items()})
