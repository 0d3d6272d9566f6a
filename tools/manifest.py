#!/usr/bin/env python3
"""Rebuilds MANIFEST.json: the theorems named Cnn_... in lean/Verif/Props, with the notes of tools/notes.json."""
import glob, json, os, re
root = os.path.join(os.path.dirname(os.path.abspath(__file__)), '..')
notes = json.load(open(os.path.join(root, 'tools', 'notes.json')))
theorems = {}
for path in sorted(glob.glob(os.path.join(root, 'lean', 'Verif', 'Props', '*.lean'))):
    for name in re.findall(r'^theorem (C\d+_\w+)', open(path).read(), re.M):
        theorems.setdefault(name.split('_')[0], []).append('Mvd.' + name)
claims = []
for line in open(os.path.join(root, 'properties.jsonl')):
    ident = json.loads(line)['id']
    if ident in theorems:
        note = notes.get(ident, {}).get('limits', '')
        partial = any(t.endswith('_partial') for t in theorems[ident])
        claims.append({'property': ident, 'status': 'partial' if partial else 'proved',
                       'theorems': theorems[ident], 'note': note})
json.dump({'claims': claims}, open(os.path.join(root, 'MANIFEST.json'), 'w'), indent=1, ensure_ascii=False)
