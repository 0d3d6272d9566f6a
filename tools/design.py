#!/usr/bin/env python3
"""Rebuilds DESIGN.md from tools/design_head.md, tools/design_tail.md, tools/notes.json, properties.jsonl and the comments
of the model."""
import glob, json, os, re
root = os.path.join(os.path.dirname(os.path.abspath(__file__)), '..')
read = lambda *p: open(os.path.join(root, *p)).read()
notes = json.loads(read('tools', 'notes.json'))
manifest = {c['property']: c['theorems'] for c in json.loads(read('MANIFEST.json'))['claims']}
out = [read('tools', 'design_head.md').rstrip(), '', '## Properties', '']
for line in read('properties.jsonl').splitlines():
    p = json.loads(line)
    n = notes[p['id']]
    out.append(f"### {p['id']} {p['title']}\n")
    out.append(f"{p['statement']}\n")
    out.append(f"* Model: {n['model']}")
    out.append(f"* Proof: {n['proof']}")
    out.append(f"* Hypotheses and limits: {n['limits']}")
    out.append('* Theorems: ' + ', '.join(f"`{t.split('.')[-1]}`" for t in manifest.get(p['id'], [])) + '\n')
out += ['## Modelled code', '', 'One line per definition of the model; the source is `/repo/src`.', '']
for path in sorted(glob.glob(os.path.join(root, 'lean', 'Verif', 'Model', '*.lean'))):
    out.append(f"`Model/{os.path.basename(path)}`\n")
    for doc, kind, name in re.findall(r'^/-- ((?:(?!-/).)*?) ?-/\s*(def|structure|inductive|abbrev) (\S+)', open(path).read(), re.M | re.S):
        out.append(f"* `{name}`: {' '.join(doc.split())}")
    out.append('')
out.append(read('tools', 'design_tail.md').rstrip())
open(os.path.join(root, 'DESIGN.md'), 'w').write('\n'.join(out) + '\n')
