#!/usr/bin/env python3
"""Regenerate lean/Verif/Audit.lean from MANIFEST.json: print the axioms of every claimed theorem."""
import json, os
root = os.path.dirname(os.path.dirname(os.path.abspath(__file__)))
claims = json.load(open(os.path.join(root, 'MANIFEST.json')))['claims']
props = sorted(f[:-5] for f in os.listdir(os.path.join(root, 'lean/Verif/Props')) if f.endswith('.lean'))
out = ''.join(f'import Verif.Props.{p}\n' for p in props)
out += '\n/-! The axioms of every theorem listed in `MANIFEST.json` (generated by `tools/gen_audit.py`). -/\n\n'
for c in claims:
    for t in c['theorems']:
        out += f'#print axioms {t}\n'
open(os.path.join(root, 'lean/Verif/Audit.lean'), 'w').write(out)
