#!/usr/bin/env python3
"""Set one claim of MANIFEST.json: claim.py C20 proved "C20_count C20_columns" "note"."""
import json, os, sys
root = os.path.dirname(os.path.dirname(os.path.abspath(__file__)))
path = os.path.join(root, 'MANIFEST.json')
m = json.load(open(path))
prop, status, names, note = sys.argv[1:5]
m['claims'] = [c for c in m['claims'] if c['property'] != prop]
m['claims'].append({'property': prop, 'status': status,
                    'theorems': ['Sas.Props.' + n for n in names.split()], 'note': note})
m['claims'].sort(key=lambda c: c['property'])
json.dump(m, open(path, 'w'), indent=1)
