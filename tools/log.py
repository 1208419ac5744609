#!/usr/bin/env python3
"""Append the outcomes of mutate.py to seeded/LOG.jsonl.

usage: log.py OUT.jsonl [TIGHTENED.json]   (TIGHTENED maps "definition | edit" to a list of theorems, or to
                                            {"tightened": [...], "note": "..."})"""
import json, os, sys
ROOT = os.path.dirname(os.path.dirname(os.path.abspath(__file__)))
t = json.load(open(sys.argv[2])) if len(sys.argv) > 2 else {}
with open(ROOT + '/seeded/LOG.jsonl', 'a') as o:
    for line in open(sys.argv[1]):
        d = json.loads(line)
        if 'error' in d:
            continue
        x = t.get(d['definition'] + ' | ' + d['edit'], [])
        note = ''
        if isinstance(x, dict):
            x, note = x['tightened'], x['note']
        r = {'definition': d['file'] + ': ' + d['definition'], 'edit': d['edit'], 'from': d['old'], 'to': d['new'],
             'claim': d['claim'], 'failed': d['failed'],
             'broken_lemmas': sorted(set(d['broken']) - {'example'}), 'tightened': x}
        if note:
            r['note'] = note
        o.write(json.dumps(r, ensure_ascii=False) + '\n')
