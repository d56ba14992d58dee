#!/usr/bin/env python3
"""Writes MANIFEST.json: one claim per property, with the theorems of lean/Verif/Props.

Usage: python3 tools/manifest.py
A theorem belongs to the property whose id prefixes its name (C09_visited -> C09).
The status and note of each property are given below; a property without
theorems is reported as partial with no theorems."""
import json, os, re

ROOT = os.path.dirname(os.path.dirname(os.path.abspath(__file__)))
STATUS = json.load(open(os.path.join(ROOT, 'tools', 'status.json')))

thms = {}
for dirpath, _, files in os.walk(os.path.join(ROOT, 'lean', 'Verif', 'Props')):
    for f in sorted(files):
        if not f.endswith('.lean'):
            continue
        src = open(os.path.join(dirpath, f), encoding='utf-8').read()
        for m in re.finditer(r'^theorem (C\d+_\w+)', src, re.M):
            n = m.group(1)
            thms.setdefault(n.split('_')[0], []).append('If97.' + n)

claims = []
for line in open(os.path.join(ROOT, 'properties.jsonl'), encoding='utf-8'):
    pid = json.loads(line)['id']
    st = STATUS.get(pid, {'status': 'partial', 'note': 'Not proved yet.'})
    claims.append({'property': pid, 'status': st['status'],
                   'theorems': sorted(thms.get(pid, [])), 'note': st['note']})
with open(os.path.join(ROOT, 'MANIFEST.json'), 'w', encoding='utf-8') as f:
    json.dump({'claims': claims}, f, indent=1, ensure_ascii=False)
    f.write('\n')
for c in claims:
    print(c['property'], c['status'], len(c['theorems']))
