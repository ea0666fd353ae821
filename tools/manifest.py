#!/usr/bin/env python3
"""Writes MANIFEST.json from the table below, with the theorem names found in lean/Verif/Props."""
import json, re, glob, os
root = os.path.dirname(os.path.dirname(os.path.abspath(__file__)))
names = []
for f in sorted(glob.glob(root + '/lean/Verif/Props/*.lean')):
    for m in re.finditer(r'^theorem (C\d\d_\w+)', open(f).read(), re.M):
        names.append('Aga8.' + m.group(1))
NOTES = json.load(open(root + '/tools/manifest_notes.json'))
claims = []
for l in open(root + '/properties.jsonl'):
    pid = json.loads(l)['id']
    th = [n for n in names if n.startswith('Aga8.' + pid + '_')]
    status, note = NOTES.get(pid, ['partial', ''])
    if not th and status != 'not_applicable':
        status, note = 'partial', 'not proved yet'
    claims.append({'property': pid, 'status': status, 'theorems': th, 'note': note})
json.dump({'claims': claims}, open(root + '/MANIFEST.json', 'w'), indent=1)
