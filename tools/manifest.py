#!/usr/bin/env python3
"""Regenerates MANIFEST.json from the theorem names in lean/Verif/Props and tools/notes.json.

A property is "partial" if it has a theorem with suffix `_partial` (or tools/notes.json says so),
otherwise "proved".  Properties without theorems are listed with the status of the notes file or
left out."""
import json, re, glob, os
root = os.path.dirname(os.path.dirname(os.path.abspath(__file__)))
notes = json.load(open(root + '/tools/notes.json'))
thms = {}
for f in sorted(glob.glob(root + '/lean/Verif/Props/*.lean')):
    for m in re.finditer(r'^theorem (C(\d+)_[\w\']+)', open(f).read(), re.M):
        thms.setdefault('C' + m.group(2), []).append('MathLib.' + m.group(1))
claims = []
for line in open(root + '/properties.jsonl'):
    pid = json.loads(line)['id']
    ts = thms.get(pid, [])
    n = notes.get(pid, {})
    if not ts and 'status' not in n:
        continue
    status = n.get('status') or ('partial' if any(t.endswith('_partial') for t in ts) else 'proved')
    claims.append({'property': pid, 'status': status, 'theorems': ts, 'note': n.get('note', '')})
json.dump({'claims': claims}, open(root + '/MANIFEST.json', 'w'), indent=1, ensure_ascii=False)
from collections import Counter
print(Counter(c['status'] for c in claims), 'missing', [json.loads(l)['id'] for l in open(root+'/properties.jsonl') if json.loads(l)['id'] not in {c['property'] for c in claims}])
