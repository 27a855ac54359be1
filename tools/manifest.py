#!/usr/bin/env python3
"""Regenerates MANIFEST.json: collects the theorems Cxx_... of lean/Verif/Props and adds
status and note from tools/notes.json."""
import json, re, glob, collections, os
root = os.path.dirname(os.path.dirname(os.path.abspath(__file__)))
thms = collections.defaultdict(list)
for f in sorted(glob.glob(root + '/lean/Verif/Props/*.lean')):
    for m in re.finditer(r'^theorem (C\d\d+)(_\w+)', open(f).read(), re.M):
        thms[m.group(1)].append('Props.' + m.group(1) + m.group(2))
notes = json.load(open(root + '/tools/notes.json'))
claims = []
for line in open(root + '/properties.jsonl'):
    i = json.loads(line)['id']
    if i not in thms: 
        print('no theorem for', i); continue
    full = [t for t in thms[i] if not t.endswith('_partial')]
    refuted = any('_refuted' in t for t in thms[i])
    partial = any(t.endswith('_partial') for t in thms[i])
    st = notes.get(i, {}).get('status') or ('partial' if refuted or partial else 'proved')
    claims.append({'property': i, 'status': st, 'theorems': thms[i], 'note': notes.get(i, {}).get('note', '')})
json.dump({'claims': claims}, open(root + '/MANIFEST.json', 'w'), indent=1)
print(len(claims), 'claims', sum(len(c['theorems']) for c in claims), 'theorems')
