#!/usr/bin/env python3
"""Collects the results of mutate.py into seeded/LOG.jsonl.  Usage: seedlog.py OUT.jsonl...
Later results for the same automatic edit must come first."""
import json, os, re, sys
root = os.path.dirname(os.path.dirname(os.path.abspath(__file__)))
# theorems tightened or definitions of claims added because of an attempt: seeded/tightened.json {id: [..]}
tf = root + '/seeded/tightened.json'
tight = json.load(open(tf)) if os.path.exists(tf) else {}
seen = set()
with open(root + '/seeded/LOG.jsonl', 'w') as o:
    for f in sys.argv[1:]:
        for l in open(f):
            d = json.loads(l)
            if 'status' in d:  # an automatic edit: one operator, constant or text changed
                if d['status'] == 'INVALID': continue
                if d['id'] in seen: continue
                seen.add(d['id'])
                t = tight.get(d['id'], {})
                new = '(line deleted)' if d['new'] is None else d['new'].strip()
                o.write(json.dumps({'id': d['id'], 'definition': d['definition'], 'file': d['file'] + '.lean',
                    'edit': '%s, line %d: %s  ->  %s' % ('by hand' if d['op'] == 'hand' else 'automatic (%s)' % d['op'], d['line'], d['old'].strip(), new),
                    'claim': d.get('claim') or 'the claims that rest on ' + d['definition'],
                    'theorems_failed': d['fails'], 'claims_whose_proofs_use_them': [],
                    'survived': d['status'] in ('SURVIVED', 'LATE'), 'theorems_tightened': t.get('tightened', []),
                    'note': t.get('note', 'no theorem had failed within the time limit of the run' if d['status'] == 'LATE' else '')}) + '\n')
                continue
            t = tight.get(d['id'], {})
            claims = d.get('dependent_theorems') or d.get('blocked_claims') or []
            o.write(json.dumps({'id': d['id'], 'definition': d['definition'], 'file': d['file'], 'edit': d['edit'], 'claim': d['claim'],
                'theorems_failed': d['theorems_failed'], 'claims_whose_proofs_use_them': claims,
                'survived': t.get('survived', d['survived']), 'theorems_tightened': t.get('tightened', []), 'note': t.get('note', '')}) + '\n')
