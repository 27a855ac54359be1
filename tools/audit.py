#!/usr/bin/env python3
"""Regenerates lean/Verif/Audit.lean: prints the axioms of every theorem of MANIFEST.json."""
import json, os
root = os.path.dirname(os.path.dirname(os.path.abspath(__file__)))
m = json.load(open(root + '/MANIFEST.json'))
mods = [l.strip() for l in open(root + '/lean/Verif.lean') if l.startswith('import Verif.Props.')]
out = ['\n'.join(mods), '/-!', '# The axioms of every property theorem (generated by tools/audit.py)', '-/']
for c in m['claims']:
    for t in c['theorems']:
        out.append('#print axioms ' + t)
open(root + '/lean/Verif/Audit.lean', 'w').write('\n'.join(out) + '\n')
