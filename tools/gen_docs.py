"""Generates lean/Verif/Spec/DocTable.lean from the text of /repo/docs/Command Tables.md.
usage: python3 tools/gen_docs.py > lean/Verif/Spec/DocTable.lean"""
import re
rows = []
mode = None
for n, line in enumerate(open('/repo/docs/Command Tables.md'), 1):
    m = re.match(r'## Mode (\d\d)', line)
    if m: mode = int(m.group(1), 16); continue
    if line.startswith('## '): mode = None
    if not line.startswith('|'): continue
    cells = [c.strip() for c in line.strip().strip('|').split('|')]
    if len(cells) < 4 or cells[0] == 'PID' or cells[0].startswith('--') or 'gap' in cells[0] or 'unsupported' in cells[1]:
        continue
    pid, name, desc, ty = cells[:4]
    if ty.startswith('Unit.'): t = '.unit "%s"' % ty[5:]
    elif ty == 'BitArray': t = '.bitArray'
    elif ty == 'boolean': t = '.boolean'
    elif ty == 'string': t = '.string'
    elif 'air-status' in ty: t = '.airStatus'
    elif ty == 'hex string': t = '.hexString'
    elif 'fuel-status' in ty: t = '.fuelStatus'
    elif '#status' in ty: t = '.status'
    elif 'oxygen' in ty: t = '.banks [4, 4]' if name == 'O2_SENSORS' else '.banks [2, 2, 2, 2]'
    elif 'monitors' in ty: t = '.monitor'
    elif 'dtcs' in ty: t = '.dtc' if name == 'FREEZE_DTC' else '.dtcs'
    elif ty in ('TODO', 'N/A'): t = '.open'
    else: raise SystemExit(ty)
    rows.append((n, mode, None if pid == 'N/A' else int(pid, 16), name, t))
print('''/-!
# The tables of `docs/Command Tables.md`, and the lists of `docs/Responses.md`

Generated by `tools/gen_docs.py` from the text of the file: the rows of the tables of the
adapter commands and of modes 01, 03, 04, 06, 07 and 09, without the columns of descriptions.
-/
namespace Spec

/-- The column "Response Value".  `open` is `TODO` or `N/A`; `banks` are the nested tuples
shown at `docs/Responses.md`:164-182, with the number of sensors of each bank. -/
inductive DocType where
  | unit (name : String)
  | banks (sizes : List Nat)
  | bitArray | boolean | string | hexString | fuelStatus | airStatus | status | monitor | dtc | dtcs | open
  deriving DecidableEq, Repr

/-- A row: the mode (`none` for adapter commands), the PID (`none` for `N/A`), the name and the type. -/
structure DocRow where
  mode : Option Nat
  pid : Option Nat
  name : String
  type : DocType
  deriving DecidableEq, Repr
''')
print('/-- `docs/Command Tables.md`:%d-%d. -/' % (rows[0][0], rows[-1][0]))
print('def docTable : List DocRow :=\n  [' + ',\n   '.join('⟨%s, %s, "%s", %s⟩' % (
  'none' if m is None else 'some %d' % m, 'none' if p is None else 'some 0x%02X' % p, n, t) for _, m, p, n, t in rows) + ']')

sect, lines = {}, open('/repo/docs/Responses.md').read().split('\n')
cur = None
for n, l in enumerate(lines, 1):
    if l.startswith('## '): cur = l[3:].strip()
    if l.startswith('|') and not set(l) <= set('|- '):
        sect.setdefault(cur, []).append((n, [c.strip().strip('`') for c in l.strip().strip('|').split('|')]))
def q(x): return x if x.startswith('"') else '"%s"' % x
def lst(name, key, ty, f):
    r = sect[key][1:]
    print('\n/-- `docs/Responses.md`:%d-%d. -/' % (r[0][0], r[-1][0]))
    print('def %s : List %s :=\n  [%s]' % (name, ty, ',\n   '.join(f(c) for _, c in r)))
lst('docFuel', 'Fuel Status', 'String', lambda c: q(c[0]))
lst('docAir', 'Air Status', 'String', lambda c: q(c[0]))
lst('docTests', 'Status', 'String', lambda c: q(c[0]))
lst('docTids', 'Monitors (Mode 06 Responses)', '(Nat × String × String)', lambda c: '(0x%s, %s, %s)' % (c[0], q(c[1]), q(c[2])))
print('\nend Spec')
