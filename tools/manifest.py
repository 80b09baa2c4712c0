#!/usr/bin/env python3
"""Generates MANIFEST.json: every theorem `Cnn_...` in lean/Verif/Props is listed under property Cnn.
A property is `partial` if one of its theorems has the suffix _partial or it is listed in PARTIAL."""
import re, json, glob, os
root = os.path.dirname(os.path.dirname(os.path.abspath(__file__)))
ids = [json.loads(l)['id'] for l in open(f'{root}/properties.jsonl') if l.strip()]
notes = json.load(open(f'{root}/tools/notes.json'))
design = {}
for line in open(f'{root}/DESIGN.md'):
    m = re.match(r'\| (C\d[^|]*?) \| (.*?) \| (.*) \|\s*$', line)
    if not m: continue
    for part in m.group(1).split(','):
        r = re.match(r'\s*C(\d+)(?:–C(\d+))?', part)
        for k in range(int(r.group(1)), int(r.group(2) or r.group(1)) + 1):
            i = f'C{k:02d}'
            design[i] = design.get(i, '') + f'Modelled: {m.group(2)}. Proof: {m.group(3)}. '
thms = {}
for f in sorted(glob.glob(f'{root}/lean/Verif/Props/**/*.lean', recursive=True)):
    ns = ''
    for line in open(f):
        m = re.match(r'namespace (\S+)', line)
        if m: ns = m.group(1)
        m = re.match(r'theorem (C(\d+)_\S*)', line)
        if m: thms.setdefault('C' + m.group(2), []).append(f'{ns}.{m.group(1)}')
claims = []
for i in ids:
    n = notes.get(i, {})
    t = thms.get(i, [])
    status = n.get('status') or ('partial' if (not t or any(x.endswith('_partial') for x in t)) else 'proved')
    if not t: 
        print('no theorem for', i); continue
    claims.append({'property': i, 'status': status, 'theorems': t, 'note': n.get('note', '') or design.get(i, '').strip()})
json.dump({'claims': claims}, open(f'{root}/MANIFEST.json', 'w'), indent=1, ensure_ascii=False)
print(len(claims), 'claims')
