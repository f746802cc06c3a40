#!/usr/bin/env python3
"""Regenerate MANIFEST.json from the theorem names `Cnn_*` found in lean/Verif/Props."""
import json, re, pathlib
root = pathlib.Path(__file__).resolve().parent.parent
props = [json.loads(l) for l in (root/'properties.jsonl').read_text().splitlines() if l.strip()]
notes = json.loads((root/'scripts/notes.json').read_text())
thms = {}
for f in sorted((root/'lean/Verif/Props').glob('*.lean')):
    text = f.read_text()
    ns = []
    for line in text.splitlines():
        m = re.match(r'namespace (\S+)', line)
        if m: ns.append(m.group(1))
        m = re.match(r'end (\S+)', line)
        if m and ns and ns[-1] == m.group(1): ns.pop()
        m = re.match(r'(?:noncomputable )?theorem (C\d\d+)_(\S+)', line)
        if m: thms.setdefault(m.group(1), []).append('.'.join(ns+[m.group(1)+'_'+m.group(2)]))
claims = []
for p in props:
    i = p['id']
    n = notes.get(i, {})
    t = thms.get(i, [])
    if not t and n.get('status') != 'not_applicable':
        continue
    status = n.get('status') or 'proved'
    claims.append({'property': i, 'status': status, 'theorems': t, 'note': n.get('note', '')})
(root/'MANIFEST.json').write_text(json.dumps({'claims': claims}, indent=1)+'\n')
print(len(claims), 'claims;', sum(len(c['theorems']) for c in claims), 'theorems; missing',
      [p['id'] for p in props if p['id'] not in {c['property'] for c in claims}])
