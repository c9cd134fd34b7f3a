#!/usr/bin/env python3
"""Regenerate MANIFEST.json: theorems are found by name, statuses and notes are kept in claims.json."""
import json, re, pathlib
root = pathlib.Path(__file__).resolve().parent.parent
thms = {}
for f in sorted((root / 'lean/Verif').rglob('*.lean')):
    ns = []
    for line in f.read_text().splitlines():
        m = re.match(r'namespace (\S+)', line)
        if m: ns.append(m.group(1))
        m = re.match(r'end (\S+)', line)
        if m and ns and ns[-1] == m.group(1): ns.pop()
        m = re.match(r'(?:@\[[^\]]*\] )?theorem ((C\d\d+)_\S+)', line)
        if m: thms.setdefault(m.group(2), []).append('.'.join(ns + [m.group(1)]))
claims_src = json.loads((root / 'tools/claims.json').read_text())
props = [json.loads(l)['id'] for l in (root / 'properties.jsonl').read_text().splitlines() if l.strip()]
out = []
for p in props:
    c = claims_src.get(p)
    t = thms.get(p, [])
    if c is None:
        if t: print('no status for', p, t)
        continue
    if c['status'] in ('proved', 'partial') and not t: print('no theorems for', p)
    out.append({'property': p, 'status': c['status'], 'theorems': t, 'note': c.get('note', '')})
for p in thms:
    if p not in props: print('theorem for unknown property', p)
for p in props:
    if p not in claims_src: print('unclaimed', p)
(root / 'MANIFEST.json').write_text(json.dumps({'claims': out}, indent=1, ensure_ascii=False) + '\n')
