#!/usr/bin/env python3
"""claim.py Cxx status note: set one entry of claims.json."""
import json, sys, pathlib
p = pathlib.Path(__file__).resolve().parent / 'claims.json'
d = json.loads(p.read_text())
d[sys.argv[1]] = {'status': sys.argv[2], 'note': sys.argv[3] if len(sys.argv) > 3 else ''}
p.write_text('{\n' + ',\n'.join(f'{json.dumps(k)}: {json.dumps(d[k], ensure_ascii=False)}' for k in sorted(d)) + '\n}\n')
