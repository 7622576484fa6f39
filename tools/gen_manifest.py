#!/usr/bin/env python3
"""Writes MANIFEST.json from the table in tools/claims.py."""
import json, os
here = os.path.dirname(os.path.abspath(__file__))
ns = {}
exec(open(os.path.join(here, 'claims.py')).read(), ns)
ids = [json.loads(l)['id'] for l in open(os.path.join(here, '..', 'properties.jsonl'))]
claims = []
for i in ids:
    if i not in ns['CLAIMS']:
        continue
    status, thms, note = ns['CLAIMS'][i]
    claims.append({'property': i, 'status': status,
                   'theorems': ['Kam.' + t for t in thms], 'note': note})
json.dump({'claims': claims}, open(os.path.join(here, '..', 'MANIFEST.json'), 'w'), indent=1)
print(len(claims), 'claims;', 'missing:', [i for i in ids if i not in ns['CLAIMS']])
