#!/usr/bin/env python3
"""Regenerates MANIFEST.json: theorem names are collected from lean/Verif/Props/*.lean,
status and note of each property from tools/status.json."""
import re, json, glob, os
root = os.path.dirname(os.path.dirname(os.path.abspath(__file__)))
names = {}
for f in sorted(glob.glob(root + '/lean/Verif/Props/*.lean')):
    ns = []
    for line in open(f):
        m = re.match(r'namespace (\S+)', line)
        if m: ns.append(m.group(1))
        m = re.match(r'end (\S+)', line)
        if m and ns and ns[-1] == m.group(1): ns.pop()
        m = re.match(r'theorem (C\d\d+)_(\S+)', line)
        if m: names.setdefault(m.group(1), []).append('.'.join(ns + [m.group(1) + '_' + m.group(2)]))
status = json.load(open(root + '/tools/status.json'))
claims = []
for k in sorted(set(names) | set(status), key=lambda x: int(x[1:])):
    if k not in status: print('no status for', k); continue
    s = status[k]
    if s[0] != 'not_applicable' and k not in names: print('no theorems for', k); continue
    claims.append({'property': k, 'status': s[0], 'theorems': names.get(k, []), 'note': s[1]})
json.dump({'claims': claims}, open(root + '/MANIFEST.json', 'w'), indent=1, ensure_ascii=False)
print(len(claims), 'claims,', sum(len(c['theorems']) for c in claims), 'theorems')
