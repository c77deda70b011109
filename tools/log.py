#!/usr/bin/env python3
"""Turn the results of mutate.py into seeded/LOG.jsonl: log.py results.jsonl notes.json.

notes.json maps the id of a mutant to {"claim": ..., "tightened": [...], "note": ...}; all keys are optional."""
import json, sys
notes = json.load(open(sys.argv[2]))
out = {}
for line in open(sys.argv[1]):
    r = json.loads(line)
    if any(x.startswith('model error') for x in r['notes']):
        continue  # the edit itself does not compile
    n = notes.get(r['id'], {})
    e = {'id': r['id'], 'definition': r['definition'], 'edit': r['edit'], 'claim': n.get('claim', r['claim']),
         'failed': r['failed'], 'first_broken': [b for b in r['broken']][:6], 'tightened': n.get('tightened', [])}
    if 'note' in n:
        e['note'] = n['note']
    out[r['id']] = e
with open('/verif/seeded/LOG.jsonl', 'w') as f:
    for e in out.values():
        f.write(json.dumps(e, ensure_ascii=False) + '\n')
print(len(out), 'entries;', sum(1 for e in out.values() if not e['failed']), 'survivors')
