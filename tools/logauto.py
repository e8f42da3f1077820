"""Add the results of automutate.py to seeded/LOG.jsonl.

usage: logauto.py OUT.jsonl [REVIEW.json]
REVIEW.json: {"definition | new line": [claim, outcome, [theorems tightened]]} for mutants which were not caught; those without a review are left out.
"""
import json, os, sys

log = '/verif/seeded/LOG.jsonl'
old = [json.loads(l) for l in open(log)]
seen = {(d['definition'], d['edit']) for d in old}
n = max([int(d['id'][1:]) for d in old if d['id'].startswith('A')] or [0])
review = json.load(open(sys.argv[2])) if len(sys.argv) > 2 else {}
new = []
for l in open(sys.argv[1]):
    d = json.loads(l)
    if d['outcome'] == 'model does not compile': continue
    edit = d['old'].strip() + '  ==>  ' + d['new'].strip()
    if (d['definition'], edit) in seen: continue
    claim, outcome, tightened = ', '.join(sorted({p.split('_')[0] for p in d['props']})), d['outcome'], []
    if d['outcome'] != 'caught':
        r = review.get(d['definition'] + ' | ' + d['new'].strip())
        if r is None: continue
        claim, outcome, tightened = r
    n += 1
    seen.add((d['definition'], edit))
    new.append({'id': f'A{n:03d}', 'definition': d['definition'], 'file': d['file'], 'edit': edit, 'claim': claim, 'outcome': outcome,
                'theorems_failed': {'directly': d['failed'], 'property_theorems': d['props']}, 'theorems_tightened': tightened})
with open(log, 'a') as f:
    for d in new: f.write(json.dumps(d, ensure_ascii=False) + '\n')
print(len(new), 'added')
