#!/usr/bin/env python3
"""Write seeded/LOG.jsonl from the mutant lists and the records of mutate.py.

usage: mutlog.py MUTANTS.json OUT.jsonl [MUTANTS.json OUT.jsonl ...]   (from /verif)

For each attempt: the definition edited, the edit (in words and as text), the claim it is meant to
break, a text on which the edited model behaves differently, the declarations that no longer
compile, the property theorems that depend on one of these, and what was tightened because of it
(tools/tightened.json: id -> text). Edits G... are edits of a copy of the Go sources (mutate_go.py)."""
import json, os, sys

tight = json.load(open('tools/tightened.json')) if os.path.exists('tools/tightened.json') else {}
claims = json.load(open('tools/mutclaims.json')) if os.path.exists('tools/mutclaims.json') else {}
recs = []
for ml, ol in zip(sys.argv[1::2], sys.argv[2::2]):
    muts = {m['id']: m for m in json.load(open(ml))}
    for line in open(ol):
        r = json.loads(line)
        m = muts[r['id']]
        key = r['id']
        recs.append({
            'id': key, 'definition': r['definition'], 'file': '/repo/' + m['file'] if key[0] == 'G' else 'lean/Verif/' + m['file'],
            'edit': r['edit'], 'old': m['old'], 'new': m['new'],
            'claim': claims.get(key, r['claim']),
            'witness': r['witness'], 'texts_parsed_differently': r['differs_on'],
            'theorems_failed': r['failed'],
            'property_theorems_depending_on_them': r['property_theorems_lost'],
            'survived': r['survived'],
            'theorems_tightened': tight.get(key, [])})
with open('seeded/LOG.jsonl', 'w') as f:
    for r in recs:
        f.write(json.dumps(r, ensure_ascii=False) + '\n')
print(len(recs), 'attempts,', sum(r['survived'] for r in recs), 'survived')
