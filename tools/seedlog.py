"""Convert the results of the mutation runs (scratch directory, outside /verif) to seeded/LOG.jsonl.
failed_theorems: manifest theorems that no longer check in the edited copy (their proof, or one they rest on, fails);
first_errors: the declarations whose own proof was rejected."""
import json, sys
src = sys.argv[1] if len(sys.argv) > 1 else '/tmp/mut/results.jsonl'
tight = {}
try: tight = json.load(open('/verif/seeded/tightened.json'))
except FileNotFoundError: pass
with open('/verif/seeded/LOG.jsonl', 'w') as out:
    for l in open(src):
        r = json.loads(l)
        skip = set(r.get('absent', []))
        out.write(json.dumps({
            'id': r['id'], 'definition': r['definition'], 'edit': r['edit'], 'claim_broken': r['breaks'],
            'why': r.get('why', ''), 'missed': r['missed'],
            'theorems_failed': [t for t in r['failed_theorems'] if t not in skip],
            'first_errors': r['errors'], 'theorems_tightened': tight.get(r['id'], [])}) + '\n')
