"""Appends one line per finished mutant (/tmp/mut/<ID>.json) to seeded/LOG.jsonl; comments and tightened theorems from seeded/comments.json."""
import json, os
V = '/verif'
M = json.load(open(V + '/seeded/mutants.json'))
C = json.load(open(V + '/seeded/comments.json')) if os.path.exists(V + '/seeded/comments.json') else {}
L = V + '/seeded/LOG.jsonl'
done = {json.loads(l)['id'] for l in open(L) if l.strip()} if os.path.exists(L) else set()
with open(L, 'a') as f:
    for m in M:
        r = '/tmp/mut/%s.json' % m['id']
        if m['id'] in done or not os.path.exists(r): continue
        r = json.load(open(r)); c = C.get(m['id'], {})
        if any(b.startswith('module') and 'Props/Cases' not in b for b in r['broken']): print(m['id'], 'does not compile, says nothing about the theorems:', r['log'][:3]); continue
        bad = [e for e in m['expect'] if not any(d.startswith(e + '_') for d in r['dead'])]
        if bad and 'comment' not in c: print(m['id'], 'expected but alive:', bad); continue
        f.write(json.dumps(dict(id=m['id'], definition=m['definition'], edit=m['edit'], claim=m['claim'], expected=m['expect'],
            broken_proofs=r['broken'], failed=r['dead'], tightened=c.get('tightened', []), comment=c.get('comment', ''))) + '\n')
