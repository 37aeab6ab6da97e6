"""Rebuild seeded/LOG.jsonl from the mutation batches and results (scratch harness in /tmp/mut)."""
import json, glob, os, re, sys
D = '/tmp/mut'
T = json.load(open('/verif/tools/tightened.json'))
out = []
for b in sorted(glob.glob(D + '/b*.py'), key=lambda p: int(re.findall(r'\d+', p)[-1])):
    n = re.findall(r'b(\d+)\.py', b)[0]
    r = f'{D}/r{n}.jsonl'
    if not os.path.exists(r): continue
    res = {}
    for l in open(r):
        x = json.loads(l); res[x['id']] = x
    ns = {}; exec(open(b).read(), ns)
    for m in ns['M']:
        x = res.get(m['id'])
        if not x: continue
        t = T.get(m['id'], {})
        out.append({'id': m['id'], 'file': 'lean/Verif/' + m['file'], 'definition': m['def'],
                    'edit': m['edit'], 'old': m['old'], 'new': m['new'], 'claim_broken': m['claim'],
                    'status': x['status'].lower(),
                    'failed': [f"{f.split('/')[-2]}/{f.split('/')[-1]}:{t_}" for f, t_ in x.get('failed', [])],
                    'theorems_tightened': t.get('tightened', []), **({'note': t['note']} if 'note' in t else {})})
os.makedirs('/verif/seeded', exist_ok=True)
with open('/verif/seeded/LOG.jsonl', 'w') as f:
    for o in out: f.write(json.dumps(o, ensure_ascii=False) + '\n')
print(len(out), sum(o['status'] == 'killed' for o in out), [o['id'] for o in out if o['status'] != 'killed'])
