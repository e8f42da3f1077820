"""Run wrong programs against the theorems.

First: cd lean && lake env lean --stdin < ../tools/deps.lean.txt > /tmp/mutwork/deps.txt
usage: mutate.py MUTANTS.py   where MUTANTS.py defines MUTANTS = [(id, file, old, new, claim), ...]
Each mutant is applied to a scratch copy of /verif/lean, which is rebuilt until a declaration fails on which some property theorem
depends.  One JSON line per mutant goes to /verif/seeded/LOG.jsonl.
"""
import json, os, subprocess, sys
sys.path.insert(0, os.path.dirname(os.path.abspath(__file__)))
from quick import decl_at, outcome

WORK = os.environ.get('MUTDIR', '/tmp/mutdir')
SRC, BASE, MUT = '/verif/lean', WORK + '/base/lean', WORK + '/mut/lean'
LOG = '/verif/seeded/LOG.jsonl'
ns = {}
exec(open(sys.argv[1]).read(), ns)
only = set(sys.argv[2:])

deps = {}
for l in open('/tmp/mutwork/deps.txt'):
    a, *r = l.split()
    deps[a] = set(r)

def sync():
    subprocess.run(f'rm -rf {MUT}; mkdir -p {os.path.dirname(MUT)}; cp -a {BASE} {MUT}', shell=True, check=True)

# one copy for all mutants, so that /verif/lean can be edited meanwhile
subprocess.run(f'rm -rf {BASE}; mkdir -p {os.path.dirname(BASE)}; cp -a {SRC} {BASE}', shell=True, check=True)

for mid, f, old, new, claim in ns['MUTANTS']:
    if only and mid not in only: continue
    sync()
    p = f'{MUT}/Verif/{f}'
    s = open(p).read()
    if s.count(old) != 1:
        print(mid, 'BAD PATTERN', s.count(old)); continue
    lineno = s[:s.index(old)].count('\n') + 1
    open(p, 'w').write(s.replace(old, new))
    defn = decl_at(s.split('\n'), lineno)
    failed, model_broken, props = outcome(MUT, defn, deps)
    rec = dict(id=mid, definition=defn, file='lean/Verif/' + f, edit=f'{old}  ==>  {new}', claim=claim,
               outcome='model does not compile' if model_broken else ('caught' if props else 'SURVIVED'),
               theorems_failed=dict(directly=failed, property_theorems=[p.split('.')[-1] for p in props]), theorems_tightened=[])
    print(mid, rec['outcome'], failed[:4], len(props), flush=True)
    if not model_broken:
        os.makedirs(os.path.dirname(LOG), exist_ok=True)
        open(LOG, 'a').write(json.dumps(rec, ensure_ascii=False) + '\n')
