"""Make wrong programs by small edits of the definitions of the model and run them against the theorems.

First: cd lean && lake env lean --stdin < ../tools/deps.lean.txt > /tmp/mutwork/deps.txt
usage: automutate.py SEED COUNT OUT.jsonl [FILE ...]
Like mutate.py, but the edits are chosen at random: one comparison, connective, constant or branch is changed.  A mutant counts as caught
only if some property theorem depends on a declaration which fails; failing examples alone do not count.
"""
import json, os, random, re, subprocess, sys
sys.path.insert(0, os.path.dirname(os.path.abspath(__file__)))
from quick import outcome

SRC, BASE, MUT = '/verif/lean', '/tmp/automut/base/lean', '/tmp/automut/mut/lean'
seed, count, out = int(sys.argv[1]), int(sys.argv[2]), sys.argv[3]
files = sys.argv[4:] or sorted(f for f in os.listdir(SRC + '/Verif') if not re.search(r'Lemmas|Props|Spec|Demo', f))
rnd = random.Random(seed)
deps = {}
for l in open('/tmp/mutwork/deps.txt'):
    a, *r = l.split()
    deps[a] = set(r)
used = set().union(*deps.values())

OPS = [(r' < ', ' ≤ '), (r' ≤ ', ' < '), (r' = ', ' ≠ '), (r' ≠ ', ' = '), (r' && ', ' || '), (r' \|\| ', ' && '), (r' ∧ ', ' ∨ '), (r' ∨ ', ' ∧ '),
       (r'\btrue\b', 'false'), (r'\bfalse\b', 'true'), (r' \+ 1\b', ' + 2'), (r' - 1\b', ''), (r' \+ ', ' - '), (r' - ', ' + '), (r' \* ', ' + '),
       (r'\.isSome\b', '.isNone'), (r'\.isNone\b', '.isSome'), (r'(?<=[ (])!(?=[\w(])', ''), (r'\bnot ', ''), (r' == ', ' != '), (r' != ', ' == '),
       (r'(?<![\w.])0(?![\w.])', '1'), (r'(?<![\w.])1(?![\w.])', '0'), (r'(?<![\w.])1(?![\w.])', '2'), (r'\.reverse\b', ''), (r'\.take\b', '.drop'),
       (r'\.drop\b', '.take'), (r'\.any\b', '.all'), (r'\.all\b', '.any'), (r'\.lt\b', '.le'), (r'\.le\b', '.lt'), (r'\.nan\b', '.fin 0'),
       (r'\bif (.+?) then (.+?) else (.+)$', r'if \1 then \3 else \2'), (r'(\w+) \+\+ (\w+)', r'\2 ++ \1'), (r'\.fst\b', '.snd'), (r'\.dropLast\b', ''),
       (r'\bpure true\b', 'pure false'), (r'^(\s+)(Py\.modify fun .*)$', r'\1pure ()'), (r'\.max\b', '.min'), (r'\.min\b', '.max'), (r'\bmax ', 'min '), (r'\bmin ', 'max ')]

def decls(text):
    """[(name, first line, last line)] of definitions"""
    res, spaces, lines = [], [], text.split('\n')
    for i, l in enumerate(lines):
        m = re.match(r'namespace (\S+)', l)
        if m: spaces.append(m.group(1))
        m = re.match(r'end (\S+)', l)
        if m and spaces and spaces[-1] == m.group(1): spaces.pop()
        m = re.match(r'(?:@\[[^\]]*\] )?(?:private |noncomputable )?def (\S+)', l)
        if m:
            j = i + 1
            while j < len(lines) and (lines[j].startswith(' ') or (not lines[j].strip() and j + 1 < len(lines) and lines[j + 1].startswith(' '))): j += 1
            res.append(('.'.join(spaces + [m.group(1)]), i, j))
    return res

subprocess.run(f'rm -rf {BASE}; mkdir -p {os.path.dirname(BASE)}; cp -a {SRC} {BASE}', shell=True, check=True)
cands = []
for f in files:
    text = open(f'{BASE}/Verif/{f}').read()
    lines = text.split('\n')
    for name, i, j in decls(text):
        mine = []
        for n in range(i, j):
            l = lines[n]
            if l.strip().startswith('--') or l.strip().startswith('/-'): continue
            start = l.find(':=') + 2 if n == i and ':=' in l else (len(l) if n == i else 0)
            for pat, rep in OPS:
                for m in re.finditer(pat, l[start:]):
                    new = l[:start] + l[start:][:m.start()] + m.expand(rep) + l[start:][m.end():]
                    if new != l: mine.append((f, name, n, l, new))
        rnd.shuffle(mine)
        cands += [(k, c) for k, c in enumerate(mine)]
done = set()
if os.path.exists(out):
    done = {(d['file'], d['line'], d['new']) for d in map(json.loads, open(out))}
byrank = {}
for k, c in cands: byrank.setdefault(k, []).append(c)
order = []
for k in sorted(byrank):
    rnd.shuffle(byrank[k]); order += byrank[k]
print(len(order), 'candidates', flush=True)
n = 0
for f, name, line, old, new in order:
    if n >= count: break
    if ('lean/Verif/' + f, line + 1, new) in done: continue
    subprocess.run(f'rm -rf {MUT}; mkdir -p {os.path.dirname(MUT)}; cp -a {BASE} {MUT}', shell=True, check=True)
    p = f'{MUT}/Verif/{f}'
    lines = open(p).read().split('\n')
    lines[line] = new
    open(p, 'w').write('\n'.join(lines))
    failed, broken, props = outcome(MUT, name, deps)
    n += 1
    result = 'model does not compile' if broken else ('caught' if props else ('only lemmas' if failed else 'SURVIVED'))
    rec = dict(file='lean/Verif/' + f, definition=name, line=line + 1, old=old, new=new, outcome=result, failed=failed,
               props=[t.split('.')[-1] for t in props])
    open(out, 'a').write(json.dumps(rec, ensure_ascii=False) + '\n')
    if result in ('SURVIVED', 'only lemmas'): print(result, name, '|', old.strip(), '==>', new.strip(), failed[:3], flush=True)
