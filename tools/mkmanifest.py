import re,glob,json,os
props=[json.loads(l) for l in open('/verif/properties.jsonl')]
thms={}
order=[]
for f in sorted(glob.glob('/verif/lean/Verif/*Props*.lean')):
    ns=[]
    for line in open(f):
        m=re.match(r'namespace (\S+)',line)
        if m: ns.append(m.group(1))
        m=re.match(r'end (\S+)',line)
        if m and ns and ns[-1]==m.group(1): ns.pop()
        m=re.match(r'theorem (\S+)',line)
        if m:
            n=m.group(1); full='.'.join(ns+[n])
            mm=re.match(r'(C\d\d)',n)
            if mm: thms.setdefault(mm.group(1),[]).append(full)
notes={}
if os.path.exists('/verif/notes.json'): pass
exec(open('/verif/tools/notes.py').read())
claims=[]
for p in props:
    i=p['id']
    if i in thms:
        st=STATUS.get(i)
        if st is None:
            st='partial' if any(('_partial' in t or t.endswith('_false')) for t in thms[i]) else 'proved'
        claims.append(dict(property=i,status=st,theorems=thms[i],note=NOTES.get(i,'')))
json.dump({"claims":claims},open('/verif/MANIFEST.json','w'),indent=1)
print(len(claims),{c['property']:(c['status'],len(c['theorems'])) for c in claims})
