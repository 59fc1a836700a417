# generator for MANIFEST.json ; CLAIMS: list of (prop,status,[theorems],note)
import json,re,glob
exec(open('/verif/tools/claims.py').read())
thms=set()
for f in glob.glob('/verif/lean/Verif/**/*.lean',recursive=True):
    t=open(f).read()
    ns=[]
    for line in t.split('\n'):
        m=re.match(r'namespace\s+(\S+)',line)
        if m: ns.append(m.group(1))
        m=re.match(r'end\s+(\S+)',line)
        if m and ns and ns[-1]==m.group(1): ns.pop()
        m=re.match(r'(?:private\s+)?theorem\s+(\S+)',line)
        if m: thms.add('.'.join(ns+[m.group(1)]))
props=[json.loads(l)['id'] for l in open('/verif/properties.jsonl')]
out=[]
for p,st,ths,note in CLAIMS:
    assert p in props,p
    full=[]
    for t in ths:
        n='Sigstore.Props.'+t
        assert n in thms, n
        full.append(n)
    out.append(dict(property=p,status=st,theorems=full,note=note))
done={c[0] for c in CLAIMS}
print('missing:',[p for p in props if p not in done])
# property theorems not referenced
ref={t for c in out for t in c['theorems']}
print('unreferenced:',[t for t in sorted(thms) if re.match(r'Sigstore\.Props\.C\d\d',t) and t not in ref])
json.dump(dict(claims=out),open('/verif/MANIFEST.json','w'),indent=1)
