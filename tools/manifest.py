# Writes MANIFEST.json and checks that every theorem named in it exists in Verif/Props.
import json,re,glob,collections
claims=json.load(open('/verif/tools/claims.json'))
props=[json.loads(l)['id'] for l in open('/verif/properties.jsonl')]
have=set()
for f in glob.glob('/verif/lean/Verif/**/*.lean',recursive=True):
    s=open(f).read()
    ns=[]
    for line in s.split('\n'):
        m=re.match(r'namespace (\S+)',line)
        if m: ns.append(m.group(1))
        m=re.match(r'end (\S+)',line)
        if m and ns and ns[-1]==m.group(1): ns.pop()
        m=re.match(r'(?:private )?theorem (\S+)',line)
        if m: have.add('.'.join(ns+[m.group(1)]))
out=[]
for p in props:
    if p not in claims: continue
    c=claims[p]
    th=['Asn1go.Props.'+t for t in c['theorems']]
    for t in th:
        assert t in have,(p,t)
    out.append({"property":p,"status":c['status'],"theorems":th,"note":c.get('note','')})
missing=[t for t in sorted(have) if re.match(r'Asn1go\.Props\.C\d\d_',t) and not any(t in c['theorems'] for c in out)]
print('unlisted:',missing); print('no claim:',[p for p in props if p not in claims])
json.dump({"claims":out},open('/verif/MANIFEST.json','w'),indent=1,ensure_ascii=False)
