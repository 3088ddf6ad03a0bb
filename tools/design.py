# Writes DESIGN.md from DESIGN.in.md, claims.json and the output of `#print axioms` for the theorems in the manifest.
import json,re,subprocess
claims=json.load(open('/verif/tools/claims.json'))
props=[json.loads(l) for l in open('/verif/properties.jsonl')]
rows=['| Id | Property | | Theorems (in `Asn1go.Props`) | Remarks |','|---|---|---|---|---|']
for p in props:
    c=claims[p['id']]
    mark={'proved':'P','partial':'F'}[c['status']]
    rows.append('| %s | %s | %s | %s | %s |'%(p['id'],p['title'],mark,', '.join('`%s`'%t for t in c['theorems']),c.get('note','')))
names=sorted({t for c in claims.values() for t in c['theorems']})
open('/tmp/ax.lean','w').write('import Verif\n'+'\n'.join('#print axioms Asn1go.Props.'+n for n in names))
out=subprocess.run(['lake','env','lean','/tmp/ax.lean'],cwd='/verif/lean',capture_output=True,text=True).stdout
ax={}
for m in re.finditer(r"'(\S+)' (?:does not depend on any axioms|depends on axioms: \[([^\]]*)\])",out):
    a=tuple(sorted(x.strip() for x in (m.group(2) or '').split(',') if x.strip()))
    ax.setdefault(a,[]).append(m.group(1).split('.')[-1])
assert sum(len(v) for v in ax.values())==len(names),(len(names),out[:2000])
full=('Classical.choice','Quot.sound','propext')
assert all(set(a)<=set(full) for a in ax)
txt='Fewer axioms:'
for a in sorted(ax):
    if a!=full: txt+='\n  * %s: %s.'%(' and '.join('`%s`'%x for x in a) or 'none',', '.join('`%s`'%t for t in sorted(ax[a])))
txt+='\n  * All others use the three.'
s=open('/verif/tools/DESIGN.in.md').read().replace('@@TABLE@@','\n'.join(rows)).replace('@@AXIOMS@@',txt)
open('/verif/DESIGN.md','w').write(s)
