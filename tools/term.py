from lr import *
import sys
sys.setrecursionlimit(10000)
# edges
preds=defaultdict(set)
for s in items:
    for (r,d) in items[s]:
        rhs=rules[r][1]
        if d<len(rhs) and rhs[d]!='$end':
            X=rhs[d]
            s2=goto_nt(s,X) if X in NT else action(s,tokno[X])[1]
            preds[s2].add(s)
def reds(s):
    out=set()
    for t in range(1,129):
        a=action(s,t)
        if a[0]=='r': out.add(a[1])
    return out
def lab(s):
    c=T['yyChk'][s]
    return c
E=defaultdict(set);mx=0
for s in range(432):
    for r in reds(s):
        l,rhs=rules[r]
        lev={s}
        for X in reversed(rhs):
            for x in lev:
                assert lab(x)==(tokno[X] if X not in NT else -NTno[X]),(s,r,x)
            lev=set().union(*[preds[x] for x in lev])
        assert lev
        wl=0 if l in nullable else 1
        wr=sum(0 if x in nullable else 1 for x in rhs)
        assert wr>=wl
        for q in lev:
            g=goto_nt(q,l)
            assert q in preds[g],(s,r,q,g)
            if wr==wl: E[s].add(g)
vis={}
def v(s):
    if s in vis:
        assert vis[s] is not None,'cycle'
        return vis[s]
    vis[s]=None
    vis[s]=max([1+v(x) for x in E[s]],default=0)
    return vis[s]
print(max(v(s) for s in range(432)), sum(len(p) for p in preds.values()), max(len(p) for p in preds.values()))
print('nullable',nullable)
