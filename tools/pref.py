from lrc import *
from term import preds
symof=T['yyChk']
def symi(x): return tokno[x] if x not in NT else -NTno[x]
def walk(rev,S):
    for X in rev:
        assert all(symof[s]==symi(X) for s in S)
        S={p for s in S for p in preds[s]}
    return S
ALL=set(range(1,129))
reach=defaultdict(set); reach[0]=set(ALL)
acts={(s,t):action(s,t) for s in range(432) for t in range(1,129)}
WB={}
def wb(r,s):
    if (r,s) not in WB: WB[(r,s)]=walk(rules[r][1][::-1],{s})
    return WB[(r,s)]
ch=True
while ch:
    ch=False
    for s in range(432):
        for t in list(reach[s]):
            a=acts[(s,t)]
            if a[0]=='s':
                if len(reach[a[1]])<128: reach[a[1]]=set(ALL); ch=True
            elif a[0]=='r':
                for b in wb(a[1],s):
                    g=goto(b,a[1])
                    if t not in reach[g]: reach[g].add(t); ch=True
print({s:(len(reach[s]),[tok[t] for t in reach[s]] if len(reach[s])<5 else '') for s in range(432) if len(reach[s])<128})
may=defaultdict(set)
CL={194:1,196:2,288:3}
F={tokno[t] for t in first['ObjIdComponentsList']}
ch=True
while ch:
    n=sum(map(len,may.values()))
    for (s,t),a in acts.items():
        if a[0]!='r' or t not in reach[s]: continue
        r=a[1]
        if r in CL:
            for b in wb(r,s): may[(b,goto(b,r),CL[r])].add(t)
        elif r==190:
            for x in preds[s]:
                for b in preds[x]:
                    if may.get((b,x,1),set())&F: may[(b,goto(b,r),4)].add(t)
    ch=n!=sum(map(len,may.values()))
bad=set()
for (s,t),a in acts.items():
    if a[0]!='r' or t not in reach[s]: continue
    r=a[1]
    if r in never: bad.add(('never',s,tok[t],r))
    if tok[t] in notBefore.get(r,()): bad.add(('nb',s,tok[t],r))
    if r==192:
        for b in preds[s]:
            if t in may.get((b,s,2),()): bad.add(('192',s,t))
    if r==131:
        for b in preds[s]:
            if t in may.get((b,s,3),()): bad.add(('131',s,t))
    if r==187:
        for x in preds[s]:
          for y in preds[x]:
            if may.get((y,x,4)): bad.add(('187',s,x))
if __name__=='__main__':
    print(bad)
    print({k:len(v) for k,v in may.items()},[tok[t] for t in ALL-may[(165,248,1)]])
