from sim import *
from collections import defaultdict
NT={l for l,r in rules}
NTno={}
for i,(l,r) in enumerate(rules):
    if i: NTno[l]=T['yyR1'][i]
byl=defaultdict(list)
for i,(l,r) in enumerate(rules):
    if i: byl[l].append(i)
never={45,113,191}
OR=['OPEN_ROUND']
notBefore={40:['TYPEORMODULEREFERENCE','VALUEIDENTIFIER'],102:['COMMA'],139:['COMMA'],140:['COMMA'],166:['COMMA'],167:['COMMA']}
for r in [77,157,174,175,176,184,219,220,221,222]: notBefore[r]=OR
def ctxOf(r,c,i):
    if r==187 and i==1: return 1
    if r==190 and c==1 and i==0: return 2
    if r==192: return 3
    if r==131 and i==1: return 4
    return 0
def ban(r,c,t):
    return r in never or (r,c) in {(196,3),(288,4),(194,2)} or t in notBefore.get(r,())
nullable=set();first=defaultdict(set)
ch=True
while ch:
    ch=False
    for k,(l,r) in enumerate(rules):
        if k in never: continue
        if l not in nullable and all(x in nullable for x in r): nullable.add(l);ch=True
        for x in r:
            new={x} if x not in NT else first[x]
            if not new<=first[l]: first[l]|=new;ch=True
            if x not in nullable: break
def firstseq(seq,la):
    out=set()
    for x in seq:
        if x not in NT: out.add(x);return out
        out|=first[x]
        if x not in nullable:return out
    return out|la
items=defaultdict(lambda: defaultdict(set))
items[0][(1,0,0)]={'$end'}
work=[0]
bad=set()
def goto_nt(s,A):
    n=NTno[A]; g=T['yyPgo'][n]; j=g+s+1
    if j>=yyLast: return T['yyAct'][g]
    x=T['yyAct'][j]
    if T['yyChk'][x]!=-n: x=T['yyAct'][g]
    return x
while work:
    s=work.pop()
    I=items[s]
    ch=True
    while ch:
        ch=False
        for (r,c,d),la in list(I.items()):
            rhs=rules[r][1]
            if d<len(rhs) and rhs[d] in NT:
                f=firstseq(rhs[d+1:],la)
                c2=ctxOf(r,c,d)
                for r2 in byl[rhs[d]]:
                    f2={t for t in f if not ban(r2,c2,t)}
                    if f2 and not f2<=I[(r2,c2,0)]:
                        I[(r2,c2,0)]|=f2;ch=True
    for (r,c,d),la in list(I.items()):
        rhs=rules[r][1]
        if d<len(rhs):
            X=rhs[d]
            if X in NT: s2=goto_nt(s,X)
            else:
                a=action(s,tokno[X])
                if a[0]!='s': bad.add((s,X,a)); continue
                s2=a[1]
            if (r,c,d+1) not in items[s2] or not la<=items[s2][(r,c,d+1)]:
                items[s2][(r,c,d+1)]|=la
                if s2 not in work: work.append(s2)
if __name__=='__main__':
    print(len(items),bad)
    for s in items:
        for (r,c,d),la in items[s].items():
            if d==len(rules[r][1]) and r:
                for t in la:
                    a=action(s,tokno[t])
                    if a!=('r',r): print(s,(r,c,d),t,a)
    print(sum(len(items[s]) for s in items), sum(len(la) for s in items for la in items[s].values()))
    print(len({frozenset(la) for s in items for la in items[s].values()}))
    used={r for s in items for (r,c,d) in items[s]}
    print(sorted(set(range(1,292))-used))
    print(sorted(set(range(432))-set(items)))
    done={r for s in items for (r,c,d) in items[s] if d==len(rules[r][1])}
    print(sorted(set(range(1,292))-done))
