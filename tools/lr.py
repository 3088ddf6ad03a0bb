from sim import *
from collections import defaultdict
NT={l for l,r in rules}
NTno={}
for i,(l,r) in enumerate(rules):
    if i: NTno[l]=T['yyR1'][i]
byl=defaultdict(list)
for i,(l,r) in enumerate(rules): byl[l].append(i)
# nullable, first
nullable=set();first=defaultdict(set)
ch=True
while ch:
    ch=False
    for l,r in rules:
        if l not in nullable and all(x in nullable for x in r): nullable.add(l);ch=True
        for x in r:
            new={x} if x not in NT else first[x]
            if not new<=first[l]: first[l]|=new;ch=True
            if x not in nullable: break
def firstseq(seq,la):
    out=set()
    for x in seq:
        if x not in NT: out.add(x);return out
        out|=first[x]
        if x not in nullable:return out
    return out|la
items=defaultdict(lambda: defaultdict(set)) # state -> (rule,dot)-> la
items[0][(0,0)]={'$end'}
work=[0]
def goto_nt(s,A):
    n=NTno[A]; g=T['yyPgo'][n]; j=g+s+1
    if j>=yyLast: return T['yyAct'][g]
    x=T['yyAct'][j]
    if T['yyChk'][x]!=-n: x=T['yyAct'][g]
    return x
bad=[]
while work:
    s=work.pop()
    I=items[s]
    # closure
    ch=True
    while ch:
        ch=False
        for (r,d),la in list(I.items()):
            rhs=rules[r][1]
            if d<len(rhs) and rhs[d] in NT:
                f=firstseq(rhs[d+1:],la)
                for r2 in byl[rhs[d]]:
                    if not f<=I[(r2,0)] or (r2,0) not in I:
                        I[(r2,0)]|=f;ch=True
    for (r,d),la in list(I.items()):
        rhs=rules[r][1]
        if d<len(rhs):
            X=rhs[d]
            if X in NT: s2=goto_nt(s,X)
            else:
                if X=='$end': continue
                a=action(s,tokno[X])
                if a[0]!='s': bad.append((s,X,a)); continue
                s2=a[1]
            if (r,d+1) not in items[s2] or not la<=items[s2][(r,d+1)]:
                items[s2][(r,d+1)]|=la
                if s2 not in work: work.append(s2)
if __name__=='__main__':
    print(len(items),set(bad))
    banned=defaultdict(set)
    for s in items:
        for (r,d),la in items[s].items():
            if d==len(rules[r][1]) and r:
                for t in la:
                    a=action(s,tokno[t])
                    if a!=('r',r): banned[r].add((s,t,a))
    for r in sorted(banned):
        print(r,rules[r][0],'->',' '.join(rules[r][1]))
        for s,t,a in sorted(banned[r]): print('    ',s,t,a, rules[a[1]][0]+'->'+' '.join(rules[a[1]][1]) if a[0]=='r' else '')
