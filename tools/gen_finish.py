"""Writes Proofs/LR/FinishCert.lean: for every state of the parser how to go on to an accepted text."""
import io,contextlib,sys
sys.path.insert(0,'/verif/tools')
with contextlib.redirect_stdout(io.StringIO()):
    from term import *
from gen_cert_util import trie,wrap
lx=open('/repo/lexer.go').read()
emit=set(words.values())|set(re.findall(r'return ([A-Z_]+)\b',lx))
emit.discard('EXPONENT')
S=range(432)
# short words of the nonterminals
K=6
Y={n:set() for n in NT}
key=lambda z:(len(z),z)
def seqyield(seq):
    outs={()}
    for x in seq:
        if x not in NT and x not in emit: return set()
        ys=[(tokno[x],)] if x not in NT else Y[x]
        outs=set(sorted({o+y for o in outs for y in ys},key=key)[:K])
    return outs
ch=True
while ch:
    ch=False
    for l,r in rules[1:]:
        new=set(sorted(seqyield(r)|Y[l],key=key)[:K])
        if new!=Y[l]: Y[l]=new;ch=True
def walkb(s,k):
    B={s}
    for _ in range(k): B=set().union(*[preds[x] for x in B]) if B else set()
    return B
def sim(s,w,la):
    """the reduction that pops `s`, after reading `w` with `la` ahead, and how far below it pops"""
    st=[s];i=0
    for _ in range(40):
        t=w[i] if i<len(w) else la
        a=action(st[-1],t)
        if a[0]=='s':
            if i>=len(w): return None
            st.append(a[1]);i+=1
        elif a[0]=='r':
            n=len(rules[a[1]][1])
            if n>=len(st): return None if i<len(w) else (a[1],n-len(st)+1)
            if n: del st[-n:]
            st.append(goto(st[-1],a[1]))
        else: return None
choice={}
for s in S:
    if s<2: continue
    cand=[]
    for (r,d) in items[s]:
        if d==0: continue
        for w in sorted(seqyield(rules[r][1][d:]),key=key):
            for t in range(1,129):
                x=sim(s,w,t)
                if x and x[1]>=1: cand.append((len(w),-x[1],w,x[0]))
    l,k,w,r=min(cand,key=lambda c:c[:2])
    choice[s]=(r,-k,w)
LA={s:set() for s in S};LA[1]={1}
ch=True
while ch:
    ch=False
    for s in choice:
        r,k,w=choice[s]
        new={w[0]} if w else set().union(*[LA[goto(b,r)] for b in walkb(s,k)])
        if not new<=LA[s]: LA[s]|=new;ch=True
rank={1:0}
ch=True
while ch:
    ch=False
    for s in choice:
        if s in rank: continue
        r,k,w=choice[s]
        if k>=2: rank[s]=0;ch=True
        else:
            gs=[goto(b,r) for b in walkb(s,k)]
            if all(g in rank for g in gs): rank[s]=1+max(rank[g] for g in gs);ch=True
for s in choice:
    r,k,w=choice[s]
    L=set().union(*[LA[goto(b,r)] for b in walkb(s,k)])
    assert L and all(sim(s,w,t)==(r,k) for t in L),s
assert max(rank.values())<32
choice[0]=choice[1]=(0,0,());rank[0]=0
f=lambda s:'(%d, %d, [%s], %d, %d)'%(choice[s][0],choice[s][1],', '.join(map(str,choice[s][2])),sum(1<<t for t in LA[s]),rank[s])
o='''import Verif.Proofs.LR.Cert

/-! Generated by /verif/tools/gen_finish.py.  Nothing here is trusted, all uses are checked in `Finish.lean`. -/

namespace Asn1go.LR

open Tri

/-- How to go on in a state: tokens to read (by number), the rule then reduced and how many symbols of it stand on the
stack up to the state; the tokens (as a mask) with which going on can begin; a rank. -/
def finishT : Tri (Nat × Nat × List Nat × Nat × Nat) :=
'''+wrap(trie(list(S),f))+'''

end Asn1go.LR
'''
open('/verif/lean/Verif/Proofs/LR/FinishCert.lean','w').write(o)
