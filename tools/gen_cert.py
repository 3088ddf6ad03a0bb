# Generates Verif/Proofs/LR/Cert.lean: predecessor lists, reduction ranks.
import sys
sys.path.insert(0,'/verif/tools')
from term import *
def trie(l,f):
    if len(l)==1: return f'(l {f(l[0])})'
    h=len(l)//2
    return f'(n {h} {trie(l[:h],f)} {trie(l[h:],f)})'
def wrap(s):
    out=[];cur=''
    for part in s.split(' '):
        if len(cur)+len(part)>110: out.append('  '+cur); cur=''
        cur+=(' ' if cur else '')+part
    out.append('  '+cur)
    return '\n'.join(out)
P=[sorted(preds[s]) for s in range(432)]
V=[v(s) for s in range(432)]
out=f'''/-! Generated by /verif/tools/gen_cert.py: certificates about the tables of /repo/y.go.  Nothing here is trusted, all
uses are checked in `Check.lean`. -/

namespace Asn1go.LR

/-- Balanced lookup tree. -/
inductive Tri (α : Type)
  | l (v : α)
  | n (k : Nat) (a b : Tri α)

/-- Lookup. -/
def Tri.get {{α : Type}} : Tri α → Nat → α
  | .l v, _ => v
  | .n k a b, i => if i < k then a.get i else b.get (i - k)

open Tri

/-- States from which a state can be entered. -/
def predsT : Tri (List Nat) :=
{wrap(trie(P,lambda x:'['+','.join(map(str,x))+']'))}

/-- Bound on the number of reductions that follow without a shift and without shortening the stack. -/
def rankT : Tri Nat :=
{wrap(trie(V,str))}

/-- Nonterminals that derive the empty word. -/
def nullableNT : List Nat := {sorted(NTno[x] for x in nullable)}

end Asn1go.LR
'''
open('/verif/lean/Verif/Proofs/LR/Cert.lean','w').write(out)
