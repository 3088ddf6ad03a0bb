"""Writes Proofs/LR/Items.lean: LR items with lookahead sets for every state, as certificate for completeness."""
from lrc import *
import textwrap
P=['o','l','h','f','x']
def tri(vals,f):
    def go(a):
        if len(a)==1: return '(l '+f(a[0])+')'
        k=len(a)//2
        return '(n %d %s %s)'%(k,go(a[:k]),go(a[k:]))
    return go(vals)
def mask(la): return sum(1<<tokno[t] for t in la)
def wrap(s): return '\n'.join(textwrap.wrap(s,118,initial_indent='  ',subsequent_indent='  ',break_long_words=False,break_on_hyphens=False))
nNT=max(NTno.values())+1
inv={v:k for k,v in NTno.items()}
def fst(i):
    A=inv.get(i)
    if A is None: return '0'
    return str(sum(1<<tokno[t] for t in first[A])+(1 if A in nullable else 0))
def its(s):
    out=[]
    for (r,c,d),la in sorted(items[s].items()) if s in items else []:
        if la: out.append('.mk %d %s %d %d'%(r,P[c],d,mask(la)))
    return '['+', '.join(out)+']'
o='''import Verif.Proofs.LR.Cert
import Verif.Spec.Preferred

/-! Generated by /verif/tools/gen_items.py: for every state the items (rule, place, dot) it stands for and the tokens
that may follow, as bit masks.  Nothing here is trusted, all uses are checked in `Complete.lean`. -/

namespace Asn1go.LR

open Tri Spec

/-- An item: a rule, the place of its node, how many symbols were read, and the tokens that may follow the node. -/
structure Item where
  rule : Nat
  place : Place
  dot : Nat
  mask : Nat

/-- Rules of a nonterminal. -/
def rulesOfT : Tri (List Nat) :=
'''
o+=wrap(tri(list(range(nNT)),lambda i:'['+','.join(map(str,byl.get(inv.get(i),[])))+']'))
o+='\n\n/-- Tokens a nonterminal can start with; bit 0 is set when it can be empty. -/\ndef firstT : Tri Nat :=\n'
o+=wrap(tri(list(range(nNT)),fst))
o+='\n\nlocal notation "o" => Place.other\nlocal notation "l0" => Place.oidList\n'
o=o.replace('local notation "o" => Place.other\nlocal notation "l0" => Place.oidList\n','private abbrev o := Place.other\nprivate abbrev ol := Place.oidList\nprivate abbrev oh := Place.oidHead\nprivate abbrev nf := Place.numberForm\nprivate abbrev ex := Place.exception\n')
P[:]=['o','ol','oh','nf','ex']
o+='\n/-- Items of the states. -/\ndef itemsT : Tri (List Item) :=\n'
o+=wrap(tri(list(range(432)),its))
o+='\n\nend Asn1go.LR\n'
open('/verif/lean/Verif/Proofs/LR/Items.lean','w').write(o)
