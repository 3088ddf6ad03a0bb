# Generates Verif/Model/Tables.lean (tables of /repo/y.go) and Verif/Spec/Grammar.lean (rules of /repo/asn1.y).
import re,sys
sys.path.insert(0,'/verif/tools')
from tabs import T,tok,rules,src
lines=src.split('\n')
def where(n):
    for i,l in enumerate(lines):
        if l.startswith('var '+n+' ='):
            j=i
            while lines[j]!='}': j+=1
            return i+1,j+1
def lit(v): return f'.l {v}' if v>=0 else f'.l ({v})'
def trie(l):
    if len(l)==1: return f'(l {l[0]})' if l[0]>=0 else f'(l ({l[0]}))'
    h=len(l)//2
    return f'(n {h} {trie(l[:h])} {trie(l[h:])})'
out=['import Verif.Model.Lexer','',
'/-! Generated by /verif/tools/gen_tables.py from /repo/y.go.  Each table is a balanced tree, for fast lookup in the',
'kernel; `Verif/Proofs/Tables.lean` shows that lookup in the tree is indexing in the list printed in y.go. -/','',
'namespace Asn1go','',
'/-- A table: `n k a b` has `k` entries in `a`, followed by those of `b`.  For y.go:341-724. -/',
'inductive Tab','  | l (v : Int)','  | n (k : Nat) (a b : Tab)','',
'/-- Entry number `i`; `none` when out of range (Go panics).  For y.go:930-1059. -/',
'def Tab.get? : Tab → Nat → Option Int',
'  | .l v, i => if i = 0 then some v else none',
'  | .n k a b, i => if i < k then a.get? i else b.get? (i - k)','',
'/-- The entries in order.  For y.go:341-724. -/',
'def Tab.toList : Tab → List Int','  | .l v => [v]','  | .n _ a b => a.toList ++ b.toList','',
'namespace Tab','']
lists=['import Verif.Model.Tables','','/-! Generated by /verif/tools/gen_tables.py: the tables of /repo/y.go as printed there. -/','','namespace Asn1go.Spec','']
for n,l in T.items():
    a,b=where(n)
    if n.startswith('yyTok'):
        pass
    s=trie(l)
    out.append(f'/-- y.go:{a}-{b} -/\ndef {n} : Tab :=')
    # wrap
    w='  ';cur=''
    for part in s.split(' '):
        if len(cur)+len(part)>110:
            out.append('  '+cur); cur=''
        cur+= (' ' if cur else '')+part
    out.append('  '+cur); out.append('')
    lists.append(f'/-- y.go:{a}-{b} -/\ndef {n} : List Int := [')
    for i in range(0,len(l),16):
        lists.append('  '+', '.join(map(str,l[i:i+16]))+(',' if i+16<len(l) else ']'))
    lists.append('')
out+=['end Tab','',
'/-- y.go:765 -/','abbrev yyFlag : Int := -1000','/-- y.go:380 -/','abbrev yyLast : Int := 912','/-- y.go:335 -/','abbrev yyErrCode : Int := 2','/-- y.go:334 -/','abbrev yyEofCode : Int := 1','/-- y.go:378 -/','abbrev yyPrivate : Int := 57344','/-- y.go:336 -/','abbrev yyInitialStackSize : Nat := 16','','end Asn1go','']
lists+=['end Asn1go.Spec','']
open('/verif/lean/Verif/Model/Tables.lean','w').write('\n'.join(out))
open('/verif/lean/Verif/Spec/Tables.lean','w').write('\n'.join(lists))
# grammar
nt={}
for i,(l,_) in enumerate(rules):
    if l in nt: assert nt[l]==T['yyR1'][i],(l,i)
    nt[l]=T['yyR1'][i]
    assert len(rules[i][1])==T['yyR2'][i] or i==0
byn={v:k for k,v in nt.items()}
ysrc=open('/repo/asn1.y').read().split('\n')
o=['import Verif.Model.Tokens','',
'/-! Generated by /verif/tools/gen_tables.py: the context-free grammar of /repo/asn1.y (lines 334-1055), rules in',
'file order.  Rule number `i` of the file is entry `i - 1`. -/','','namespace Asn1go.Spec','',
'/-- A grammar symbol: a token (by the code the lexer returns) or a nonterminal. -/',
'inductive Sym','  | t (code : Int)','  | n (nt : Nat)','  deriving DecidableEq, Repr','',
'/-- The nonterminals, numbered as goyacc does: `%type` declarations first (see yyR1, y.go). -/',
'def nonterminals : List String := [']
names=[byn[k] for k in sorted(byn)]
o+=['  '+', '.join(f'"{x}"' for x in names[i:i+6])+(',' if i+6<len(names) else ']') for i in range(0,len(names),6)]
o+=['','namespace NT']
def ln(x): return '«'+x+'»' 
for k in sorted(byn):
    o.append(f'abbrev {ln(byn[k])} : Nat := {k}')
o+=['end NT','','open Sym Tok NT in','/-- asn1.y:334-1055 -/','def rules : List (Nat × List Sym) := [']
rs=[]
for i,(l,r) in enumerate(rules):
    if i==0: continue
    e=[]
    for x in r:
        if x in nt: e.append('n NT.'+ln(x))
        else:
            e.append('t Tok.'+x)
    rs.append((f'  (NT.{ln(l)}, ['+', '.join(e)+'])',i))
for j,(x,i) in enumerate(rs):
    o.append(x+(',' if j+1<len(rs) else ']')+f' -- {i}')
o+=['','end Asn1go.Spec','']
open('/verif/lean/Verif/Spec/Grammar.lean','w').write('\n'.join(o))
