"""Generates Verif/Proofs/LR/Invert.lean: inversion of derivations, one lemma per nonterminal."""
import re
g=open('/verif/lean/Verif/Spec/Grammar.lean').read()
nts=re.findall(r'abbrev «(.*?)» : Nat := (\d+)',g)
body=g[g.index('def rules'):]
ents=re.findall(r'\(NT\.(«[^»]*»|[\w$]+), \[(.*?)\]\)',body)
rules=[(a.strip('«»'),re.sub(r'\b([nt]) (?=NT|Tok)',r'.\1 ',b)) for a,b in ents]
assert len(rules)==291,len(rules)
o=["import Verif.Spec.Tree","","/-! Generated by /verif/tools/gen_invert.py: how a nonterminal can be derived. -/","","namespace Asn1go.LR","","open Asn1go Spec","",
"/-- The rules of a nonterminal, with their numbers. -/",
"def rulesFor (k : Nat) : List (Nat × List Sym) := (rules.zipIdx 1).filterMap fun (p, i) => if p.1 = k then some (i, p.2) else none","",
"theorem mem_rulesFor {r k : Nat} {rhs : List Sym} (h1 : 1 ≤ r) (h : rules[r - 1]? = some (k, rhs)) : (r, rhs) ∈ rulesFor k := by",
"  unfold rulesFor",
"  rw [List.mem_filterMap]",
"  refine ⟨((k, rhs), r), ?_, by simp⟩",
"  rw [List.mk_mem_zipIdx_iff_le_and_getElem?_sub]",
"  exact ⟨h1, h⟩",""]
for name,k in nts:
    if name=='$accept': continue
    rs=[(i+1,b) for i,(a,b) in enumerate(rules) if a==name]
    nm=name
    o.append(f"theorem inv_{nm} {{toks : List Token}} {{t : Tree}} (h : Derives (.n NT.«{name}») toks t) :")
    o.append("    "+" ∨\n    ".join(f"(∃ kids, t = .node {i} kids ∧ DerivesList [{b}] toks kids)" for i,b in rs)+" := by")
    o.append("  cases h with")
    o.append("  | node r _ rhs _ kids h1 h2 h3 =>")
    o.append("    have hm := mem_rulesFor h1 h2")
    o.append(f"    rw [show rulesFor NT.«{name}» = [{', '.join(f'({i}, [{b}])' for i,b in rs)}] by decide +kernel] at hm")
    o.append("    simp only [List.mem_cons, Prod.mk.injEq, List.not_mem_nil, or_false] at hm")
    o.append("    rcases hm with "+" | ".join("⟨rfl, rfl⟩" for _ in rs))
    n=len(rs)
    for j in range(n):
        pre="".join("Or.inr (" for _ in range(j))
        core="⟨_, rfl, h3⟩" if j==n-1 else "Or.inl ⟨_, rfl, h3⟩"
        o.append(f"    · exact {pre}{core}{')'*j}")
    o.append("")
o+=["end Asn1go.LR",""]
open('/verif/lean/Verif/Proofs/LR/Invert.lean','w').write('\n'.join(o))
