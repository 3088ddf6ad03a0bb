"""Generates Verif/Proofs/Notation/Splits1.lean: how a preferred derivation from a nonterminal looks, one lemma per nonterminal."""
import re
g=open('/verif/lean/Verif/Spec/Grammar.lean').read()
nts=re.findall(r'abbrev «(.*?)» : Nat := (\d+)',g)
body=g[g.index('def rules'):]
ents=re.findall(r'\(NT\.(«[^»]*»|[\w$]+), \[(.*?)\]\)',body)
rules=[(a.strip('«»'),[x.strip() for x in b.split(',') if x.strip()]) for a,b in ents]
assert len(rules)==291
def lean_sym(x):
    x=x.strip().lstrip('.')
    return '.'+x
def place(r,i):
    if r==187 and i==1: return '.oidList'
    if r==190: return f'(Place.child 190 p {i})'
    if r==192: return '.numberForm'
    if r==131 and i==1: return '.exception'
    return '.other'
carr={'Tok.TYPEORMODULEREFERENCE':('upper','Upper',1),'Tok.VALUEIDENTIFIER':('lower','Lower',1),'Tok.NUMBER':('num','Num',2)}
never={45,113,191}
o=["import Verif.Proofs.Notation.Splits","","/-! Generated by /verif/tools/gen_splits.py: what preferred derivations from a nonterminal look like. -/","",
"namespace Asn1go.Notation","","open Asn1go Spec LR Spec.Notation","","variable {R D : Type} {L : Links R D} {simple : Bool} {n : Nat} {toks : List Token} {p : Place} {next : Int} {s : SymType R D}",""]
for name,k in nts:
    if name=='$accept': continue
    rs=[(i+1,[lean_sym(x) for x in b]) for i,(a,b) in enumerate(rules) if a==name]
    full=', '.join(f"({i}, [{', '.join(b)}])" for i,b in rs)
    alts=[];prf=[]
    live=[(i,b) for i,b in rs if i not in never]
    for i,b in rs:
        kinds=[]
        vs=[]
        for j,x in enumerate(b):
            if x.startswith('.t '):
                c=x[3:]
                if c in carr:
                    fn,nm,ar=carr[c]
                    v=[f"w{j}"] if ar==1 else [f"w{j}",f"m{j}"]
                    kinds.append(('c',fn,v,nm))
                    vs+= [f"({v[0]} : Str)"]+([f"({v[1]} : Nat)"] if ar==2 else [])
                else: kinds.append(('k',c))
            else:
                kinds.append(('n',x[3:]))
                vs+=[f"(a{j} : List Token)",f"(s{j} : SymType R D)"]
        def toks_from(j):
            if j==len(b): return '[]'
            kd=kinds[j]
            if kd[0]=='n':
                return f"a{j}" if j==len(b)-1 else f"(a{j} ++ {toks_from(j+1)})"
            t=f"kw {kd[1]}" if kd[0]=='k' else f"{kd[1]} {' '.join(kd[2])}"
            rest=toks_from(j+1)
            if rest.startswith('['): 
                return f"[{t}]" if rest=='[]' else f"[{t}, {rest[1:]}"
            return f"({t} :: {rest})"
        conj=[f"Allowed {i} p next"]
        if i in (152,188): conj.append("simple = false")
        conj.append(f"toks = {toks_from(0)}")
        vals=[]
        for j,kd in enumerate(kinds):
            if kd[0]=='k': vals.append("leafValue .none")
            elif kd[0]=='c': vals.append(f"leafValue (.name w{j})" if len(kd[2])==1 else f"leafValue (.number w{j} m{j})")
            else:
                vals.append(f"s{j}")
                nx="next" if j==len(b)-1 else f"(firstCode next {toks_from(j+1)})"
                conj.append(f"Rs L simple n {'(.n '+kd[1]+')'} a{j} {place(i,j)} {nx} s{j}")
        conj.append(f"s = act L {i} [{', '.join(vals)}]")
        alts.append("("+(f"∃ {' '.join(vs)}, " if vs else "")+" ∧ ".join(conj)+")")
        pr=[]
        if i in never:
            pr.append("exact absurd ha.1 (by decide)"); prf.append((i,pr)); continue
        for j,kd in enumerate(kinds):
            last=j==len(b)-1
            g=f"g{j-1}" if j else "h"
            if last: pr.append(f"obtain ⟨s{j}, rfl, h{j}⟩ := {g}.last")
            else: pr.append(f"obtain ⟨a{j}, b{j}, s{j}, ss{j}, rfl, rfl, h{j}, g{j}⟩ := {g}.cons")
            if kd[0]=='k': pr.append(f"obtain ⟨rfl, rfl⟩ := h{j}.isKw")
            elif kd[0]=='c': pr.append(f"obtain ⟨{', '.join(kd[2])}, rfl, rfl⟩ := h{j}.is{kd[3]}")
        if not b: pr.append("obtain ⟨rfl, rfl⟩ := h.nil")
        ws=[]
        for j,kd in enumerate(kinds):
            if kd[0]=='c': ws+=kd[2]
            elif kd[0]=='n': ws+=[f"a{j}",f"s{j}"]
        parts=[(w if w[0]=='a' and int(w[1:])<len(b)-1 else "_") for w in ws]+["ha"]+(["by simpa using hs"] if i in (152,188) else [])+["rfl"]+[f"h{j}" for j,kd in enumerate(kinds) if kd[0]=='n']+["rfl"]
        pos=[x for x,_ in live].index(i); nl=len(live)
        core="⟨"+", ".join(parts)+"⟩"
        if pos<nl-1: core="Or.inl "+core
        pr.append("exact "+"Or.inr ("*pos+core+")"*pos)
        prf.append((i,pr))
    alts=[a for a,(i,b) in zip(alts,rs) if i not in never]
    o.append(f"theorem split_{name} (h : Rs L simple (n + 1) (.n NT.«{name}») toks p next s) :")
    o.append("    "+" ∨\n    ".join(alts)+" := by")
    o.append("  obtain ⟨r, rhs, ss, hm, ha, hs, h, rfl⟩ := h.split")
    o.append(f"  rw [show rulesFor NT.«{name}» = [{full}] by decide +kernel] at hm")
    o.append("  simp only [List.mem_cons, Prod.mk.injEq, List.not_mem_nil, or_false] at hm")
    o.append("  rcases hm with "+" | ".join("⟨rfl, rfl⟩" for _ in rs))
    for i,pr in prf:
        o.append("  · "+pr[0])
        o+=["    "+x for x in pr[1:]]
    o.append("")
o+=["end Asn1go.Notation",""]
open('/verif/lean/Verif/Proofs/Notation/Splits1.lean','w').write('\n'.join(o))
