import re,sys
sys.path.insert(0,'/verif/tools')
from tabs import T,tok,tokno,rules
src=open('/repo/asn1.y').read()
typ={}
for m in re.finditer(r'%(?:type|token)\s*<(\w+)>\s*(.*)',src):
    for x in m.group(2).split('//')[0].split(): typ[x]=m.group(1)
nt={l:T['yyR1'][i] for i,(l,_) in enumerate(rules)}
for i,(l,r) in enumerate(rules):
    for x in [l]+r:
        if x in nt and x not in typ: typ[x]=None
print({x for x in typ if typ[x] is None})
def lc(s):
    s={'Class':'cls'}.get(s,s)
    return s[0].lower()+s[1:]
fields=sorted({lc(v) for v in typ.values() if v})
acts={}
for m in re.finditer(r'^  \| (\d+) => \{ v with (\w+) :=\s+(.*?) \}\n(?=  \|)',open('/verif/lean/Verif/Model/Actions.lean').read(),re.S|re.M):
    acts[int(m.group(1))]=(m.group(2),m.group(3))
print(len(acts))
bad=0
for i,(l,r) in enumerate(rules):
    if i==0: continue
    tl=typ[l]
    if i in acts:
        f,e=acts[i]
        if tl is None or lc(tl)!=f: print('assign mismatch',i,l,tl,f); bad+=1
        for m in re.finditer(r'\(d (\d)\)\.(\w+)',e):
            k=int(m.group(1)); X=r[k-1]; t=typ.get(X)
            if t is None or lc(t)!=m.group(2): print('read mismatch',i,l,k,X,t,m.group(2)); bad+=1
    else:
        if tl is not None:
            if not r or typ.get(r[0])!=tl: print('default mismatch',i,l,tl,r); bad+=1

assert bad==0
L='Ty.map, NamedType.map, ComponentType.map, Constraint.map, ConstraintSpec.map, IntersectionElements.map, Elements.map, Value.map, Tag.map, NamedBit.map, RangeEndpoint.map, GlobalModuleReference.map, SymbolsFromModule.map, Assignment.map, ModuleBody.map, ComponentTypeLists.map, ObjectIdElement.map, Ty.mapList_eq, NamedType.mapList_eq, ComponentType.mapList_eq, Elements.mapList_eq, IntersectionElements.mapList_eq, IntersectionElements.mapListList_eq, singleElementConstraint_map, List.map_append, List.map_cons, List.map_nil, Option.map_some, Option.map_none'
fields=[f for f in fields if f not in('bstring','hstring','cstring')]
ident=set('name number real tagDefault extensionDefault moduleIdentifier definitiveObjIdComponent definitiveObjIdComponentList definitiveIdentifier definedValue valueReference typeReference cls symbolList symbol namedNumberList namedNumber enumeratedType enumeration enumerationItem'.split())
maps={
'type':'{}.map f g','objectIdElement':'{}.map f','objectIdentifierValue':'{}.map (ObjectIdElement.map f)','value':'{}.map f',
'assignment':'{}.map f g','assignmentList':'{}.map (Assignment.map f g)','moduleBody':'{}.map f g','constraint':'{}.map f g','constraintSpec':'{}.map f g',
'elementSetSpec':'{}.map f g','unions':'IntersectionElements.mapListList f g {}','intersections':'IntersectionElements.mapList f g {}','intersectionElements':'{}.map f g',
'exclusions':'{}.map f g','elements':'{}.map f g','subtypeConstraint':'Elements.mapList f g {}','rangeEndpoint':'{}.map f','namedType':'{}.map f g','componentType':'{}.map f g',
'componentTypeLists':'{}.map f g','componentTypeList':'ComponentType.mapList f g {}','tag':'{}.map f','namedBitList':'{}.map (NamedBit.map f)','namedBit':'{}.map f',
'imports':'{}.map (SymbolsFromModule.map f)','symbolsFromModule':'{}.map f','globalModuleReference':'{}.map f','alternativeTypeList':'NamedType.mapList f g {}',
'choiceType':'(NamedType.mapList f g {0}.1, Ty.mapList f g {0}.2)','extensionAdditionAlternative':'{}.map f g','extensionAdditionAlternativesList':'Ty.mapList f g {}','extensionAdditions':'ComponentType.mapList f g {}'}
def mp(f,x): return x if f in ident else maps[f].format(x)
o=["import Verif.Model.Actions","import Verif.Spec.Grammar","import Verif.Proofs.LR.MapLemmas","",
"/-! Generated by /verif/tools/gen_agree.py.  Each grammar symbol has one field of `yySymType` that carries its value",
"(the `%type` declarations of /repo/asn1.y:73-330).  The actions only read these fields of their right-hand side, so they",
"respect agreement on them. -/","","namespace Asn1go.LR","","open Asn1go Spec","","set_option linter.unusedSimpArgs false","set_option linter.unusedVariables false","",
"/-- The fields that carry values. -/","inductive Fld","  | none"]+[f"  | {f}" for f in fields]+["  deriving DecidableEq",""]
o+=["/-- asn1.y:73-330: field of a nonterminal. -/","def ntField : List (Nat × Fld) := ["]
ent=[f"({nt[x]}, .{lc(t)})" for x,t in sorted(typ.items(),key=lambda z:nt.get(z[0],0)) if x in nt and t]
o+=['  '+', '.join(ent[i:i+5])+(',' if i+5<len(ent) else ']') for i in range(0,len(ent),5)]
o+=["","/-- asn1.y:73-330: field of a symbol. -/","def fieldOf : Sym → Fld","  | .t c => if c = Tok.TYPEORMODULEREFERENCE ∨ c = Tok.VALUEIDENTIFIER then .name else if c = Tok.NUMBER then .number else .none",
"  | .n k => (ntField.lookup k).getD .none","",
"variable {R R' D D' : Type}","",
"/-- Two symbol values agree on a field, up to what is behind pointers. -/",
"def agree (f : R → R') (g : D → D') : Fld → SymType R D → SymType R' D' → Prop","  | .none, _, _ => True"]
for x in fields: o.append(f"  | .{x}, a, b => {mp(x,'a.'+x)} = b.{x}")
o+=["","/-- Pointers agree. -/","structure PtrAgree (f : R → R') (g : D → D') (p : Pointers R D) (p' : Pointers R' D') : Prop where",
"  value3 : g p.value3 = p'.value3","  defined2 : f p.defined2 = p'.defined2","  copy : ∀ d, f (p.copy d) = p'.copy d","",
"/-- The action of rule `r` respects agreement. -/",
"def RuleAgree (f : R → R') (g : D → D') (r : Nat) : Prop :=",
"  ∀ lhs rhs, rules[r - 1]? = some (lhs, rhs) → ∀ (p : Pointers R D) (p' : Pointers R' D') (d : Nat → SymType R D) (d' : Nat → SymType R' D')",
"    (v : SymType R D) (v' : SymType R' D'), (r = 152 → g p.value3 = p'.value3) → (r = 188 → f p.defined2 = p'.defined2) →",
"    (∀ x, f (p.copy x) = p'.copy x) →",
"    (∀ i X, rhs[i]? = some X → agree f g (fieldOf X) (d (i + 1)) (d' (i + 1))) → (rhs ≠ [] → v = d 1 ∧ v' = d' 1) →",
"    agree f g (fieldOf (.n lhs)) (action r p d v) (action r p' d' v')","",
"variable (f : R → R') (g : D → D')",""]
PS=[]
for i,(l,r) in enumerate(rules):
    if i==0: continue
    tl=typ[l]
    o.append(f"theorem ruleAgree_{i} : RuleAgree f g {i} := by")
    o.append("  intro lhs rhs h p p' d d' v v' hp3 hp2 hpc hk hv")
    if tl is None:
        o.append("  cases h; exact True.intro"); o.append(""); continue
    o.append("  cases h")
    f_=lc(tl)
    if i not in acts:
        o.append("  obtain ⟨rfl, rfl⟩ := hv (by simp)")
        ff=lc(typ[r[0]]); o.append(f"  have h1 : {mp(ff,'(d 1).'+ff)} = (d' 1).{ff} := hk 0 _ rfl"); o.append("  exact h1"); o.append(""); continue
    fl,e=acts[i]
    e=re.sub(r'\s*\n\s*',' ',e)
    used=sorted({int(k) for k in re.findall(r'\(d (\d)\)',e)})
    for k in used:
        ff=lc(typ[r[k-1]])
        o.append(f"  have h{k} : {mp(ff,f'(d {k}).{ff}')} = (d' {k}).{ff} := hk {k-1} _ rfl")
    e2=re.sub(r'\(d (\d)\)',r"(d' \1)",e).replace('p.',"p'.")
    x=f"({e} : FT)"
    o.append(f"  show {mp(f_,'(action '+str(i)+' p d v).'+f_)} = (action {i} p' d' v').{f_}")
    o.append(f"  have e1 : (action {i} p d v).{f_} = ({e}) := rfl")
    o.append(f"  have e2 : (action {i} p' d' v').{f_} = ({e2}) := rfl")
    hs=[]
    for k in used:
        ff=lc(typ[r[k-1]])
        if ff in('componentTypeLists','choiceType'): 
            hs.append(f"← h{k}")
        else: hs.append(f"← h{k}")
    o.append(f"  rw [e1, e2] <;> simp only [{', '.join(hs+(['hp3 rfl'] if i==152 else [])+(['hp2 rfl'] if i==188 else [])+(['hpc'] if i in(194,196) else []))}{', ' if hs or i in(152,188,194,196) else ''}"+L+"]")
    o.append("")
o+=["theorem ruleAgree (r : Nat) (h1 : 1 ≤ r) (h2 : r ≤ 291) : RuleAgree f g r :=","  match r, h1, h2 with"]
for i in range(1,292): o.append(f"  | {i}, _, _ => ruleAgree_{i} f g")
o.append("  | 0, h, _ => absurd h (by omega)")
o.append("  | n + 292, _, h => absurd h (by omega)")
o+=["","end Asn1go.LR",""]
open('/verif/lean/Verif/Proofs/LR/Agree.lean','w').write('\n'.join(o))
