"""Write lean/Verif/Proofs/LR/NewRules.lean: every action does the same with other names.  Reads Model/Actions.lean."""
import re
src=open('/verif/lean/Verif/Model/Actions.lean').read()
fields=re.search(r'structure SymType.*?where\n(.*?)\n\n',src,re.S).group(1)
m={}
for l in fields.split('\n'):
    a=re.match(r'  (\w+) : (.*?) :=',l)
    m[a.group(1)]=a.group(2)
conv={'Nat':'{}','Int':'{}','GoReal':'{}','Bool':'{}','Str':'f {}','ModuleIdentifier':'newModuleIdentifier f {}','DefinitiveObjIdComponent':'newDefinitive f {}',
'List DefinitiveObjIdComponent':'{}.map (newDefinitive f)','Ty R D':'newTy f g h {}','ObjectIdElement R':'newElement f g {}','DefinedValue':'newDefined f {}',
'List (ObjectIdElement R)':'{}.map (newElement f g)','Value R':'newValue f g {}','Assignment R D':'newAssignment f g h {}','List (Assignment R D)':'{}.map (newAssignment f g h)',
'ModuleBody R D':'newBody f g h {}','Constraint R D':'newConstraint f g h {}','ConstraintSpec R D':'newSpec f g h {}','Elements R D':'newElements f g h {}',
'List (List (IntersectionElements R D))':'newUnion f g h {}','List (IntersectionElements R D)':'newParts f g h {}','IntersectionElements R D':'newPart f g h {}',
'List (Elements R D)':'newElementss f g h {}','RangeEndpoint R':'newBound f g {}','NamedType R D':'newNamed f g h {}','ComponentType R D':'newComponent f g h {}',
'ComponentTypeLists R D':'⟨newComponents f g h {}.components, newComponents f g h {}.extensionAdditions, newComponents f g h {}.trailingComponents⟩',
'List (ComponentType R D)':'newComponents f g h {}','Tag R':'newTag f g {}','List (NamedBit R)':'{}.map (newBit f g)','NamedBit R':'newBit f g {}',
'List (SymbolsFromModule R)':'{}.map (newFrom f g)','SymbolsFromModule R':'newFrom f g {}','List Symbol':'{}.map (newSymbol f)','Symbol':'newSymbol f {}',
'GlobalModuleReference R':'newGlobal f g {}','List (NamedType R D)':'newNameds f g h {}','List (NamedType R D) × List (Ty R D)':'(newNameds f g h {}.1, newTys f g h {}.2)',
'List (Ty R D)':'newTys f g h {}','List NamedNumber':'{}.map (newNumber f)','NamedNumber':'newNumber f {}',
'List EnumerationItem × List EnumerationItem':'({}.1.map (newItem f), {}.2.map (newItem f))','List EnumerationItem':'{}.map (newItem f)','EnumerationItem':'newItem f {}'}
lines=[]
for k,t in m.items():
    if k=='numberRepr': e='v.numberRepr'
    else: e=conv[t].replace('{}','v.'+k)
    lines.append(f'  {k} := {e}')
body='\n'.join(lines)
def listlemma(n,ty):
    return f'''theorem {n}_append (a b : List ({ty})) : {n} f g h (a ++ b) = {n} f g h a ++ {n} f g h b := by
  induction a with
  | nil => simp [{n}]
  | cons t a ih => simp [{n}, ih]

'''
ll=''.join(listlemma(n,ty) for n,ty in [('newTys','Ty R D'),('newNameds','NamedType R D'),('newComponents','ComponentType R D'),('newParts','IntersectionElements R D'),('newUnion','List (IntersectionElements R D)'),('newElementss','Elements R D')])
t = f'''import Verif.Spec.Reworded
import Verif.Spec.Exact
import Verif.Spec.Preferred

/-! The actions of asn1.y do the same with other names.  Generated by tools/gen_new.py. -/

namespace Asn1go.LR

open Asn1go Spec

set_option linter.unusedSimpArgs false
set_option linter.unusedVariables false

section

variable {{R D : Type}} (f : Str → Str) (g : R → R) (h : D → D)

/-- The value of a symbol with the new names. -/
def newSym (v : SymType R D) : SymType R D where
{body}

/-- The pointers of an action with the new names. -/
structure NewPointers (p p' : Pointers R D) : Prop where
  value3 : p'.value3 = h p.value3
  defined2 : p'.defined2 = g p.defined2
  copy : ∀ d, p'.copy (newDefined f d) = g (p.copy d)

{ll}variable {{f g h}}

theorem newSym_empty (hf : Rewording f) : newSym f g h {{}} = {{}} := by
  simp [newSym, hf.empty, newModuleIdentifier, newDefinitive, newTy, newElement, newDefined, newValue, newAssignment, newBody, newConstraint, newSpec, newElements, newUnion,
    newParts, newPart, newElementss, newBound, newNamed, newComponent, newComponents, newTag, newBit, newFrom, newSymbol, newGlobal, newNameds, newTys, newNumber, newItem]

'''
rhs={}
for mm in re.finditer(r'^  \| (\d+) => (.*?)(?=^  \| )',src[src.index('def action'):],re.M|re.S):
    rhs[int(mm.group(1))]=re.sub(r'\s+',' ',mm.group(2)).strip()
simps='''newSym, hf.empty, hf.generalized, hf.utc, hp.value3, hp.defined2, hp.copy, newModuleIdentifier, newDefinitive, newTy, newElement, newValue, newAssignment,
    newBody, newConstraint, newSpec, newElements, newUnion, newParts, newPart, newElementss, newBound, newNamed, newComponent, newComponents, newTag, newBit, newFrom, newSymbol, newGlobal,
    newNameds, newTys, newNumber, newItem, newTys_append, newNameds_append, newComponents_append, newParts_append, newUnion_append, newElementss_append, singleElementConstraint,
    List.map_append, List.map_cons, List.map_nil, Option.map_some, Option.map_none'''
FT=m
t += '''/-- Rule `n` does the same with the new names. -/
def NewRule (f : Str → Str) (g : R → R) (h : D → D) (n : Nat) : Prop := ∀ (p p' : Pointers R D), NewPointers f g h p p' → ∀ (d : Nat → SymType R D) (v : SymType R D),
  action n p' (fun i => newSym f g h (d i)) (newSym f g h v) = newSym f g h (action n p d v)

'''
for n in range(1,292):
    r=rhs.get(n)
    if r is None:
        t+=f"""theorem newRule_{n} : NewRule (R := R) (D := D) f g h {n} := by
  intro p p' _ d v
  have e0 : ∀ (p : Pointers R D) (d : Nat → SymType R D) (v : SymType R D), action {n} p d v = v := fun _ _ _ => rfl
  rw [e0, e0]

"""
    else:
        a=re.match(r'\{ v with (\w+) := (.*) \}$',r)
        F,X=a.group(1),a.group(2)
        ty=FT[F]
        if F=='componentTypeLists': cv='(fun z : ComponentTypeLists R D => ⟨newComponents f g h z.components, newComponents f g h z.extensionAdditions, newComponents f g h z.trailingComponents⟩ : ComponentTypeLists R D → ComponentTypeLists R D)'
        elif F=='choiceType': cv='(fun z : List (NamedType R D) × List (Ty R D) => (newNameds f g h z.1, newTys f g h z.2))'
        elif F=='enumeratedType': cv='(fun z : List EnumerationItem × List EnumerationItem => (z.1.map (newItem f), z.2.map (newItem f)))'
        else:
            c=conv[ty] if F!='numberRepr' else '{}'
            cv=f'(fun z : {ty} => {c.replace("{}","z")})'
        extra=', newDefined' if n in (52,53) else ''
        t+=f'''theorem newRule_{n} (hf : Rewording f) : NewRule (R := R) (D := D) f g h {n} := by
  intro p p' hp d v
  have e : (fun (p : Pointers R D) (d : Nat → SymType R D) => ({X} : {ty})) p' (fun i => newSym f g h (d i)) = {cv} ((fun (p : Pointers R D) (d : Nat → SymType R D) => ({X} : {ty})) p d) := by
    first
    | rfl
    | simp only [{simps}{extra}]
  have e0 : ∀ (p : Pointers R D) (d : Nat → SymType R D) (v : SymType R D), action {n} p d v = {r} := fun _ _ _ => rfl
  rw [e0, e0]
  exact congrArg (fun z => {{ newSym f g h v with {F} := z }}) e

'''
t+='''/-- An action does the same with the new names. -/
theorem action_new (hf : Rewording f) (n : Nat) (h1 : 1 ≤ n) (h2 : n ≤ 291) : NewRule (R := R) (D := D) f g h n :=
  match n, h1, h2 with
'''
for n in range(1,292):
    t+=f'  | {n}, _, _ => newRule_{n}'+(' hf\n' if n in rhs else '\n')
t+='  | n + 292, _, h => absurd h (by omega)\n'
t += '\nend\n\nend Asn1go.LR\n'
open('/verif/lean/Verif/Proofs/LR/NewRules.lean', 'w').write(t)
