import Verif.Spec.Reworded
import Verif.Spec.Exact
import Verif.Spec.Preferred

/-! The actions of asn1.y do the same with other names.  Generated by tools/gen_new.py. -/

namespace Asn1go.LR

open Asn1go Spec

set_option linter.unusedSimpArgs false
set_option linter.unusedVariables false

section

variable {R D : Type} (f : Str → Str) (g : R → R) (h : D → D)

/-- The value of a symbol with the new names. -/
def newSym (v : SymType R D) : SymType R D where
  yys := v.yys
  name := f v.name
  numberRepr := v.numberRepr
  number := v.number
  real := v.real
  tagDefault := v.tagDefault
  extensionDefault := v.extensionDefault
  moduleIdentifier := newModuleIdentifier f v.moduleIdentifier
  definitiveObjIdComponent := newDefinitive f v.definitiveObjIdComponent
  definitiveObjIdComponentList := v.definitiveObjIdComponentList.map (newDefinitive f)
  definitiveIdentifier := v.definitiveIdentifier.map (newDefinitive f)
  type := newTy f g h v.type
  objectIdElement := newElement f g v.objectIdElement
  definedValue := newDefined f v.definedValue
  objectIdentifierValue := v.objectIdentifierValue.map (newElement f g)
  value := newValue f g v.value
  assignment := newAssignment f g h v.assignment
  assignmentList := v.assignmentList.map (newAssignment f g h)
  moduleBody := newBody f g h v.moduleBody
  valueReference := f v.valueReference
  typeReference := f v.typeReference
  constraint := newConstraint f g h v.constraint
  constraintSpec := newSpec f g h v.constraintSpec
  elementSetSpec := newElements f g h v.elementSetSpec
  unions := newUnion f g h v.unions
  intersections := newParts f g h v.intersections
  intersectionElements := newPart f g h v.intersectionElements
  exclusions := newElements f g h v.exclusions
  elements := newElements f g h v.elements
  subtypeConstraint := newElementss f g h v.subtypeConstraint
  rangeEndpoint := newBound f g v.rangeEndpoint
  namedType := newNamed f g h v.namedType
  componentType := newComponent f g h v.componentType
  componentTypeLists := ⟨newComponents f g h v.componentTypeLists.components, newComponents f g h v.componentTypeLists.extensionAdditions, newComponents f g h v.componentTypeLists.trailingComponents⟩
  componentTypeList := newComponents f g h v.componentTypeList
  tag := newTag f g v.tag
  cls := v.cls
  namedBitList := v.namedBitList.map (newBit f g)
  namedBit := newBit f g v.namedBit
  imports := v.imports.map (newFrom f g)
  symbolsFromModule := newFrom f g v.symbolsFromModule
  symbolList := v.symbolList.map (newSymbol f)
  symbol := newSymbol f v.symbol
  globalModuleReference := newGlobal f g v.globalModuleReference
  alternativeTypeList := newNameds f g h v.alternativeTypeList
  choiceType := (newNameds f g h v.choiceType.1, newTys f g h v.choiceType.2)
  extensionAdditionAlternative := newTy f g h v.extensionAdditionAlternative
  extensionAdditionAlternativesList := newTys f g h v.extensionAdditionAlternativesList
  extensionAdditions := newComponents f g h v.extensionAdditions
  namedNumberList := v.namedNumberList.map (newNumber f)
  namedNumber := newNumber f v.namedNumber
  enumeratedType := (v.enumeratedType.1.map (newItem f), v.enumeratedType.2.map (newItem f))
  enumeration := v.enumeration.map (newItem f)
  enumerationItem := newItem f v.enumerationItem

/-- The pointers of an action with the new names. -/
structure NewPointers (p p' : Pointers R D) : Prop where
  value3 : p'.value3 = h p.value3
  defined2 : p'.defined2 = g p.defined2
  copy : ∀ d, p'.copy (newDefined f d) = g (p.copy d)

theorem newTys_append (a b : List (Ty R D)) : newTys f g h (a ++ b) = newTys f g h a ++ newTys f g h b := by
  induction a with
  | nil => simp [newTys]
  | cons t a ih => simp [newTys, ih]

theorem newNameds_append (a b : List (NamedType R D)) : newNameds f g h (a ++ b) = newNameds f g h a ++ newNameds f g h b := by
  induction a with
  | nil => simp [newNameds]
  | cons t a ih => simp [newNameds, ih]

theorem newComponents_append (a b : List (ComponentType R D)) : newComponents f g h (a ++ b) = newComponents f g h a ++ newComponents f g h b := by
  induction a with
  | nil => simp [newComponents]
  | cons t a ih => simp [newComponents, ih]

theorem newParts_append (a b : List (IntersectionElements R D)) : newParts f g h (a ++ b) = newParts f g h a ++ newParts f g h b := by
  induction a with
  | nil => simp [newParts]
  | cons t a ih => simp [newParts, ih]

theorem newUnion_append (a b : List (List (IntersectionElements R D))) : newUnion f g h (a ++ b) = newUnion f g h a ++ newUnion f g h b := by
  induction a with
  | nil => simp [newUnion]
  | cons t a ih => simp [newUnion, ih]

theorem newElementss_append (a b : List (Elements R D)) : newElementss f g h (a ++ b) = newElementss f g h a ++ newElementss f g h b := by
  induction a with
  | nil => simp [newElementss]
  | cons t a ih => simp [newElementss, ih]

variable {f g h}

theorem newSym_empty (hf : Rewording f) : newSym f g h {} = {} := by
  simp [newSym, hf.empty, newModuleIdentifier, newDefinitive, newTy, newElement, newDefined, newValue, newAssignment, newBody, newConstraint, newSpec, newElements, newUnion,
    newParts, newPart, newElementss, newBound, newNamed, newComponent, newComponents, newTag, newBit, newFrom, newSymbol, newGlobal, newNameds, newTys, newNumber, newItem]

/-- Rule `n` does the same with the new names. -/
def NewRule (f : Str → Str) (g : R → R) (h : D → D) (n : Nat) : Prop := ∀ (p p' : Pointers R D), NewPointers f g h p p' → ∀ (d : Nat → SymType R D) (v : SymType R D),
  action n p' (fun i => newSym f g h (d i)) (newSym f g h v) = newSym f g h (action n p d v)

theorem newRule_1 : NewRule (R := R) (D := D) f g h 1 := by
  intro p p' _ d v
  have e0 : ∀ (p : Pointers R D) (d : Nat → SymType R D) (v : SymType R D), action 1 p d v = v := fun _ _ _ => rfl
  rw [e0, e0]

theorem newRule_2 (hf : Rewording f) : NewRule (R := R) (D := D) f g h 2 := by
  intro p p' hp d v
  have e : (fun (p : Pointers R D) (d : Nat → SymType R D) => ((d 1).name : Str)) p' (fun i => newSym f g h (d i)) = (fun z : Str => f z) ((fun (p : Pointers R D) (d : Nat → SymType R D) => ((d 1).name : Str)) p d) := by
    first
    | rfl
    | simp only [newSym, hf.empty, hf.generalized, hf.utc, hp.value3, hp.defined2, hp.copy, newModuleIdentifier, newDefinitive, newTy, newElement, newValue, newAssignment,
    newBody, newConstraint, newSpec, newElements, newUnion, newParts, newPart, newElementss, newBound, newNamed, newComponent, newComponents, newTag, newBit, newFrom, newSymbol, newGlobal,
    newNameds, newTys, newNumber, newItem, newTys_append, newNameds_append, newComponents_append, newParts_append, newUnion_append, newElementss_append, singleElementConstraint,
    List.map_append, List.map_cons, List.map_nil, Option.map_some, Option.map_none]
  have e0 : ∀ (p : Pointers R D) (d : Nat → SymType R D) (v : SymType R D), action 2 p d v = { v with typeReference := (d 1).name } := fun _ _ _ => rfl
  rw [e0, e0]
  exact congrArg (fun z => { newSym f g h v with typeReference := z }) e

theorem newRule_3 : NewRule (R := R) (D := D) f g h 3 := by
  intro p p' _ d v
  have e0 : ∀ (p : Pointers R D) (d : Nat → SymType R D) (v : SymType R D), action 3 p d v = v := fun _ _ _ => rfl
  rw [e0, e0]

theorem newRule_4 (hf : Rewording f) : NewRule (R := R) (D := D) f g h 4 := by
  intro p p' hp d v
  have e : (fun (p : Pointers R D) (d : Nat → SymType R D) => ((d 1).name : Str)) p' (fun i => newSym f g h (d i)) = (fun z : Str => f z) ((fun (p : Pointers R D) (d : Nat → SymType R D) => ((d 1).name : Str)) p d) := by
    first
    | rfl
    | simp only [newSym, hf.empty, hf.generalized, hf.utc, hp.value3, hp.defined2, hp.copy, newModuleIdentifier, newDefinitive, newTy, newElement, newValue, newAssignment,
    newBody, newConstraint, newSpec, newElements, newUnion, newParts, newPart, newElementss, newBound, newNamed, newComponent, newComponents, newTag, newBit, newFrom, newSymbol, newGlobal,
    newNameds, newTys, newNumber, newItem, newTys_append, newNameds_append, newComponents_append, newParts_append, newUnion_append, newElementss_append, singleElementConstraint,
    List.map_append, List.map_cons, List.map_nil, Option.map_some, Option.map_none]
  have e0 : ∀ (p : Pointers R D) (d : Nat → SymType R D) (v : SymType R D), action 4 p d v = { v with valueReference := (d 1).name } := fun _ _ _ => rfl
  rw [e0, e0]
  exact congrArg (fun z => { newSym f g h v with valueReference := z }) e

theorem newRule_5 : NewRule (R := R) (D := D) f g h 5 := by
  intro p p' _ d v
  have e0 : ∀ (p : Pointers R D) (d : Nat → SymType R D) (v : SymType R D), action 5 p d v = v := fun _ _ _ => rfl
  rw [e0, e0]

theorem newRule_6 : NewRule (R := R) (D := D) f g h 6 := by
  intro p p' _ d v
  have e0 : ∀ (p : Pointers R D) (d : Nat → SymType R D) (v : SymType R D), action 6 p d v = v := fun _ _ _ => rfl
  rw [e0, e0]

theorem newRule_7 (hf : Rewording f) : NewRule (R := R) (D := D) f g h 7 := by
  intro p p' hp d v
  have e : (fun (p : Pointers R D) (d : Nat → SymType R D) => ({ reference := (d 1).name, definitiveIdentifier := (d 2).definitiveIdentifier } : ModuleIdentifier)) p' (fun i => newSym f g h (d i)) = (fun z : ModuleIdentifier => newModuleIdentifier f z) ((fun (p : Pointers R D) (d : Nat → SymType R D) => ({ reference := (d 1).name, definitiveIdentifier := (d 2).definitiveIdentifier } : ModuleIdentifier)) p d) := by
    first
    | rfl
    | simp only [newSym, hf.empty, hf.generalized, hf.utc, hp.value3, hp.defined2, hp.copy, newModuleIdentifier, newDefinitive, newTy, newElement, newValue, newAssignment,
    newBody, newConstraint, newSpec, newElements, newUnion, newParts, newPart, newElementss, newBound, newNamed, newComponent, newComponents, newTag, newBit, newFrom, newSymbol, newGlobal,
    newNameds, newTys, newNumber, newItem, newTys_append, newNameds_append, newComponents_append, newParts_append, newUnion_append, newElementss_append, singleElementConstraint,
    List.map_append, List.map_cons, List.map_nil, Option.map_some, Option.map_none]
  have e0 : ∀ (p : Pointers R D) (d : Nat → SymType R D) (v : SymType R D), action 7 p d v = { v with moduleIdentifier := { reference := (d 1).name, definitiveIdentifier := (d 2).definitiveIdentifier } } := fun _ _ _ => rfl
  rw [e0, e0]
  exact congrArg (fun z => { newSym f g h v with moduleIdentifier := z }) e

theorem newRule_8 (hf : Rewording f) : NewRule (R := R) (D := D) f g h 8 := by
  intro p p' hp d v
  have e : (fun (p : Pointers R D) (d : Nat → SymType R D) => ((d 2).definitiveObjIdComponentList : List DefinitiveObjIdComponent)) p' (fun i => newSym f g h (d i)) = (fun z : List DefinitiveObjIdComponent => z.map (newDefinitive f)) ((fun (p : Pointers R D) (d : Nat → SymType R D) => ((d 2).definitiveObjIdComponentList : List DefinitiveObjIdComponent)) p d) := by
    first
    | rfl
    | simp only [newSym, hf.empty, hf.generalized, hf.utc, hp.value3, hp.defined2, hp.copy, newModuleIdentifier, newDefinitive, newTy, newElement, newValue, newAssignment,
    newBody, newConstraint, newSpec, newElements, newUnion, newParts, newPart, newElementss, newBound, newNamed, newComponent, newComponents, newTag, newBit, newFrom, newSymbol, newGlobal,
    newNameds, newTys, newNumber, newItem, newTys_append, newNameds_append, newComponents_append, newParts_append, newUnion_append, newElementss_append, singleElementConstraint,
    List.map_append, List.map_cons, List.map_nil, Option.map_some, Option.map_none]
  have e0 : ∀ (p : Pointers R D) (d : Nat → SymType R D) (v : SymType R D), action 8 p d v = { v with definitiveIdentifier := (d 2).definitiveObjIdComponentList } := fun _ _ _ => rfl
  rw [e0, e0]
  exact congrArg (fun z => { newSym f g h v with definitiveIdentifier := z }) e

theorem newRule_9 (hf : Rewording f) : NewRule (R := R) (D := D) f g h 9 := by
  intro p p' hp d v
  have e : (fun (p : Pointers R D) (d : Nat → SymType R D) => ([] : List DefinitiveObjIdComponent)) p' (fun i => newSym f g h (d i)) = (fun z : List DefinitiveObjIdComponent => z.map (newDefinitive f)) ((fun (p : Pointers R D) (d : Nat → SymType R D) => ([] : List DefinitiveObjIdComponent)) p d) := by
    first
    | rfl
    | simp only [newSym, hf.empty, hf.generalized, hf.utc, hp.value3, hp.defined2, hp.copy, newModuleIdentifier, newDefinitive, newTy, newElement, newValue, newAssignment,
    newBody, newConstraint, newSpec, newElements, newUnion, newParts, newPart, newElementss, newBound, newNamed, newComponent, newComponents, newTag, newBit, newFrom, newSymbol, newGlobal,
    newNameds, newTys, newNumber, newItem, newTys_append, newNameds_append, newComponents_append, newParts_append, newUnion_append, newElementss_append, singleElementConstraint,
    List.map_append, List.map_cons, List.map_nil, Option.map_some, Option.map_none]
  have e0 : ∀ (p : Pointers R D) (d : Nat → SymType R D) (v : SymType R D), action 9 p d v = { v with definitiveIdentifier := [] } := fun _ _ _ => rfl
  rw [e0, e0]
  exact congrArg (fun z => { newSym f g h v with definitiveIdentifier := z }) e

theorem newRule_10 (hf : Rewording f) : NewRule (R := R) (D := D) f g h 10 := by
  intro p p' hp d v
  have e : (fun (p : Pointers R D) (d : Nat → SymType R D) => ([(d 1).definitiveObjIdComponent] : List DefinitiveObjIdComponent)) p' (fun i => newSym f g h (d i)) = (fun z : List DefinitiveObjIdComponent => z.map (newDefinitive f)) ((fun (p : Pointers R D) (d : Nat → SymType R D) => ([(d 1).definitiveObjIdComponent] : List DefinitiveObjIdComponent)) p d) := by
    first
    | rfl
    | simp only [newSym, hf.empty, hf.generalized, hf.utc, hp.value3, hp.defined2, hp.copy, newModuleIdentifier, newDefinitive, newTy, newElement, newValue, newAssignment,
    newBody, newConstraint, newSpec, newElements, newUnion, newParts, newPart, newElementss, newBound, newNamed, newComponent, newComponents, newTag, newBit, newFrom, newSymbol, newGlobal,
    newNameds, newTys, newNumber, newItem, newTys_append, newNameds_append, newComponents_append, newParts_append, newUnion_append, newElementss_append, singleElementConstraint,
    List.map_append, List.map_cons, List.map_nil, Option.map_some, Option.map_none]
  have e0 : ∀ (p : Pointers R D) (d : Nat → SymType R D) (v : SymType R D), action 10 p d v = { v with definitiveObjIdComponentList := [(d 1).definitiveObjIdComponent] } := fun _ _ _ => rfl
  rw [e0, e0]
  exact congrArg (fun z => { newSym f g h v with definitiveObjIdComponentList := z }) e

theorem newRule_11 (hf : Rewording f) : NewRule (R := R) (D := D) f g h 11 := by
  intro p p' hp d v
  have e : (fun (p : Pointers R D) (d : Nat → SymType R D) => ((d 1).definitiveObjIdComponent :: (d 2).definitiveObjIdComponentList : List DefinitiveObjIdComponent)) p' (fun i => newSym f g h (d i)) = (fun z : List DefinitiveObjIdComponent => z.map (newDefinitive f)) ((fun (p : Pointers R D) (d : Nat → SymType R D) => ((d 1).definitiveObjIdComponent :: (d 2).definitiveObjIdComponentList : List DefinitiveObjIdComponent)) p d) := by
    first
    | rfl
    | simp only [newSym, hf.empty, hf.generalized, hf.utc, hp.value3, hp.defined2, hp.copy, newModuleIdentifier, newDefinitive, newTy, newElement, newValue, newAssignment,
    newBody, newConstraint, newSpec, newElements, newUnion, newParts, newPart, newElementss, newBound, newNamed, newComponent, newComponents, newTag, newBit, newFrom, newSymbol, newGlobal,
    newNameds, newTys, newNumber, newItem, newTys_append, newNameds_append, newComponents_append, newParts_append, newUnion_append, newElementss_append, singleElementConstraint,
    List.map_append, List.map_cons, List.map_nil, Option.map_some, Option.map_none]
  have e0 : ∀ (p : Pointers R D) (d : Nat → SymType R D) (v : SymType R D), action 11 p d v = { v with definitiveObjIdComponentList := (d 1).definitiveObjIdComponent :: (d 2).definitiveObjIdComponentList } := fun _ _ _ => rfl
  rw [e0, e0]
  exact congrArg (fun z => { newSym f g h v with definitiveObjIdComponentList := z }) e

theorem newRule_12 (hf : Rewording f) : NewRule (R := R) (D := D) f g h 12 := by
  intro p p' hp d v
  have e : (fun (p : Pointers R D) (d : Nat → SymType R D) => ({ name := (d 1).name } : DefinitiveObjIdComponent)) p' (fun i => newSym f g h (d i)) = (fun z : DefinitiveObjIdComponent => newDefinitive f z) ((fun (p : Pointers R D) (d : Nat → SymType R D) => ({ name := (d 1).name } : DefinitiveObjIdComponent)) p d) := by
    first
    | rfl
    | simp only [newSym, hf.empty, hf.generalized, hf.utc, hp.value3, hp.defined2, hp.copy, newModuleIdentifier, newDefinitive, newTy, newElement, newValue, newAssignment,
    newBody, newConstraint, newSpec, newElements, newUnion, newParts, newPart, newElementss, newBound, newNamed, newComponent, newComponents, newTag, newBit, newFrom, newSymbol, newGlobal,
    newNameds, newTys, newNumber, newItem, newTys_append, newNameds_append, newComponents_append, newParts_append, newUnion_append, newElementss_append, singleElementConstraint,
    List.map_append, List.map_cons, List.map_nil, Option.map_some, Option.map_none]
  have e0 : ∀ (p : Pointers R D) (d : Nat → SymType R D) (v : SymType R D), action 12 p d v = { v with definitiveObjIdComponent := { name := (d 1).name } } := fun _ _ _ => rfl
  rw [e0, e0]
  exact congrArg (fun z => { newSym f g h v with definitiveObjIdComponent := z }) e

theorem newRule_13 (hf : Rewording f) : NewRule (R := R) (D := D) f g h 13 := by
  intro p p' hp d v
  have e : (fun (p : Pointers R D) (d : Nat → SymType R D) => ({ id := (d 1).number } : DefinitiveObjIdComponent)) p' (fun i => newSym f g h (d i)) = (fun z : DefinitiveObjIdComponent => newDefinitive f z) ((fun (p : Pointers R D) (d : Nat → SymType R D) => ({ id := (d 1).number } : DefinitiveObjIdComponent)) p d) := by
    first
    | rfl
    | simp only [newSym, hf.empty, hf.generalized, hf.utc, hp.value3, hp.defined2, hp.copy, newModuleIdentifier, newDefinitive, newTy, newElement, newValue, newAssignment,
    newBody, newConstraint, newSpec, newElements, newUnion, newParts, newPart, newElementss, newBound, newNamed, newComponent, newComponents, newTag, newBit, newFrom, newSymbol, newGlobal,
    newNameds, newTys, newNumber, newItem, newTys_append, newNameds_append, newComponents_append, newParts_append, newUnion_append, newElementss_append, singleElementConstraint,
    List.map_append, List.map_cons, List.map_nil, Option.map_some, Option.map_none]
  have e0 : ∀ (p : Pointers R D) (d : Nat → SymType R D) (v : SymType R D), action 13 p d v = { v with definitiveObjIdComponent := { id := (d 1).number } } := fun _ _ _ => rfl
  rw [e0, e0]
  exact congrArg (fun z => { newSym f g h v with definitiveObjIdComponent := z }) e

theorem newRule_14 (hf : Rewording f) : NewRule (R := R) (D := D) f g h 14 := by
  intro p p' hp d v
  have e : (fun (p : Pointers R D) (d : Nat → SymType R D) => ((d 1).definitiveObjIdComponent : DefinitiveObjIdComponent)) p' (fun i => newSym f g h (d i)) = (fun z : DefinitiveObjIdComponent => newDefinitive f z) ((fun (p : Pointers R D) (d : Nat → SymType R D) => ((d 1).definitiveObjIdComponent : DefinitiveObjIdComponent)) p d) := by
    first
    | rfl
    | simp only [newSym, hf.empty, hf.generalized, hf.utc, hp.value3, hp.defined2, hp.copy, newModuleIdentifier, newDefinitive, newTy, newElement, newValue, newAssignment,
    newBody, newConstraint, newSpec, newElements, newUnion, newParts, newPart, newElementss, newBound, newNamed, newComponent, newComponents, newTag, newBit, newFrom, newSymbol, newGlobal,
    newNameds, newTys, newNumber, newItem, newTys_append, newNameds_append, newComponents_append, newParts_append, newUnion_append, newElementss_append, singleElementConstraint,
    List.map_append, List.map_cons, List.map_nil, Option.map_some, Option.map_none]
  have e0 : ∀ (p : Pointers R D) (d : Nat → SymType R D) (v : SymType R D), action 14 p d v = { v with definitiveObjIdComponent := (d 1).definitiveObjIdComponent } := fun _ _ _ => rfl
  rw [e0, e0]
  exact congrArg (fun z => { newSym f g h v with definitiveObjIdComponent := z }) e

theorem newRule_15 (hf : Rewording f) : NewRule (R := R) (D := D) f g h 15 := by
  intro p p' hp d v
  have e : (fun (p : Pointers R D) (d : Nat → SymType R D) => ((d 1).number : Int)) p' (fun i => newSym f g h (d i)) = (fun z : Int => z) ((fun (p : Pointers R D) (d : Nat → SymType R D) => ((d 1).number : Int)) p d) := by
    first
    | rfl
    | simp only [newSym, hf.empty, hf.generalized, hf.utc, hp.value3, hp.defined2, hp.copy, newModuleIdentifier, newDefinitive, newTy, newElement, newValue, newAssignment,
    newBody, newConstraint, newSpec, newElements, newUnion, newParts, newPart, newElementss, newBound, newNamed, newComponent, newComponents, newTag, newBit, newFrom, newSymbol, newGlobal,
    newNameds, newTys, newNumber, newItem, newTys_append, newNameds_append, newComponents_append, newParts_append, newUnion_append, newElementss_append, singleElementConstraint,
    List.map_append, List.map_cons, List.map_nil, Option.map_some, Option.map_none]
  have e0 : ∀ (p : Pointers R D) (d : Nat → SymType R D) (v : SymType R D), action 15 p d v = { v with number := (d 1).number } := fun _ _ _ => rfl
  rw [e0, e0]
  exact congrArg (fun z => { newSym f g h v with number := z }) e

theorem newRule_16 (hf : Rewording f) : NewRule (R := R) (D := D) f g h 16 := by
  intro p p' hp d v
  have e : (fun (p : Pointers R D) (d : Nat → SymType R D) => ({ name := (d 1).name, id := (d 3).number } : DefinitiveObjIdComponent)) p' (fun i => newSym f g h (d i)) = (fun z : DefinitiveObjIdComponent => newDefinitive f z) ((fun (p : Pointers R D) (d : Nat → SymType R D) => ({ name := (d 1).name, id := (d 3).number } : DefinitiveObjIdComponent)) p d) := by
    first
    | rfl
    | simp only [newSym, hf.empty, hf.generalized, hf.utc, hp.value3, hp.defined2, hp.copy, newModuleIdentifier, newDefinitive, newTy, newElement, newValue, newAssignment,
    newBody, newConstraint, newSpec, newElements, newUnion, newParts, newPart, newElementss, newBound, newNamed, newComponent, newComponents, newTag, newBit, newFrom, newSymbol, newGlobal,
    newNameds, newTys, newNumber, newItem, newTys_append, newNameds_append, newComponents_append, newParts_append, newUnion_append, newElementss_append, singleElementConstraint,
    List.map_append, List.map_cons, List.map_nil, Option.map_some, Option.map_none]
  have e0 : ∀ (p : Pointers R D) (d : Nat → SymType R D) (v : SymType R D), action 16 p d v = { v with definitiveObjIdComponent := { name := (d 1).name, id := (d 3).number } } := fun _ _ _ => rfl
  rw [e0, e0]
  exact congrArg (fun z => { newSym f g h v with definitiveObjIdComponent := z }) e

theorem newRule_17 (hf : Rewording f) : NewRule (R := R) (D := D) f g h 17 := by
  intro p p' hp d v
  have e : (fun (p : Pointers R D) (d : Nat → SymType R D) => (TAGS_EXPLICIT : Int)) p' (fun i => newSym f g h (d i)) = (fun z : Int => z) ((fun (p : Pointers R D) (d : Nat → SymType R D) => (TAGS_EXPLICIT : Int)) p d) := by
    first
    | rfl
    | simp only [newSym, hf.empty, hf.generalized, hf.utc, hp.value3, hp.defined2, hp.copy, newModuleIdentifier, newDefinitive, newTy, newElement, newValue, newAssignment,
    newBody, newConstraint, newSpec, newElements, newUnion, newParts, newPart, newElementss, newBound, newNamed, newComponent, newComponents, newTag, newBit, newFrom, newSymbol, newGlobal,
    newNameds, newTys, newNumber, newItem, newTys_append, newNameds_append, newComponents_append, newParts_append, newUnion_append, newElementss_append, singleElementConstraint,
    List.map_append, List.map_cons, List.map_nil, Option.map_some, Option.map_none]
  have e0 : ∀ (p : Pointers R D) (d : Nat → SymType R D) (v : SymType R D), action 17 p d v = { v with tagDefault := TAGS_EXPLICIT } := fun _ _ _ => rfl
  rw [e0, e0]
  exact congrArg (fun z => { newSym f g h v with tagDefault := z }) e

theorem newRule_18 (hf : Rewording f) : NewRule (R := R) (D := D) f g h 18 := by
  intro p p' hp d v
  have e : (fun (p : Pointers R D) (d : Nat → SymType R D) => (TAGS_IMPLICIT : Int)) p' (fun i => newSym f g h (d i)) = (fun z : Int => z) ((fun (p : Pointers R D) (d : Nat → SymType R D) => (TAGS_IMPLICIT : Int)) p d) := by
    first
    | rfl
    | simp only [newSym, hf.empty, hf.generalized, hf.utc, hp.value3, hp.defined2, hp.copy, newModuleIdentifier, newDefinitive, newTy, newElement, newValue, newAssignment,
    newBody, newConstraint, newSpec, newElements, newUnion, newParts, newPart, newElementss, newBound, newNamed, newComponent, newComponents, newTag, newBit, newFrom, newSymbol, newGlobal,
    newNameds, newTys, newNumber, newItem, newTys_append, newNameds_append, newComponents_append, newParts_append, newUnion_append, newElementss_append, singleElementConstraint,
    List.map_append, List.map_cons, List.map_nil, Option.map_some, Option.map_none]
  have e0 : ∀ (p : Pointers R D) (d : Nat → SymType R D) (v : SymType R D), action 18 p d v = { v with tagDefault := TAGS_IMPLICIT } := fun _ _ _ => rfl
  rw [e0, e0]
  exact congrArg (fun z => { newSym f g h v with tagDefault := z }) e

theorem newRule_19 (hf : Rewording f) : NewRule (R := R) (D := D) f g h 19 := by
  intro p p' hp d v
  have e : (fun (p : Pointers R D) (d : Nat → SymType R D) => (TAGS_AUTOMATIC : Int)) p' (fun i => newSym f g h (d i)) = (fun z : Int => z) ((fun (p : Pointers R D) (d : Nat → SymType R D) => (TAGS_AUTOMATIC : Int)) p d) := by
    first
    | rfl
    | simp only [newSym, hf.empty, hf.generalized, hf.utc, hp.value3, hp.defined2, hp.copy, newModuleIdentifier, newDefinitive, newTy, newElement, newValue, newAssignment,
    newBody, newConstraint, newSpec, newElements, newUnion, newParts, newPart, newElementss, newBound, newNamed, newComponent, newComponents, newTag, newBit, newFrom, newSymbol, newGlobal,
    newNameds, newTys, newNumber, newItem, newTys_append, newNameds_append, newComponents_append, newParts_append, newUnion_append, newElementss_append, singleElementConstraint,
    List.map_append, List.map_cons, List.map_nil, Option.map_some, Option.map_none]
  have e0 : ∀ (p : Pointers R D) (d : Nat → SymType R D) (v : SymType R D), action 19 p d v = { v with tagDefault := TAGS_AUTOMATIC } := fun _ _ _ => rfl
  rw [e0, e0]
  exact congrArg (fun z => { newSym f g h v with tagDefault := z }) e

theorem newRule_20 (hf : Rewording f) : NewRule (R := R) (D := D) f g h 20 := by
  intro p p' hp d v
  have e : (fun (p : Pointers R D) (d : Nat → SymType R D) => (TAGS_EXPLICIT : Int)) p' (fun i => newSym f g h (d i)) = (fun z : Int => z) ((fun (p : Pointers R D) (d : Nat → SymType R D) => (TAGS_EXPLICIT : Int)) p d) := by
    first
    | rfl
    | simp only [newSym, hf.empty, hf.generalized, hf.utc, hp.value3, hp.defined2, hp.copy, newModuleIdentifier, newDefinitive, newTy, newElement, newValue, newAssignment,
    newBody, newConstraint, newSpec, newElements, newUnion, newParts, newPart, newElementss, newBound, newNamed, newComponent, newComponents, newTag, newBit, newFrom, newSymbol, newGlobal,
    newNameds, newTys, newNumber, newItem, newTys_append, newNameds_append, newComponents_append, newParts_append, newUnion_append, newElementss_append, singleElementConstraint,
    List.map_append, List.map_cons, List.map_nil, Option.map_some, Option.map_none]
  have e0 : ∀ (p : Pointers R D) (d : Nat → SymType R D) (v : SymType R D), action 20 p d v = { v with tagDefault := TAGS_EXPLICIT } := fun _ _ _ => rfl
  rw [e0, e0]
  exact congrArg (fun z => { newSym f g h v with tagDefault := z }) e

theorem newRule_21 (hf : Rewording f) : NewRule (R := R) (D := D) f g h 21 := by
  intro p p' hp d v
  have e : (fun (p : Pointers R D) (d : Nat → SymType R D) => (true : Bool)) p' (fun i => newSym f g h (d i)) = (fun z : Bool => z) ((fun (p : Pointers R D) (d : Nat → SymType R D) => (true : Bool)) p d) := by
    first
    | rfl
    | simp only [newSym, hf.empty, hf.generalized, hf.utc, hp.value3, hp.defined2, hp.copy, newModuleIdentifier, newDefinitive, newTy, newElement, newValue, newAssignment,
    newBody, newConstraint, newSpec, newElements, newUnion, newParts, newPart, newElementss, newBound, newNamed, newComponent, newComponents, newTag, newBit, newFrom, newSymbol, newGlobal,
    newNameds, newTys, newNumber, newItem, newTys_append, newNameds_append, newComponents_append, newParts_append, newUnion_append, newElementss_append, singleElementConstraint,
    List.map_append, List.map_cons, List.map_nil, Option.map_some, Option.map_none]
  have e0 : ∀ (p : Pointers R D) (d : Nat → SymType R D) (v : SymType R D), action 21 p d v = { v with extensionDefault := true } := fun _ _ _ => rfl
  rw [e0, e0]
  exact congrArg (fun z => { newSym f g h v with extensionDefault := z }) e

theorem newRule_22 (hf : Rewording f) : NewRule (R := R) (D := D) f g h 22 := by
  intro p p' hp d v
  have e : (fun (p : Pointers R D) (d : Nat → SymType R D) => (false : Bool)) p' (fun i => newSym f g h (d i)) = (fun z : Bool => z) ((fun (p : Pointers R D) (d : Nat → SymType R D) => (false : Bool)) p d) := by
    first
    | rfl
    | simp only [newSym, hf.empty, hf.generalized, hf.utc, hp.value3, hp.defined2, hp.copy, newModuleIdentifier, newDefinitive, newTy, newElement, newValue, newAssignment,
    newBody, newConstraint, newSpec, newElements, newUnion, newParts, newPart, newElementss, newBound, newNamed, newComponent, newComponents, newTag, newBit, newFrom, newSymbol, newGlobal,
    newNameds, newTys, newNumber, newItem, newTys_append, newNameds_append, newComponents_append, newParts_append, newUnion_append, newElementss_append, singleElementConstraint,
    List.map_append, List.map_cons, List.map_nil, Option.map_some, Option.map_none]
  have e0 : ∀ (p : Pointers R D) (d : Nat → SymType R D) (v : SymType R D), action 22 p d v = { v with extensionDefault := false } := fun _ _ _ => rfl
  rw [e0, e0]
  exact congrArg (fun z => { newSym f g h v with extensionDefault := z }) e

theorem newRule_23 (hf : Rewording f) : NewRule (R := R) (D := D) f g h 23 := by
  intro p p' hp d v
  have e : (fun (p : Pointers R D) (d : Nat → SymType R D) => ({ imports := (d 2).imports, assignmentList := (d 3).assignmentList } : ModuleBody R D)) p' (fun i => newSym f g h (d i)) = (fun z : ModuleBody R D => newBody f g h z) ((fun (p : Pointers R D) (d : Nat → SymType R D) => ({ imports := (d 2).imports, assignmentList := (d 3).assignmentList } : ModuleBody R D)) p d) := by
    first
    | rfl
    | simp only [newSym, hf.empty, hf.generalized, hf.utc, hp.value3, hp.defined2, hp.copy, newModuleIdentifier, newDefinitive, newTy, newElement, newValue, newAssignment,
    newBody, newConstraint, newSpec, newElements, newUnion, newParts, newPart, newElementss, newBound, newNamed, newComponent, newComponents, newTag, newBit, newFrom, newSymbol, newGlobal,
    newNameds, newTys, newNumber, newItem, newTys_append, newNameds_append, newComponents_append, newParts_append, newUnion_append, newElementss_append, singleElementConstraint,
    List.map_append, List.map_cons, List.map_nil, Option.map_some, Option.map_none]
  have e0 : ∀ (p : Pointers R D) (d : Nat → SymType R D) (v : SymType R D), action 23 p d v = { v with moduleBody := { imports := (d 2).imports, assignmentList := (d 3).assignmentList } } := fun _ _ _ => rfl
  rw [e0, e0]
  exact congrArg (fun z => { newSym f g h v with moduleBody := z }) e

theorem newRule_24 (hf : Rewording f) : NewRule (R := R) (D := D) f g h 24 := by
  intro p p' hp d v
  have e : (fun (p : Pointers R D) (d : Nat → SymType R D) => ({} : ModuleBody R D)) p' (fun i => newSym f g h (d i)) = (fun z : ModuleBody R D => newBody f g h z) ((fun (p : Pointers R D) (d : Nat → SymType R D) => ({} : ModuleBody R D)) p d) := by
    first
    | rfl
    | simp only [newSym, hf.empty, hf.generalized, hf.utc, hp.value3, hp.defined2, hp.copy, newModuleIdentifier, newDefinitive, newTy, newElement, newValue, newAssignment,
    newBody, newConstraint, newSpec, newElements, newUnion, newParts, newPart, newElementss, newBound, newNamed, newComponent, newComponents, newTag, newBit, newFrom, newSymbol, newGlobal,
    newNameds, newTys, newNumber, newItem, newTys_append, newNameds_append, newComponents_append, newParts_append, newUnion_append, newElementss_append, singleElementConstraint,
    List.map_append, List.map_cons, List.map_nil, Option.map_some, Option.map_none]
  have e0 : ∀ (p : Pointers R D) (d : Nat → SymType R D) (v : SymType R D), action 24 p d v = { v with moduleBody := {} } := fun _ _ _ => rfl
  rw [e0, e0]
  exact congrArg (fun z => { newSym f g h v with moduleBody := z }) e

theorem newRule_25 : NewRule (R := R) (D := D) f g h 25 := by
  intro p p' _ d v
  have e0 : ∀ (p : Pointers R D) (d : Nat → SymType R D) (v : SymType R D), action 25 p d v = v := fun _ _ _ => rfl
  rw [e0, e0]

theorem newRule_26 : NewRule (R := R) (D := D) f g h 26 := by
  intro p p' _ d v
  have e0 : ∀ (p : Pointers R D) (d : Nat → SymType R D) (v : SymType R D), action 26 p d v = v := fun _ _ _ => rfl
  rw [e0, e0]

theorem newRule_27 : NewRule (R := R) (D := D) f g h 27 := by
  intro p p' _ d v
  have e0 : ∀ (p : Pointers R D) (d : Nat → SymType R D) (v : SymType R D), action 27 p d v = v := fun _ _ _ => rfl
  rw [e0, e0]

theorem newRule_28 : NewRule (R := R) (D := D) f g h 28 := by
  intro p p' _ d v
  have e0 : ∀ (p : Pointers R D) (d : Nat → SymType R D) (v : SymType R D), action 28 p d v = v := fun _ _ _ => rfl
  rw [e0, e0]

theorem newRule_29 : NewRule (R := R) (D := D) f g h 29 := by
  intro p p' _ d v
  have e0 : ∀ (p : Pointers R D) (d : Nat → SymType R D) (v : SymType R D), action 29 p d v = v := fun _ _ _ => rfl
  rw [e0, e0]

theorem newRule_30 (hf : Rewording f) : NewRule (R := R) (D := D) f g h 30 := by
  intro p p' hp d v
  have e : (fun (p : Pointers R D) (d : Nat → SymType R D) => ((d 2).imports : List (SymbolsFromModule R))) p' (fun i => newSym f g h (d i)) = (fun z : List (SymbolsFromModule R) => z.map (newFrom f g)) ((fun (p : Pointers R D) (d : Nat → SymType R D) => ((d 2).imports : List (SymbolsFromModule R))) p d) := by
    first
    | rfl
    | simp only [newSym, hf.empty, hf.generalized, hf.utc, hp.value3, hp.defined2, hp.copy, newModuleIdentifier, newDefinitive, newTy, newElement, newValue, newAssignment,
    newBody, newConstraint, newSpec, newElements, newUnion, newParts, newPart, newElementss, newBound, newNamed, newComponent, newComponents, newTag, newBit, newFrom, newSymbol, newGlobal,
    newNameds, newTys, newNumber, newItem, newTys_append, newNameds_append, newComponents_append, newParts_append, newUnion_append, newElementss_append, singleElementConstraint,
    List.map_append, List.map_cons, List.map_nil, Option.map_some, Option.map_none]
  have e0 : ∀ (p : Pointers R D) (d : Nat → SymType R D) (v : SymType R D), action 30 p d v = { v with imports := (d 2).imports } := fun _ _ _ => rfl
  rw [e0, e0]
  exact congrArg (fun z => { newSym f g h v with imports := z }) e

theorem newRule_31 (hf : Rewording f) : NewRule (R := R) (D := D) f g h 31 := by
  intro p p' hp d v
  have e : (fun (p : Pointers R D) (d : Nat → SymType R D) => ([] : List (SymbolsFromModule R))) p' (fun i => newSym f g h (d i)) = (fun z : List (SymbolsFromModule R) => z.map (newFrom f g)) ((fun (p : Pointers R D) (d : Nat → SymType R D) => ([] : List (SymbolsFromModule R))) p d) := by
    first
    | rfl
    | simp only [newSym, hf.empty, hf.generalized, hf.utc, hp.value3, hp.defined2, hp.copy, newModuleIdentifier, newDefinitive, newTy, newElement, newValue, newAssignment,
    newBody, newConstraint, newSpec, newElements, newUnion, newParts, newPart, newElementss, newBound, newNamed, newComponent, newComponents, newTag, newBit, newFrom, newSymbol, newGlobal,
    newNameds, newTys, newNumber, newItem, newTys_append, newNameds_append, newComponents_append, newParts_append, newUnion_append, newElementss_append, singleElementConstraint,
    List.map_append, List.map_cons, List.map_nil, Option.map_some, Option.map_none]
  have e0 : ∀ (p : Pointers R D) (d : Nat → SymType R D) (v : SymType R D), action 31 p d v = { v with imports := [] } := fun _ _ _ => rfl
  rw [e0, e0]
  exact congrArg (fun z => { newSym f g h v with imports := z }) e

theorem newRule_32 (hf : Rewording f) : NewRule (R := R) (D := D) f g h 32 := by
  intro p p' hp d v
  have e : (fun (p : Pointers R D) (d : Nat → SymType R D) => ((d 1).imports : List (SymbolsFromModule R))) p' (fun i => newSym f g h (d i)) = (fun z : List (SymbolsFromModule R) => z.map (newFrom f g)) ((fun (p : Pointers R D) (d : Nat → SymType R D) => ((d 1).imports : List (SymbolsFromModule R))) p d) := by
    first
    | rfl
    | simp only [newSym, hf.empty, hf.generalized, hf.utc, hp.value3, hp.defined2, hp.copy, newModuleIdentifier, newDefinitive, newTy, newElement, newValue, newAssignment,
    newBody, newConstraint, newSpec, newElements, newUnion, newParts, newPart, newElementss, newBound, newNamed, newComponent, newComponents, newTag, newBit, newFrom, newSymbol, newGlobal,
    newNameds, newTys, newNumber, newItem, newTys_append, newNameds_append, newComponents_append, newParts_append, newUnion_append, newElementss_append, singleElementConstraint,
    List.map_append, List.map_cons, List.map_nil, Option.map_some, Option.map_none]
  have e0 : ∀ (p : Pointers R D) (d : Nat → SymType R D) (v : SymType R D), action 32 p d v = { v with imports := (d 1).imports } := fun _ _ _ => rfl
  rw [e0, e0]
  exact congrArg (fun z => { newSym f g h v with imports := z }) e

theorem newRule_33 (hf : Rewording f) : NewRule (R := R) (D := D) f g h 33 := by
  intro p p' hp d v
  have e : (fun (p : Pointers R D) (d : Nat → SymType R D) => ([] : List (SymbolsFromModule R))) p' (fun i => newSym f g h (d i)) = (fun z : List (SymbolsFromModule R) => z.map (newFrom f g)) ((fun (p : Pointers R D) (d : Nat → SymType R D) => ([] : List (SymbolsFromModule R))) p d) := by
    first
    | rfl
    | simp only [newSym, hf.empty, hf.generalized, hf.utc, hp.value3, hp.defined2, hp.copy, newModuleIdentifier, newDefinitive, newTy, newElement, newValue, newAssignment,
    newBody, newConstraint, newSpec, newElements, newUnion, newParts, newPart, newElementss, newBound, newNamed, newComponent, newComponents, newTag, newBit, newFrom, newSymbol, newGlobal,
    newNameds, newTys, newNumber, newItem, newTys_append, newNameds_append, newComponents_append, newParts_append, newUnion_append, newElementss_append, singleElementConstraint,
    List.map_append, List.map_cons, List.map_nil, Option.map_some, Option.map_none]
  have e0 : ∀ (p : Pointers R D) (d : Nat → SymType R D) (v : SymType R D), action 33 p d v = { v with imports := [] } := fun _ _ _ => rfl
  rw [e0, e0]
  exact congrArg (fun z => { newSym f g h v with imports := z }) e

theorem newRule_34 (hf : Rewording f) : NewRule (R := R) (D := D) f g h 34 := by
  intro p p' hp d v
  have e : (fun (p : Pointers R D) (d : Nat → SymType R D) => ([(d 1).symbolsFromModule] : List (SymbolsFromModule R))) p' (fun i => newSym f g h (d i)) = (fun z : List (SymbolsFromModule R) => z.map (newFrom f g)) ((fun (p : Pointers R D) (d : Nat → SymType R D) => ([(d 1).symbolsFromModule] : List (SymbolsFromModule R))) p d) := by
    first
    | rfl
    | simp only [newSym, hf.empty, hf.generalized, hf.utc, hp.value3, hp.defined2, hp.copy, newModuleIdentifier, newDefinitive, newTy, newElement, newValue, newAssignment,
    newBody, newConstraint, newSpec, newElements, newUnion, newParts, newPart, newElementss, newBound, newNamed, newComponent, newComponents, newTag, newBit, newFrom, newSymbol, newGlobal,
    newNameds, newTys, newNumber, newItem, newTys_append, newNameds_append, newComponents_append, newParts_append, newUnion_append, newElementss_append, singleElementConstraint,
    List.map_append, List.map_cons, List.map_nil, Option.map_some, Option.map_none]
  have e0 : ∀ (p : Pointers R D) (d : Nat → SymType R D) (v : SymType R D), action 34 p d v = { v with imports := [(d 1).symbolsFromModule] } := fun _ _ _ => rfl
  rw [e0, e0]
  exact congrArg (fun z => { newSym f g h v with imports := z }) e

theorem newRule_35 (hf : Rewording f) : NewRule (R := R) (D := D) f g h 35 := by
  intro p p' hp d v
  have e : (fun (p : Pointers R D) (d : Nat → SymType R D) => ((d 1).imports ++ [(d 2).symbolsFromModule] : List (SymbolsFromModule R))) p' (fun i => newSym f g h (d i)) = (fun z : List (SymbolsFromModule R) => z.map (newFrom f g)) ((fun (p : Pointers R D) (d : Nat → SymType R D) => ((d 1).imports ++ [(d 2).symbolsFromModule] : List (SymbolsFromModule R))) p d) := by
    first
    | rfl
    | simp only [newSym, hf.empty, hf.generalized, hf.utc, hp.value3, hp.defined2, hp.copy, newModuleIdentifier, newDefinitive, newTy, newElement, newValue, newAssignment,
    newBody, newConstraint, newSpec, newElements, newUnion, newParts, newPart, newElementss, newBound, newNamed, newComponent, newComponents, newTag, newBit, newFrom, newSymbol, newGlobal,
    newNameds, newTys, newNumber, newItem, newTys_append, newNameds_append, newComponents_append, newParts_append, newUnion_append, newElementss_append, singleElementConstraint,
    List.map_append, List.map_cons, List.map_nil, Option.map_some, Option.map_none]
  have e0 : ∀ (p : Pointers R D) (d : Nat → SymType R D) (v : SymType R D), action 35 p d v = { v with imports := (d 1).imports ++ [(d 2).symbolsFromModule] } := fun _ _ _ => rfl
  rw [e0, e0]
  exact congrArg (fun z => { newSym f g h v with imports := z }) e

theorem newRule_36 (hf : Rewording f) : NewRule (R := R) (D := D) f g h 36 := by
  intro p p' hp d v
  have e : (fun (p : Pointers R D) (d : Nat → SymType R D) => (⟨(d 1).symbolList, (d 3).globalModuleReference⟩ : SymbolsFromModule R)) p' (fun i => newSym f g h (d i)) = (fun z : SymbolsFromModule R => newFrom f g z) ((fun (p : Pointers R D) (d : Nat → SymType R D) => (⟨(d 1).symbolList, (d 3).globalModuleReference⟩ : SymbolsFromModule R)) p d) := by
    first
    | rfl
    | simp only [newSym, hf.empty, hf.generalized, hf.utc, hp.value3, hp.defined2, hp.copy, newModuleIdentifier, newDefinitive, newTy, newElement, newValue, newAssignment,
    newBody, newConstraint, newSpec, newElements, newUnion, newParts, newPart, newElementss, newBound, newNamed, newComponent, newComponents, newTag, newBit, newFrom, newSymbol, newGlobal,
    newNameds, newTys, newNumber, newItem, newTys_append, newNameds_append, newComponents_append, newParts_append, newUnion_append, newElementss_append, singleElementConstraint,
    List.map_append, List.map_cons, List.map_nil, Option.map_some, Option.map_none]
  have e0 : ∀ (p : Pointers R D) (d : Nat → SymType R D) (v : SymType R D), action 36 p d v = { v with symbolsFromModule := ⟨(d 1).symbolList, (d 3).globalModuleReference⟩ } := fun _ _ _ => rfl
  rw [e0, e0]
  exact congrArg (fun z => { newSym f g h v with symbolsFromModule := z }) e

theorem newRule_37 (hf : Rewording f) : NewRule (R := R) (D := D) f g h 37 := by
  intro p p' hp d v
  have e : (fun (p : Pointers R D) (d : Nat → SymType R D) => (⟨(d 1).name, (d 2).value⟩ : GlobalModuleReference R)) p' (fun i => newSym f g h (d i)) = (fun z : GlobalModuleReference R => newGlobal f g z) ((fun (p : Pointers R D) (d : Nat → SymType R D) => (⟨(d 1).name, (d 2).value⟩ : GlobalModuleReference R)) p d) := by
    first
    | rfl
    | simp only [newSym, hf.empty, hf.generalized, hf.utc, hp.value3, hp.defined2, hp.copy, newModuleIdentifier, newDefinitive, newTy, newElement, newValue, newAssignment,
    newBody, newConstraint, newSpec, newElements, newUnion, newParts, newPart, newElementss, newBound, newNamed, newComponent, newComponents, newTag, newBit, newFrom, newSymbol, newGlobal,
    newNameds, newTys, newNumber, newItem, newTys_append, newNameds_append, newComponents_append, newParts_append, newUnion_append, newElementss_append, singleElementConstraint,
    List.map_append, List.map_cons, List.map_nil, Option.map_some, Option.map_none]
  have e0 : ∀ (p : Pointers R D) (d : Nat → SymType R D) (v : SymType R D), action 37 p d v = { v with globalModuleReference := ⟨(d 1).name, (d 2).value⟩ } := fun _ _ _ => rfl
  rw [e0, e0]
  exact congrArg (fun z => { newSym f g h v with globalModuleReference := z }) e

theorem newRule_38 (hf : Rewording f) : NewRule (R := R) (D := D) f g h 38 := by
  intro p p' hp d v
  have e : (fun (p : Pointers R D) (d : Nat → SymType R D) => (.objectIdentifier (d 1).objectIdentifierValue : Value R)) p' (fun i => newSym f g h (d i)) = (fun z : Value R => newValue f g z) ((fun (p : Pointers R D) (d : Nat → SymType R D) => (.objectIdentifier (d 1).objectIdentifierValue : Value R)) p d) := by
    first
    | rfl
    | simp only [newSym, hf.empty, hf.generalized, hf.utc, hp.value3, hp.defined2, hp.copy, newModuleIdentifier, newDefinitive, newTy, newElement, newValue, newAssignment,
    newBody, newConstraint, newSpec, newElements, newUnion, newParts, newPart, newElementss, newBound, newNamed, newComponent, newComponents, newTag, newBit, newFrom, newSymbol, newGlobal,
    newNameds, newTys, newNumber, newItem, newTys_append, newNameds_append, newComponents_append, newParts_append, newUnion_append, newElementss_append, singleElementConstraint,
    List.map_append, List.map_cons, List.map_nil, Option.map_some, Option.map_none]
  have e0 : ∀ (p : Pointers R D) (d : Nat → SymType R D) (v : SymType R D), action 38 p d v = { v with value := .objectIdentifier (d 1).objectIdentifierValue } := fun _ _ _ => rfl
  rw [e0, e0]
  exact congrArg (fun z => { newSym f g h v with value := z }) e

theorem newRule_39 (hf : Rewording f) : NewRule (R := R) (D := D) f g h 39 := by
  intro p p' hp d v
  have e : (fun (p : Pointers R D) (d : Nat → SymType R D) => (.defined (d 1).definedValue : Value R)) p' (fun i => newSym f g h (d i)) = (fun z : Value R => newValue f g z) ((fun (p : Pointers R D) (d : Nat → SymType R D) => (.defined (d 1).definedValue : Value R)) p d) := by
    first
    | rfl
    | simp only [newSym, hf.empty, hf.generalized, hf.utc, hp.value3, hp.defined2, hp.copy, newModuleIdentifier, newDefinitive, newTy, newElement, newValue, newAssignment,
    newBody, newConstraint, newSpec, newElements, newUnion, newParts, newPart, newElementss, newBound, newNamed, newComponent, newComponents, newTag, newBit, newFrom, newSymbol, newGlobal,
    newNameds, newTys, newNumber, newItem, newTys_append, newNameds_append, newComponents_append, newParts_append, newUnion_append, newElementss_append, singleElementConstraint,
    List.map_append, List.map_cons, List.map_nil, Option.map_some, Option.map_none]
  have e0 : ∀ (p : Pointers R D) (d : Nat → SymType R D) (v : SymType R D), action 39 p d v = { v with value := .defined (d 1).definedValue } := fun _ _ _ => rfl
  rw [e0, e0]
  exact congrArg (fun z => { newSym f g h v with value := z }) e

theorem newRule_40 (hf : Rewording f) : NewRule (R := R) (D := D) f g h 40 := by
  intro p p' hp d v
  have e : (fun (p : Pointers R D) (d : Nat → SymType R D) => (.nil : Value R)) p' (fun i => newSym f g h (d i)) = (fun z : Value R => newValue f g z) ((fun (p : Pointers R D) (d : Nat → SymType R D) => (.nil : Value R)) p d) := by
    first
    | rfl
    | simp only [newSym, hf.empty, hf.generalized, hf.utc, hp.value3, hp.defined2, hp.copy, newModuleIdentifier, newDefinitive, newTy, newElement, newValue, newAssignment,
    newBody, newConstraint, newSpec, newElements, newUnion, newParts, newPart, newElementss, newBound, newNamed, newComponent, newComponents, newTag, newBit, newFrom, newSymbol, newGlobal,
    newNameds, newTys, newNumber, newItem, newTys_append, newNameds_append, newComponents_append, newParts_append, newUnion_append, newElementss_append, singleElementConstraint,
    List.map_append, List.map_cons, List.map_nil, Option.map_some, Option.map_none]
  have e0 : ∀ (p : Pointers R D) (d : Nat → SymType R D) (v : SymType R D), action 40 p d v = { v with value := .nil } := fun _ _ _ => rfl
  rw [e0, e0]
  exact congrArg (fun z => { newSym f g h v with value := z }) e

theorem newRule_41 (hf : Rewording f) : NewRule (R := R) (D := D) f g h 41 := by
  intro p p' hp d v
  have e : (fun (p : Pointers R D) (d : Nat → SymType R D) => ([(d 1).symbol] : List Symbol)) p' (fun i => newSym f g h (d i)) = (fun z : List Symbol => z.map (newSymbol f)) ((fun (p : Pointers R D) (d : Nat → SymType R D) => ([(d 1).symbol] : List Symbol)) p d) := by
    first
    | rfl
    | simp only [newSym, hf.empty, hf.generalized, hf.utc, hp.value3, hp.defined2, hp.copy, newModuleIdentifier, newDefinitive, newTy, newElement, newValue, newAssignment,
    newBody, newConstraint, newSpec, newElements, newUnion, newParts, newPart, newElementss, newBound, newNamed, newComponent, newComponents, newTag, newBit, newFrom, newSymbol, newGlobal,
    newNameds, newTys, newNumber, newItem, newTys_append, newNameds_append, newComponents_append, newParts_append, newUnion_append, newElementss_append, singleElementConstraint,
    List.map_append, List.map_cons, List.map_nil, Option.map_some, Option.map_none]
  have e0 : ∀ (p : Pointers R D) (d : Nat → SymType R D) (v : SymType R D), action 41 p d v = { v with symbolList := [(d 1).symbol] } := fun _ _ _ => rfl
  rw [e0, e0]
  exact congrArg (fun z => { newSym f g h v with symbolList := z }) e

theorem newRule_42 (hf : Rewording f) : NewRule (R := R) (D := D) f g h 42 := by
  intro p p' hp d v
  have e : (fun (p : Pointers R D) (d : Nat → SymType R D) => ((d 1).symbolList ++ [(d 3).symbol] : List Symbol)) p' (fun i => newSym f g h (d i)) = (fun z : List Symbol => z.map (newSymbol f)) ((fun (p : Pointers R D) (d : Nat → SymType R D) => ((d 1).symbolList ++ [(d 3).symbol] : List Symbol)) p d) := by
    first
    | rfl
    | simp only [newSym, hf.empty, hf.generalized, hf.utc, hp.value3, hp.defined2, hp.copy, newModuleIdentifier, newDefinitive, newTy, newElement, newValue, newAssignment,
    newBody, newConstraint, newSpec, newElements, newUnion, newParts, newPart, newElementss, newBound, newNamed, newComponent, newComponents, newTag, newBit, newFrom, newSymbol, newGlobal,
    newNameds, newTys, newNumber, newItem, newTys_append, newNameds_append, newComponents_append, newParts_append, newUnion_append, newElementss_append, singleElementConstraint,
    List.map_append, List.map_cons, List.map_nil, Option.map_some, Option.map_none]
  have e0 : ∀ (p : Pointers R D) (d : Nat → SymType R D) (v : SymType R D), action 42 p d v = { v with symbolList := (d 1).symbolList ++ [(d 3).symbol] } := fun _ _ _ => rfl
  rw [e0, e0]
  exact congrArg (fun z => { newSym f g h v with symbolList := z }) e

theorem newRule_43 : NewRule (R := R) (D := D) f g h 43 := by
  intro p p' _ d v
  have e0 : ∀ (p : Pointers R D) (d : Nat → SymType R D) (v : SymType R D), action 43 p d v = v := fun _ _ _ => rfl
  rw [e0, e0]

theorem newRule_44 (hf : Rewording f) : NewRule (R := R) (D := D) f g h 44 := by
  intro p p' hp d v
  have e : (fun (p : Pointers R D) (d : Nat → SymType R D) => (.typeReference (d 1).typeReference : Symbol)) p' (fun i => newSym f g h (d i)) = (fun z : Symbol => newSymbol f z) ((fun (p : Pointers R D) (d : Nat → SymType R D) => (.typeReference (d 1).typeReference : Symbol)) p d) := by
    first
    | rfl
    | simp only [newSym, hf.empty, hf.generalized, hf.utc, hp.value3, hp.defined2, hp.copy, newModuleIdentifier, newDefinitive, newTy, newElement, newValue, newAssignment,
    newBody, newConstraint, newSpec, newElements, newUnion, newParts, newPart, newElementss, newBound, newNamed, newComponent, newComponents, newTag, newBit, newFrom, newSymbol, newGlobal,
    newNameds, newTys, newNumber, newItem, newTys_append, newNameds_append, newComponents_append, newParts_append, newUnion_append, newElementss_append, singleElementConstraint,
    List.map_append, List.map_cons, List.map_nil, Option.map_some, Option.map_none]
  have e0 : ∀ (p : Pointers R D) (d : Nat → SymType R D) (v : SymType R D), action 44 p d v = { v with symbol := .typeReference (d 1).typeReference } := fun _ _ _ => rfl
  rw [e0, e0]
  exact congrArg (fun z => { newSym f g h v with symbol := z }) e

theorem newRule_45 (hf : Rewording f) : NewRule (R := R) (D := D) f g h 45 := by
  intro p p' hp d v
  have e : (fun (p : Pointers R D) (d : Nat → SymType R D) => (.moduleReference (d 1).name : Symbol)) p' (fun i => newSym f g h (d i)) = (fun z : Symbol => newSymbol f z) ((fun (p : Pointers R D) (d : Nat → SymType R D) => (.moduleReference (d 1).name : Symbol)) p d) := by
    first
    | rfl
    | simp only [newSym, hf.empty, hf.generalized, hf.utc, hp.value3, hp.defined2, hp.copy, newModuleIdentifier, newDefinitive, newTy, newElement, newValue, newAssignment,
    newBody, newConstraint, newSpec, newElements, newUnion, newParts, newPart, newElementss, newBound, newNamed, newComponent, newComponents, newTag, newBit, newFrom, newSymbol, newGlobal,
    newNameds, newTys, newNumber, newItem, newTys_append, newNameds_append, newComponents_append, newParts_append, newUnion_append, newElementss_append, singleElementConstraint,
    List.map_append, List.map_cons, List.map_nil, Option.map_some, Option.map_none]
  have e0 : ∀ (p : Pointers R D) (d : Nat → SymType R D) (v : SymType R D), action 45 p d v = { v with symbol := .moduleReference (d 1).name } := fun _ _ _ => rfl
  rw [e0, e0]
  exact congrArg (fun z => { newSym f g h v with symbol := z }) e

theorem newRule_46 (hf : Rewording f) : NewRule (R := R) (D := D) f g h 46 := by
  intro p p' hp d v
  have e : (fun (p : Pointers R D) (d : Nat → SymType R D) => (.valueReference (d 1).valueReference : Symbol)) p' (fun i => newSym f g h (d i)) = (fun z : Symbol => newSymbol f z) ((fun (p : Pointers R D) (d : Nat → SymType R D) => (.valueReference (d 1).valueReference : Symbol)) p d) := by
    first
    | rfl
    | simp only [newSym, hf.empty, hf.generalized, hf.utc, hp.value3, hp.defined2, hp.copy, newModuleIdentifier, newDefinitive, newTy, newElement, newValue, newAssignment,
    newBody, newConstraint, newSpec, newElements, newUnion, newParts, newPart, newElementss, newBound, newNamed, newComponent, newComponents, newTag, newBit, newFrom, newSymbol, newGlobal,
    newNameds, newTys, newNumber, newItem, newTys_append, newNameds_append, newComponents_append, newParts_append, newUnion_append, newElementss_append, singleElementConstraint,
    List.map_append, List.map_cons, List.map_nil, Option.map_some, Option.map_none]
  have e0 : ∀ (p : Pointers R D) (d : Nat → SymType R D) (v : SymType R D), action 46 p d v = { v with symbol := .valueReference (d 1).valueReference } := fun _ _ _ => rfl
  rw [e0, e0]
  exact congrArg (fun z => { newSym f g h v with symbol := z }) e

theorem newRule_47 (hf : Rewording f) : NewRule (R := R) (D := D) f g h 47 := by
  intro p p' hp d v
  have e : (fun (p : Pointers R D) (d : Nat → SymType R D) => ([(d 1).assignment] : List (Assignment R D))) p' (fun i => newSym f g h (d i)) = (fun z : List (Assignment R D) => z.map (newAssignment f g h)) ((fun (p : Pointers R D) (d : Nat → SymType R D) => ([(d 1).assignment] : List (Assignment R D))) p d) := by
    first
    | rfl
    | simp only [newSym, hf.empty, hf.generalized, hf.utc, hp.value3, hp.defined2, hp.copy, newModuleIdentifier, newDefinitive, newTy, newElement, newValue, newAssignment,
    newBody, newConstraint, newSpec, newElements, newUnion, newParts, newPart, newElementss, newBound, newNamed, newComponent, newComponents, newTag, newBit, newFrom, newSymbol, newGlobal,
    newNameds, newTys, newNumber, newItem, newTys_append, newNameds_append, newComponents_append, newParts_append, newUnion_append, newElementss_append, singleElementConstraint,
    List.map_append, List.map_cons, List.map_nil, Option.map_some, Option.map_none]
  have e0 : ∀ (p : Pointers R D) (d : Nat → SymType R D) (v : SymType R D), action 47 p d v = { v with assignmentList := [(d 1).assignment] } := fun _ _ _ => rfl
  rw [e0, e0]
  exact congrArg (fun z => { newSym f g h v with assignmentList := z }) e

theorem newRule_48 (hf : Rewording f) : NewRule (R := R) (D := D) f g h 48 := by
  intro p p' hp d v
  have e : (fun (p : Pointers R D) (d : Nat → SymType R D) => ((d 1).assignmentList ++ [(d 2).assignment] : List (Assignment R D))) p' (fun i => newSym f g h (d i)) = (fun z : List (Assignment R D) => z.map (newAssignment f g h)) ((fun (p : Pointers R D) (d : Nat → SymType R D) => ((d 1).assignmentList ++ [(d 2).assignment] : List (Assignment R D))) p d) := by
    first
    | rfl
    | simp only [newSym, hf.empty, hf.generalized, hf.utc, hp.value3, hp.defined2, hp.copy, newModuleIdentifier, newDefinitive, newTy, newElement, newValue, newAssignment,
    newBody, newConstraint, newSpec, newElements, newUnion, newParts, newPart, newElementss, newBound, newNamed, newComponent, newComponents, newTag, newBit, newFrom, newSymbol, newGlobal,
    newNameds, newTys, newNumber, newItem, newTys_append, newNameds_append, newComponents_append, newParts_append, newUnion_append, newElementss_append, singleElementConstraint,
    List.map_append, List.map_cons, List.map_nil, Option.map_some, Option.map_none]
  have e0 : ∀ (p : Pointers R D) (d : Nat → SymType R D) (v : SymType R D), action 48 p d v = { v with assignmentList := (d 1).assignmentList ++ [(d 2).assignment] } := fun _ _ _ => rfl
  rw [e0, e0]
  exact congrArg (fun z => { newSym f g h v with assignmentList := z }) e

theorem newRule_49 : NewRule (R := R) (D := D) f g h 49 := by
  intro p p' _ d v
  have e0 : ∀ (p : Pointers R D) (d : Nat → SymType R D) (v : SymType R D), action 49 p d v = v := fun _ _ _ => rfl
  rw [e0, e0]

theorem newRule_50 : NewRule (R := R) (D := D) f g h 50 := by
  intro p p' _ d v
  have e0 : ∀ (p : Pointers R D) (d : Nat → SymType R D) (v : SymType R D), action 50 p d v = v := fun _ _ _ => rfl
  rw [e0, e0]

theorem newRule_51 (hf : Rewording f) : NewRule (R := R) (D := D) f g h 51 := by
  intro p p' hp d v
  have e : (fun (p : Pointers R D) (d : Nat → SymType R D) => (.ref (d 1).typeReference : Ty R D)) p' (fun i => newSym f g h (d i)) = (fun z : Ty R D => newTy f g h z) ((fun (p : Pointers R D) (d : Nat → SymType R D) => (.ref (d 1).typeReference : Ty R D)) p d) := by
    first
    | rfl
    | simp only [newSym, hf.empty, hf.generalized, hf.utc, hp.value3, hp.defined2, hp.copy, newModuleIdentifier, newDefinitive, newTy, newElement, newValue, newAssignment,
    newBody, newConstraint, newSpec, newElements, newUnion, newParts, newPart, newElementss, newBound, newNamed, newComponent, newComponents, newTag, newBit, newFrom, newSymbol, newGlobal,
    newNameds, newTys, newNumber, newItem, newTys_append, newNameds_append, newComponents_append, newParts_append, newUnion_append, newElementss_append, singleElementConstraint,
    List.map_append, List.map_cons, List.map_nil, Option.map_some, Option.map_none]
  have e0 : ∀ (p : Pointers R D) (d : Nat → SymType R D) (v : SymType R D), action 51 p d v = { v with type := .ref (d 1).typeReference } := fun _ _ _ => rfl
  rw [e0, e0]
  exact congrArg (fun z => { newSym f g h v with type := z }) e

theorem newRule_52 (hf : Rewording f) : NewRule (R := R) (D := D) f g h 52 := by
  intro p p' hp d v
  have e : (fun (p : Pointers R D) (d : Nat → SymType R D) => (⟨(d 1).name, (d 3).valueReference⟩ : DefinedValue)) p' (fun i => newSym f g h (d i)) = (fun z : DefinedValue => newDefined f z) ((fun (p : Pointers R D) (d : Nat → SymType R D) => (⟨(d 1).name, (d 3).valueReference⟩ : DefinedValue)) p d) := by
    first
    | rfl
    | simp only [newSym, hf.empty, hf.generalized, hf.utc, hp.value3, hp.defined2, hp.copy, newModuleIdentifier, newDefinitive, newTy, newElement, newValue, newAssignment,
    newBody, newConstraint, newSpec, newElements, newUnion, newParts, newPart, newElementss, newBound, newNamed, newComponent, newComponents, newTag, newBit, newFrom, newSymbol, newGlobal,
    newNameds, newTys, newNumber, newItem, newTys_append, newNameds_append, newComponents_append, newParts_append, newUnion_append, newElementss_append, singleElementConstraint,
    List.map_append, List.map_cons, List.map_nil, Option.map_some, Option.map_none, newDefined]
  have e0 : ∀ (p : Pointers R D) (d : Nat → SymType R D) (v : SymType R D), action 52 p d v = { v with definedValue := ⟨(d 1).name, (d 3).valueReference⟩ } := fun _ _ _ => rfl
  rw [e0, e0]
  exact congrArg (fun z => { newSym f g h v with definedValue := z }) e

theorem newRule_53 (hf : Rewording f) : NewRule (R := R) (D := D) f g h 53 := by
  intro p p' hp d v
  have e : (fun (p : Pointers R D) (d : Nat → SymType R D) => ({ valueName := (d 1).valueReference } : DefinedValue)) p' (fun i => newSym f g h (d i)) = (fun z : DefinedValue => newDefined f z) ((fun (p : Pointers R D) (d : Nat → SymType R D) => ({ valueName := (d 1).valueReference } : DefinedValue)) p d) := by
    first
    | rfl
    | simp only [newSym, hf.empty, hf.generalized, hf.utc, hp.value3, hp.defined2, hp.copy, newModuleIdentifier, newDefinitive, newTy, newElement, newValue, newAssignment,
    newBody, newConstraint, newSpec, newElements, newUnion, newParts, newPart, newElementss, newBound, newNamed, newComponent, newComponents, newTag, newBit, newFrom, newSymbol, newGlobal,
    newNameds, newTys, newNumber, newItem, newTys_append, newNameds_append, newComponents_append, newParts_append, newUnion_append, newElementss_append, singleElementConstraint,
    List.map_append, List.map_cons, List.map_nil, Option.map_some, Option.map_none, newDefined]
  have e0 : ∀ (p : Pointers R D) (d : Nat → SymType R D) (v : SymType R D), action 53 p d v = { v with definedValue := { valueName := (d 1).valueReference } } := fun _ _ _ => rfl
  rw [e0, e0]
  exact congrArg (fun z => { newSym f g h v with definedValue := z }) e

theorem newRule_54 (hf : Rewording f) : NewRule (R := R) (D := D) f g h 54 := by
  intro p p' hp d v
  have e : (fun (p : Pointers R D) (d : Nat → SymType R D) => (.type (d 1).typeReference (d 3).type : Assignment R D)) p' (fun i => newSym f g h (d i)) = (fun z : Assignment R D => newAssignment f g h z) ((fun (p : Pointers R D) (d : Nat → SymType R D) => (.type (d 1).typeReference (d 3).type : Assignment R D)) p d) := by
    first
    | rfl
    | simp only [newSym, hf.empty, hf.generalized, hf.utc, hp.value3, hp.defined2, hp.copy, newModuleIdentifier, newDefinitive, newTy, newElement, newValue, newAssignment,
    newBody, newConstraint, newSpec, newElements, newUnion, newParts, newPart, newElementss, newBound, newNamed, newComponent, newComponents, newTag, newBit, newFrom, newSymbol, newGlobal,
    newNameds, newTys, newNumber, newItem, newTys_append, newNameds_append, newComponents_append, newParts_append, newUnion_append, newElementss_append, singleElementConstraint,
    List.map_append, List.map_cons, List.map_nil, Option.map_some, Option.map_none]
  have e0 : ∀ (p : Pointers R D) (d : Nat → SymType R D) (v : SymType R D), action 54 p d v = { v with assignment := .type (d 1).typeReference (d 3).type } := fun _ _ _ => rfl
  rw [e0, e0]
  exact congrArg (fun z => { newSym f g h v with assignment := z }) e

theorem newRule_55 (hf : Rewording f) : NewRule (R := R) (D := D) f g h 55 := by
  intro p p' hp d v
  have e : (fun (p : Pointers R D) (d : Nat → SymType R D) => (.value (d 1).valueReference (d 2).type (d 4).value : Assignment R D)) p' (fun i => newSym f g h (d i)) = (fun z : Assignment R D => newAssignment f g h z) ((fun (p : Pointers R D) (d : Nat → SymType R D) => (.value (d 1).valueReference (d 2).type (d 4).value : Assignment R D)) p d) := by
    first
    | rfl
    | simp only [newSym, hf.empty, hf.generalized, hf.utc, hp.value3, hp.defined2, hp.copy, newModuleIdentifier, newDefinitive, newTy, newElement, newValue, newAssignment,
    newBody, newConstraint, newSpec, newElements, newUnion, newParts, newPart, newElementss, newBound, newNamed, newComponent, newComponents, newTag, newBit, newFrom, newSymbol, newGlobal,
    newNameds, newTys, newNumber, newItem, newTys_append, newNameds_append, newComponents_append, newParts_append, newUnion_append, newElementss_append, singleElementConstraint,
    List.map_append, List.map_cons, List.map_nil, Option.map_some, Option.map_none]
  have e0 : ∀ (p : Pointers R D) (d : Nat → SymType R D) (v : SymType R D), action 55 p d v = { v with assignment := .value (d 1).valueReference (d 2).type (d 4).value } := fun _ _ _ => rfl
  rw [e0, e0]
  exact congrArg (fun z => { newSym f g h v with assignment := z }) e

theorem newRule_56 : NewRule (R := R) (D := D) f g h 56 := by
  intro p p' _ d v
  have e0 : ∀ (p : Pointers R D) (d : Nat → SymType R D) (v : SymType R D), action 56 p d v = v := fun _ _ _ => rfl
  rw [e0, e0]

theorem newRule_57 : NewRule (R := R) (D := D) f g h 57 := by
  intro p p' _ d v
  have e0 : ∀ (p : Pointers R D) (d : Nat → SymType R D) (v : SymType R D), action 57 p d v = v := fun _ _ _ => rfl
  rw [e0, e0]

theorem newRule_58 : NewRule (R := R) (D := D) f g h 58 := by
  intro p p' _ d v
  have e0 : ∀ (p : Pointers R D) (d : Nat → SymType R D) (v : SymType R D), action 58 p d v = v := fun _ _ _ => rfl
  rw [e0, e0]

theorem newRule_59 : NewRule (R := R) (D := D) f g h 59 := by
  intro p p' _ d v
  have e0 : ∀ (p : Pointers R D) (d : Nat → SymType R D) (v : SymType R D), action 59 p d v = v := fun _ _ _ => rfl
  rw [e0, e0]

theorem newRule_60 : NewRule (R := R) (D := D) f g h 60 := by
  intro p p' _ d v
  have e0 : ∀ (p : Pointers R D) (d : Nat → SymType R D) (v : SymType R D), action 60 p d v = v := fun _ _ _ => rfl
  rw [e0, e0]

theorem newRule_61 : NewRule (R := R) (D := D) f g h 61 := by
  intro p p' _ d v
  have e0 : ∀ (p : Pointers R D) (d : Nat → SymType R D) (v : SymType R D), action 61 p d v = v := fun _ _ _ => rfl
  rw [e0, e0]

theorem newRule_62 : NewRule (R := R) (D := D) f g h 62 := by
  intro p p' _ d v
  have e0 : ∀ (p : Pointers R D) (d : Nat → SymType R D) (v : SymType R D), action 62 p d v = v := fun _ _ _ => rfl
  rw [e0, e0]

theorem newRule_63 : NewRule (R := R) (D := D) f g h 63 := by
  intro p p' _ d v
  have e0 : ∀ (p : Pointers R D) (d : Nat → SymType R D) (v : SymType R D), action 63 p d v = v := fun _ _ _ => rfl
  rw [e0, e0]

theorem newRule_64 : NewRule (R := R) (D := D) f g h 64 := by
  intro p p' _ d v
  have e0 : ∀ (p : Pointers R D) (d : Nat → SymType R D) (v : SymType R D), action 64 p d v = v := fun _ _ _ => rfl
  rw [e0, e0]

theorem newRule_65 : NewRule (R := R) (D := D) f g h 65 := by
  intro p p' _ d v
  have e0 : ∀ (p : Pointers R D) (d : Nat → SymType R D) (v : SymType R D), action 65 p d v = v := fun _ _ _ => rfl
  rw [e0, e0]

theorem newRule_66 : NewRule (R := R) (D := D) f g h 66 := by
  intro p p' _ d v
  have e0 : ∀ (p : Pointers R D) (d : Nat → SymType R D) (v : SymType R D), action 66 p d v = v := fun _ _ _ => rfl
  rw [e0, e0]

theorem newRule_67 : NewRule (R := R) (D := D) f g h 67 := by
  intro p p' _ d v
  have e0 : ∀ (p : Pointers R D) (d : Nat → SymType R D) (v : SymType R D), action 67 p d v = v := fun _ _ _ => rfl
  rw [e0, e0]

theorem newRule_68 : NewRule (R := R) (D := D) f g h 68 := by
  intro p p' _ d v
  have e0 : ∀ (p : Pointers R D) (d : Nat → SymType R D) (v : SymType R D), action 68 p d v = v := fun _ _ _ => rfl
  rw [e0, e0]

theorem newRule_69 : NewRule (R := R) (D := D) f g h 69 := by
  intro p p' _ d v
  have e0 : ∀ (p : Pointers R D) (d : Nat → SymType R D) (v : SymType R D), action 69 p d v = v := fun _ _ _ => rfl
  rw [e0, e0]

theorem newRule_70 : NewRule (R := R) (D := D) f g h 70 := by
  intro p p' _ d v
  have e0 : ∀ (p : Pointers R D) (d : Nat → SymType R D) (v : SymType R D), action 70 p d v = v := fun _ _ _ => rfl
  rw [e0, e0]

theorem newRule_71 : NewRule (R := R) (D := D) f g h 71 := by
  intro p p' _ d v
  have e0 : ∀ (p : Pointers R D) (d : Nat → SymType R D) (v : SymType R D), action 71 p d v = v := fun _ _ _ => rfl
  rw [e0, e0]

theorem newRule_72 : NewRule (R := R) (D := D) f g h 72 := by
  intro p p' _ d v
  have e0 : ∀ (p : Pointers R D) (d : Nat → SymType R D) (v : SymType R D), action 72 p d v = v := fun _ _ _ => rfl
  rw [e0, e0]

theorem newRule_73 : NewRule (R := R) (D := D) f g h 73 := by
  intro p p' _ d v
  have e0 : ∀ (p : Pointers R D) (d : Nat → SymType R D) (v : SymType R D), action 73 p d v = v := fun _ _ _ => rfl
  rw [e0, e0]

theorem newRule_74 : NewRule (R := R) (D := D) f g h 74 := by
  intro p p' _ d v
  have e0 : ∀ (p : Pointers R D) (d : Nat → SymType R D) (v : SymType R D), action 74 p d v = v := fun _ _ _ => rfl
  rw [e0, e0]

theorem newRule_75 : NewRule (R := R) (D := D) f g h 75 := by
  intro p p' _ d v
  have e0 : ∀ (p : Pointers R D) (d : Nat → SymType R D) (v : SymType R D), action 75 p d v = v := fun _ _ _ => rfl
  rw [e0, e0]

theorem newRule_76 : NewRule (R := R) (D := D) f g h 76 := by
  intro p p' _ d v
  have e0 : ∀ (p : Pointers R D) (d : Nat → SymType R D) (v : SymType R D), action 76 p d v = v := fun _ _ _ => rfl
  rw [e0, e0]

theorem newRule_77 (hf : Rewording f) : NewRule (R := R) (D := D) f g h 77 := by
  intro p p' hp d v
  have e : (fun (p : Pointers R D) (d : Nat → SymType R D) => (.mk (d 1).name (d 2).type : NamedType R D)) p' (fun i => newSym f g h (d i)) = (fun z : NamedType R D => newNamed f g h z) ((fun (p : Pointers R D) (d : Nat → SymType R D) => (.mk (d 1).name (d 2).type : NamedType R D)) p d) := by
    first
    | rfl
    | simp only [newSym, hf.empty, hf.generalized, hf.utc, hp.value3, hp.defined2, hp.copy, newModuleIdentifier, newDefinitive, newTy, newElement, newValue, newAssignment,
    newBody, newConstraint, newSpec, newElements, newUnion, newParts, newPart, newElementss, newBound, newNamed, newComponent, newComponents, newTag, newBit, newFrom, newSymbol, newGlobal,
    newNameds, newTys, newNumber, newItem, newTys_append, newNameds_append, newComponents_append, newParts_append, newUnion_append, newElementss_append, singleElementConstraint,
    List.map_append, List.map_cons, List.map_nil, Option.map_some, Option.map_none]
  have e0 : ∀ (p : Pointers R D) (d : Nat → SymType R D) (v : SymType R D), action 77 p d v = { v with namedType := .mk (d 1).name (d 2).type } := fun _ _ _ => rfl
  rw [e0, e0]
  exact congrArg (fun z => { newSym f g h v with namedType := z }) e

theorem newRule_78 : NewRule (R := R) (D := D) f g h 78 := by
  intro p p' _ d v
  have e0 : ∀ (p : Pointers R D) (d : Nat → SymType R D) (v : SymType R D), action 78 p d v = v := fun _ _ _ => rfl
  rw [e0, e0]

theorem newRule_79 : NewRule (R := R) (D := D) f g h 79 := by
  intro p p' _ d v
  have e0 : ∀ (p : Pointers R D) (d : Nat → SymType R D) (v : SymType R D), action 79 p d v = v := fun _ _ _ => rfl
  rw [e0, e0]

theorem newRule_80 : NewRule (R := R) (D := D) f g h 80 := by
  intro p p' _ d v
  have e0 : ∀ (p : Pointers R D) (d : Nat → SymType R D) (v : SymType R D), action 80 p d v = v := fun _ _ _ => rfl
  rw [e0, e0]

theorem newRule_81 (hf : Rewording f) : NewRule (R := R) (D := D) f g h 81 := by
  intro p p' hp d v
  have e : (fun (p : Pointers R D) (d : Nat → SymType R D) => (.objectIdentifier (d 1).objectIdentifierValue : Value R)) p' (fun i => newSym f g h (d i)) = (fun z : Value R => newValue f g z) ((fun (p : Pointers R D) (d : Nat → SymType R D) => (.objectIdentifier (d 1).objectIdentifierValue : Value R)) p d) := by
    first
    | rfl
    | simp only [newSym, hf.empty, hf.generalized, hf.utc, hp.value3, hp.defined2, hp.copy, newModuleIdentifier, newDefinitive, newTy, newElement, newValue, newAssignment,
    newBody, newConstraint, newSpec, newElements, newUnion, newParts, newPart, newElementss, newBound, newNamed, newComponent, newComponents, newTag, newBit, newFrom, newSymbol, newGlobal,
    newNameds, newTys, newNumber, newItem, newTys_append, newNameds_append, newComponents_append, newParts_append, newUnion_append, newElementss_append, singleElementConstraint,
    List.map_append, List.map_cons, List.map_nil, Option.map_some, Option.map_none]
  have e0 : ∀ (p : Pointers R D) (d : Nat → SymType R D) (v : SymType R D), action 81 p d v = { v with value := .objectIdentifier (d 1).objectIdentifierValue } := fun _ _ _ => rfl
  rw [e0, e0]
  exact congrArg (fun z => { newSym f g h v with value := z }) e

theorem newRule_82 : NewRule (R := R) (D := D) f g h 82 := by
  intro p p' _ d v
  have e0 : ∀ (p : Pointers R D) (d : Nat → SymType R D) (v : SymType R D), action 82 p d v = v := fun _ _ _ => rfl
  rw [e0, e0]

theorem newRule_83 (hf : Rewording f) : NewRule (R := R) (D := D) f g h 83 := by
  intro p p' hp d v
  have e : (fun (p : Pointers R D) (d : Nat → SymType R D) => (.boolean : Ty R D)) p' (fun i => newSym f g h (d i)) = (fun z : Ty R D => newTy f g h z) ((fun (p : Pointers R D) (d : Nat → SymType R D) => (.boolean : Ty R D)) p d) := by
    first
    | rfl
    | simp only [newSym, hf.empty, hf.generalized, hf.utc, hp.value3, hp.defined2, hp.copy, newModuleIdentifier, newDefinitive, newTy, newElement, newValue, newAssignment,
    newBody, newConstraint, newSpec, newElements, newUnion, newParts, newPart, newElementss, newBound, newNamed, newComponent, newComponents, newTag, newBit, newFrom, newSymbol, newGlobal,
    newNameds, newTys, newNumber, newItem, newTys_append, newNameds_append, newComponents_append, newParts_append, newUnion_append, newElementss_append, singleElementConstraint,
    List.map_append, List.map_cons, List.map_nil, Option.map_some, Option.map_none]
  have e0 : ∀ (p : Pointers R D) (d : Nat → SymType R D) (v : SymType R D), action 83 p d v = { v with type := .boolean } := fun _ _ _ => rfl
  rw [e0, e0]
  exact congrArg (fun z => { newSym f g h v with type := z }) e

theorem newRule_84 (hf : Rewording f) : NewRule (R := R) (D := D) f g h 84 := by
  intro p p' hp d v
  have e : (fun (p : Pointers R D) (d : Nat → SymType R D) => (.boolean true : Value R)) p' (fun i => newSym f g h (d i)) = (fun z : Value R => newValue f g z) ((fun (p : Pointers R D) (d : Nat → SymType R D) => (.boolean true : Value R)) p d) := by
    first
    | rfl
    | simp only [newSym, hf.empty, hf.generalized, hf.utc, hp.value3, hp.defined2, hp.copy, newModuleIdentifier, newDefinitive, newTy, newElement, newValue, newAssignment,
    newBody, newConstraint, newSpec, newElements, newUnion, newParts, newPart, newElementss, newBound, newNamed, newComponent, newComponents, newTag, newBit, newFrom, newSymbol, newGlobal,
    newNameds, newTys, newNumber, newItem, newTys_append, newNameds_append, newComponents_append, newParts_append, newUnion_append, newElementss_append, singleElementConstraint,
    List.map_append, List.map_cons, List.map_nil, Option.map_some, Option.map_none]
  have e0 : ∀ (p : Pointers R D) (d : Nat → SymType R D) (v : SymType R D), action 84 p d v = { v with value := .boolean true } := fun _ _ _ => rfl
  rw [e0, e0]
  exact congrArg (fun z => { newSym f g h v with value := z }) e

theorem newRule_85 (hf : Rewording f) : NewRule (R := R) (D := D) f g h 85 := by
  intro p p' hp d v
  have e : (fun (p : Pointers R D) (d : Nat → SymType R D) => (.boolean false : Value R)) p' (fun i => newSym f g h (d i)) = (fun z : Value R => newValue f g z) ((fun (p : Pointers R D) (d : Nat → SymType R D) => (.boolean false : Value R)) p d) := by
    first
    | rfl
    | simp only [newSym, hf.empty, hf.generalized, hf.utc, hp.value3, hp.defined2, hp.copy, newModuleIdentifier, newDefinitive, newTy, newElement, newValue, newAssignment,
    newBody, newConstraint, newSpec, newElements, newUnion, newParts, newPart, newElementss, newBound, newNamed, newComponent, newComponents, newTag, newBit, newFrom, newSymbol, newGlobal,
    newNameds, newTys, newNumber, newItem, newTys_append, newNameds_append, newComponents_append, newParts_append, newUnion_append, newElementss_append, singleElementConstraint,
    List.map_append, List.map_cons, List.map_nil, Option.map_some, Option.map_none]
  have e0 : ∀ (p : Pointers R D) (d : Nat → SymType R D) (v : SymType R D), action 85 p d v = { v with value := .boolean false } := fun _ _ _ => rfl
  rw [e0, e0]
  exact congrArg (fun z => { newSym f g h v with value := z }) e

theorem newRule_86 (hf : Rewording f) : NewRule (R := R) (D := D) f g h 86 := by
  intro p p' hp d v
  have e : (fun (p : Pointers R D) (d : Nat → SymType R D) => (.integer [] : Ty R D)) p' (fun i => newSym f g h (d i)) = (fun z : Ty R D => newTy f g h z) ((fun (p : Pointers R D) (d : Nat → SymType R D) => (.integer [] : Ty R D)) p d) := by
    first
    | rfl
    | simp only [newSym, hf.empty, hf.generalized, hf.utc, hp.value3, hp.defined2, hp.copy, newModuleIdentifier, newDefinitive, newTy, newElement, newValue, newAssignment,
    newBody, newConstraint, newSpec, newElements, newUnion, newParts, newPart, newElementss, newBound, newNamed, newComponent, newComponents, newTag, newBit, newFrom, newSymbol, newGlobal,
    newNameds, newTys, newNumber, newItem, newTys_append, newNameds_append, newComponents_append, newParts_append, newUnion_append, newElementss_append, singleElementConstraint,
    List.map_append, List.map_cons, List.map_nil, Option.map_some, Option.map_none]
  have e0 : ∀ (p : Pointers R D) (d : Nat → SymType R D) (v : SymType R D), action 86 p d v = { v with type := .integer [] } := fun _ _ _ => rfl
  rw [e0, e0]
  exact congrArg (fun z => { newSym f g h v with type := z }) e

theorem newRule_87 (hf : Rewording f) : NewRule (R := R) (D := D) f g h 87 := by
  intro p p' hp d v
  have e : (fun (p : Pointers R D) (d : Nat → SymType R D) => (.integer (d 3).namedNumberList : Ty R D)) p' (fun i => newSym f g h (d i)) = (fun z : Ty R D => newTy f g h z) ((fun (p : Pointers R D) (d : Nat → SymType R D) => (.integer (d 3).namedNumberList : Ty R D)) p d) := by
    first
    | rfl
    | simp only [newSym, hf.empty, hf.generalized, hf.utc, hp.value3, hp.defined2, hp.copy, newModuleIdentifier, newDefinitive, newTy, newElement, newValue, newAssignment,
    newBody, newConstraint, newSpec, newElements, newUnion, newParts, newPart, newElementss, newBound, newNamed, newComponent, newComponents, newTag, newBit, newFrom, newSymbol, newGlobal,
    newNameds, newTys, newNumber, newItem, newTys_append, newNameds_append, newComponents_append, newParts_append, newUnion_append, newElementss_append, singleElementConstraint,
    List.map_append, List.map_cons, List.map_nil, Option.map_some, Option.map_none]
  have e0 : ∀ (p : Pointers R D) (d : Nat → SymType R D) (v : SymType R D), action 87 p d v = { v with type := .integer (d 3).namedNumberList } := fun _ _ _ => rfl
  rw [e0, e0]
  exact congrArg (fun z => { newSym f g h v with type := z }) e

theorem newRule_88 (hf : Rewording f) : NewRule (R := R) (D := D) f g h 88 := by
  intro p p' hp d v
  have e : (fun (p : Pointers R D) (d : Nat → SymType R D) => ([(d 1).namedNumber] : List NamedNumber)) p' (fun i => newSym f g h (d i)) = (fun z : List NamedNumber => z.map (newNumber f)) ((fun (p : Pointers R D) (d : Nat → SymType R D) => ([(d 1).namedNumber] : List NamedNumber)) p d) := by
    first
    | rfl
    | simp only [newSym, hf.empty, hf.generalized, hf.utc, hp.value3, hp.defined2, hp.copy, newModuleIdentifier, newDefinitive, newTy, newElement, newValue, newAssignment,
    newBody, newConstraint, newSpec, newElements, newUnion, newParts, newPart, newElementss, newBound, newNamed, newComponent, newComponents, newTag, newBit, newFrom, newSymbol, newGlobal,
    newNameds, newTys, newNumber, newItem, newTys_append, newNameds_append, newComponents_append, newParts_append, newUnion_append, newElementss_append, singleElementConstraint,
    List.map_append, List.map_cons, List.map_nil, Option.map_some, Option.map_none]
  have e0 : ∀ (p : Pointers R D) (d : Nat → SymType R D) (v : SymType R D), action 88 p d v = { v with namedNumberList := [(d 1).namedNumber] } := fun _ _ _ => rfl
  rw [e0, e0]
  exact congrArg (fun z => { newSym f g h v with namedNumberList := z }) e

theorem newRule_89 (hf : Rewording f) : NewRule (R := R) (D := D) f g h 89 := by
  intro p p' hp d v
  have e : (fun (p : Pointers R D) (d : Nat → SymType R D) => ((d 1).namedNumberList ++ [(d 3).namedNumber] : List NamedNumber)) p' (fun i => newSym f g h (d i)) = (fun z : List NamedNumber => z.map (newNumber f)) ((fun (p : Pointers R D) (d : Nat → SymType R D) => ((d 1).namedNumberList ++ [(d 3).namedNumber] : List NamedNumber)) p d) := by
    first
    | rfl
    | simp only [newSym, hf.empty, hf.generalized, hf.utc, hp.value3, hp.defined2, hp.copy, newModuleIdentifier, newDefinitive, newTy, newElement, newValue, newAssignment,
    newBody, newConstraint, newSpec, newElements, newUnion, newParts, newPart, newElementss, newBound, newNamed, newComponent, newComponents, newTag, newBit, newFrom, newSymbol, newGlobal,
    newNameds, newTys, newNumber, newItem, newTys_append, newNameds_append, newComponents_append, newParts_append, newUnion_append, newElementss_append, singleElementConstraint,
    List.map_append, List.map_cons, List.map_nil, Option.map_some, Option.map_none]
  have e0 : ∀ (p : Pointers R D) (d : Nat → SymType R D) (v : SymType R D), action 89 p d v = { v with namedNumberList := (d 1).namedNumberList ++ [(d 3).namedNumber] } := fun _ _ _ => rfl
  rw [e0, e0]
  exact congrArg (fun z => { newSym f g h v with namedNumberList := z }) e

theorem newRule_90 (hf : Rewording f) : NewRule (R := R) (D := D) f g h 90 := by
  intro p p' hp d v
  have e : (fun (p : Pointers R D) (d : Nat → SymType R D) => (⟨(d 1).name, .number (d 3).number⟩ : NamedNumber)) p' (fun i => newSym f g h (d i)) = (fun z : NamedNumber => newNumber f z) ((fun (p : Pointers R D) (d : Nat → SymType R D) => (⟨(d 1).name, .number (d 3).number⟩ : NamedNumber)) p d) := by
    first
    | rfl
    | simp only [newSym, hf.empty, hf.generalized, hf.utc, hp.value3, hp.defined2, hp.copy, newModuleIdentifier, newDefinitive, newTy, newElement, newValue, newAssignment,
    newBody, newConstraint, newSpec, newElements, newUnion, newParts, newPart, newElementss, newBound, newNamed, newComponent, newComponents, newTag, newBit, newFrom, newSymbol, newGlobal,
    newNameds, newTys, newNumber, newItem, newTys_append, newNameds_append, newComponents_append, newParts_append, newUnion_append, newElementss_append, singleElementConstraint,
    List.map_append, List.map_cons, List.map_nil, Option.map_some, Option.map_none]
  have e0 : ∀ (p : Pointers R D) (d : Nat → SymType R D) (v : SymType R D), action 90 p d v = { v with namedNumber := ⟨(d 1).name, .number (d 3).number⟩ } := fun _ _ _ => rfl
  rw [e0, e0]
  exact congrArg (fun z => { newSym f g h v with namedNumber := z }) e

theorem newRule_91 (hf : Rewording f) : NewRule (R := R) (D := D) f g h 91 := by
  intro p p' hp d v
  have e : (fun (p : Pointers R D) (d : Nat → SymType R D) => (⟨(d 1).name, .defined (d 3).definedValue⟩ : NamedNumber)) p' (fun i => newSym f g h (d i)) = (fun z : NamedNumber => newNumber f z) ((fun (p : Pointers R D) (d : Nat → SymType R D) => (⟨(d 1).name, .defined (d 3).definedValue⟩ : NamedNumber)) p d) := by
    first
    | rfl
    | simp only [newSym, hf.empty, hf.generalized, hf.utc, hp.value3, hp.defined2, hp.copy, newModuleIdentifier, newDefinitive, newTy, newElement, newValue, newAssignment,
    newBody, newConstraint, newSpec, newElements, newUnion, newParts, newPart, newElementss, newBound, newNamed, newComponent, newComponents, newTag, newBit, newFrom, newSymbol, newGlobal,
    newNameds, newTys, newNumber, newItem, newTys_append, newNameds_append, newComponents_append, newParts_append, newUnion_append, newElementss_append, singleElementConstraint,
    List.map_append, List.map_cons, List.map_nil, Option.map_some, Option.map_none]
  have e0 : ∀ (p : Pointers R D) (d : Nat → SymType R D) (v : SymType R D), action 91 p d v = { v with namedNumber := ⟨(d 1).name, .defined (d 3).definedValue⟩ } := fun _ _ _ => rfl
  rw [e0, e0]
  exact congrArg (fun z => { newSym f g h v with namedNumber := z }) e

theorem newRule_92 (hf : Rewording f) : NewRule (R := R) (D := D) f g h 92 := by
  intro p p' hp d v
  have e : (fun (p : Pointers R D) (d : Nat → SymType R D) => ((d 1).number : Int)) p' (fun i => newSym f g h (d i)) = (fun z : Int => z) ((fun (p : Pointers R D) (d : Nat → SymType R D) => ((d 1).number : Int)) p d) := by
    first
    | rfl
    | simp only [newSym, hf.empty, hf.generalized, hf.utc, hp.value3, hp.defined2, hp.copy, newModuleIdentifier, newDefinitive, newTy, newElement, newValue, newAssignment,
    newBody, newConstraint, newSpec, newElements, newUnion, newParts, newPart, newElementss, newBound, newNamed, newComponent, newComponents, newTag, newBit, newFrom, newSymbol, newGlobal,
    newNameds, newTys, newNumber, newItem, newTys_append, newNameds_append, newComponents_append, newParts_append, newUnion_append, newElementss_append, singleElementConstraint,
    List.map_append, List.map_cons, List.map_nil, Option.map_some, Option.map_none]
  have e0 : ∀ (p : Pointers R D) (d : Nat → SymType R D) (v : SymType R D), action 92 p d v = { v with number := (d 1).number } := fun _ _ _ => rfl
  rw [e0, e0]
  exact congrArg (fun z => { newSym f g h v with number := z }) e

theorem newRule_93 (hf : Rewording f) : NewRule (R := R) (D := D) f g h 93 := by
  intro p p' hp d v
  have e : (fun (p : Pointers R D) (d : Nat → SymType R D) => (- (d 2).number : Int)) p' (fun i => newSym f g h (d i)) = (fun z : Int => z) ((fun (p : Pointers R D) (d : Nat → SymType R D) => (- (d 2).number : Int)) p d) := by
    first
    | rfl
    | simp only [newSym, hf.empty, hf.generalized, hf.utc, hp.value3, hp.defined2, hp.copy, newModuleIdentifier, newDefinitive, newTy, newElement, newValue, newAssignment,
    newBody, newConstraint, newSpec, newElements, newUnion, newParts, newPart, newElementss, newBound, newNamed, newComponent, newComponents, newTag, newBit, newFrom, newSymbol, newGlobal,
    newNameds, newTys, newNumber, newItem, newTys_append, newNameds_append, newComponents_append, newParts_append, newUnion_append, newElementss_append, singleElementConstraint,
    List.map_append, List.map_cons, List.map_nil, Option.map_some, Option.map_none]
  have e0 : ∀ (p : Pointers R D) (d : Nat → SymType R D) (v : SymType R D), action 93 p d v = { v with number := - (d 2).number } := fun _ _ _ => rfl
  rw [e0, e0]
  exact congrArg (fun z => { newSym f g h v with number := z }) e

theorem newRule_94 (hf : Rewording f) : NewRule (R := R) (D := D) f g h 94 := by
  intro p p' hp d v
  have e : (fun (p : Pointers R D) (d : Nat → SymType R D) => (.number (d 1).number : Value R)) p' (fun i => newSym f g h (d i)) = (fun z : Value R => newValue f g z) ((fun (p : Pointers R D) (d : Nat → SymType R D) => (.number (d 1).number : Value R)) p d) := by
    first
    | rfl
    | simp only [newSym, hf.empty, hf.generalized, hf.utc, hp.value3, hp.defined2, hp.copy, newModuleIdentifier, newDefinitive, newTy, newElement, newValue, newAssignment,
    newBody, newConstraint, newSpec, newElements, newUnion, newParts, newPart, newElementss, newBound, newNamed, newComponent, newComponents, newTag, newBit, newFrom, newSymbol, newGlobal,
    newNameds, newTys, newNumber, newItem, newTys_append, newNameds_append, newComponents_append, newParts_append, newUnion_append, newElementss_append, singleElementConstraint,
    List.map_append, List.map_cons, List.map_nil, Option.map_some, Option.map_none]
  have e0 : ∀ (p : Pointers R D) (d : Nat → SymType R D) (v : SymType R D), action 94 p d v = { v with value := .number (d 1).number } := fun _ _ _ => rfl
  rw [e0, e0]
  exact congrArg (fun z => { newSym f g h v with value := z }) e

theorem newRule_95 (hf : Rewording f) : NewRule (R := R) (D := D) f g h 95 := by
  intro p p' hp d v
  have e : (fun (p : Pointers R D) (d : Nat → SymType R D) => (.identifiedInteger (d 1).name : Value R)) p' (fun i => newSym f g h (d i)) = (fun z : Value R => newValue f g z) ((fun (p : Pointers R D) (d : Nat → SymType R D) => (.identifiedInteger (d 1).name : Value R)) p d) := by
    first
    | rfl
    | simp only [newSym, hf.empty, hf.generalized, hf.utc, hp.value3, hp.defined2, hp.copy, newModuleIdentifier, newDefinitive, newTy, newElement, newValue, newAssignment,
    newBody, newConstraint, newSpec, newElements, newUnion, newParts, newPart, newElementss, newBound, newNamed, newComponent, newComponents, newTag, newBit, newFrom, newSymbol, newGlobal,
    newNameds, newTys, newNumber, newItem, newTys_append, newNameds_append, newComponents_append, newParts_append, newUnion_append, newElementss_append, singleElementConstraint,
    List.map_append, List.map_cons, List.map_nil, Option.map_some, Option.map_none]
  have e0 : ∀ (p : Pointers R D) (d : Nat → SymType R D) (v : SymType R D), action 95 p d v = { v with value := .identifiedInteger (d 1).name } := fun _ _ _ => rfl
  rw [e0, e0]
  exact congrArg (fun z => { newSym f g h v with value := z }) e

theorem newRule_96 (hf : Rewording f) : NewRule (R := R) (D := D) f g h 96 := by
  intro p p' hp d v
  have e : (fun (p : Pointers R D) (d : Nat → SymType R D) => (.enumerated (d 3).enumeratedType.1 (d 3).enumeratedType.2 : Ty R D)) p' (fun i => newSym f g h (d i)) = (fun z : Ty R D => newTy f g h z) ((fun (p : Pointers R D) (d : Nat → SymType R D) => (.enumerated (d 3).enumeratedType.1 (d 3).enumeratedType.2 : Ty R D)) p d) := by
    first
    | rfl
    | simp only [newSym, hf.empty, hf.generalized, hf.utc, hp.value3, hp.defined2, hp.copy, newModuleIdentifier, newDefinitive, newTy, newElement, newValue, newAssignment,
    newBody, newConstraint, newSpec, newElements, newUnion, newParts, newPart, newElementss, newBound, newNamed, newComponent, newComponents, newTag, newBit, newFrom, newSymbol, newGlobal,
    newNameds, newTys, newNumber, newItem, newTys_append, newNameds_append, newComponents_append, newParts_append, newUnion_append, newElementss_append, singleElementConstraint,
    List.map_append, List.map_cons, List.map_nil, Option.map_some, Option.map_none]
  have e0 : ∀ (p : Pointers R D) (d : Nat → SymType R D) (v : SymType R D), action 96 p d v = { v with type := .enumerated (d 3).enumeratedType.1 (d 3).enumeratedType.2 } := fun _ _ _ => rfl
  rw [e0, e0]
  exact congrArg (fun z => { newSym f g h v with type := z }) e

theorem newRule_97 (hf : Rewording f) : NewRule (R := R) (D := D) f g h 97 := by
  intro p p' hp d v
  have e : (fun (p : Pointers R D) (d : Nat → SymType R D) => (((d 1).enumeration, []) : List EnumerationItem × List EnumerationItem)) p' (fun i => newSym f g h (d i)) = (fun z : List EnumerationItem × List EnumerationItem => (z.1.map (newItem f), z.2.map (newItem f))) ((fun (p : Pointers R D) (d : Nat → SymType R D) => (((d 1).enumeration, []) : List EnumerationItem × List EnumerationItem)) p d) := by
    first
    | rfl
    | simp only [newSym, hf.empty, hf.generalized, hf.utc, hp.value3, hp.defined2, hp.copy, newModuleIdentifier, newDefinitive, newTy, newElement, newValue, newAssignment,
    newBody, newConstraint, newSpec, newElements, newUnion, newParts, newPart, newElementss, newBound, newNamed, newComponent, newComponents, newTag, newBit, newFrom, newSymbol, newGlobal,
    newNameds, newTys, newNumber, newItem, newTys_append, newNameds_append, newComponents_append, newParts_append, newUnion_append, newElementss_append, singleElementConstraint,
    List.map_append, List.map_cons, List.map_nil, Option.map_some, Option.map_none]
  have e0 : ∀ (p : Pointers R D) (d : Nat → SymType R D) (v : SymType R D), action 97 p d v = { v with enumeratedType := ((d 1).enumeration, []) } := fun _ _ _ => rfl
  rw [e0, e0]
  exact congrArg (fun z => { newSym f g h v with enumeratedType := z }) e

theorem newRule_98 (hf : Rewording f) : NewRule (R := R) (D := D) f g h 98 := by
  intro p p' hp d v
  have e : (fun (p : Pointers R D) (d : Nat → SymType R D) => (((d 1).enumeration, []) : List EnumerationItem × List EnumerationItem)) p' (fun i => newSym f g h (d i)) = (fun z : List EnumerationItem × List EnumerationItem => (z.1.map (newItem f), z.2.map (newItem f))) ((fun (p : Pointers R D) (d : Nat → SymType R D) => (((d 1).enumeration, []) : List EnumerationItem × List EnumerationItem)) p d) := by
    first
    | rfl
    | simp only [newSym, hf.empty, hf.generalized, hf.utc, hp.value3, hp.defined2, hp.copy, newModuleIdentifier, newDefinitive, newTy, newElement, newValue, newAssignment,
    newBody, newConstraint, newSpec, newElements, newUnion, newParts, newPart, newElementss, newBound, newNamed, newComponent, newComponents, newTag, newBit, newFrom, newSymbol, newGlobal,
    newNameds, newTys, newNumber, newItem, newTys_append, newNameds_append, newComponents_append, newParts_append, newUnion_append, newElementss_append, singleElementConstraint,
    List.map_append, List.map_cons, List.map_nil, Option.map_some, Option.map_none]
  have e0 : ∀ (p : Pointers R D) (d : Nat → SymType R D) (v : SymType R D), action 98 p d v = { v with enumeratedType := ((d 1).enumeration, []) } := fun _ _ _ => rfl
  rw [e0, e0]
  exact congrArg (fun z => { newSym f g h v with enumeratedType := z }) e

theorem newRule_99 (hf : Rewording f) : NewRule (R := R) (D := D) f g h 99 := by
  intro p p' hp d v
  have e : (fun (p : Pointers R D) (d : Nat → SymType R D) => (((d 1).enumeration, (d 6).enumeration) : List EnumerationItem × List EnumerationItem)) p' (fun i => newSym f g h (d i)) = (fun z : List EnumerationItem × List EnumerationItem => (z.1.map (newItem f), z.2.map (newItem f))) ((fun (p : Pointers R D) (d : Nat → SymType R D) => (((d 1).enumeration, (d 6).enumeration) : List EnumerationItem × List EnumerationItem)) p d) := by
    first
    | rfl
    | simp only [newSym, hf.empty, hf.generalized, hf.utc, hp.value3, hp.defined2, hp.copy, newModuleIdentifier, newDefinitive, newTy, newElement, newValue, newAssignment,
    newBody, newConstraint, newSpec, newElements, newUnion, newParts, newPart, newElementss, newBound, newNamed, newComponent, newComponents, newTag, newBit, newFrom, newSymbol, newGlobal,
    newNameds, newTys, newNumber, newItem, newTys_append, newNameds_append, newComponents_append, newParts_append, newUnion_append, newElementss_append, singleElementConstraint,
    List.map_append, List.map_cons, List.map_nil, Option.map_some, Option.map_none]
  have e0 : ∀ (p : Pointers R D) (d : Nat → SymType R D) (v : SymType R D), action 99 p d v = { v with enumeratedType := ((d 1).enumeration, (d 6).enumeration) } := fun _ _ _ => rfl
  rw [e0, e0]
  exact congrArg (fun z => { newSym f g h v with enumeratedType := z }) e

theorem newRule_100 : NewRule (R := R) (D := D) f g h 100 := by
  intro p p' _ d v
  have e0 : ∀ (p : Pointers R D) (d : Nat → SymType R D) (v : SymType R D), action 100 p d v = v := fun _ _ _ => rfl
  rw [e0, e0]

theorem newRule_101 : NewRule (R := R) (D := D) f g h 101 := by
  intro p p' _ d v
  have e0 : ∀ (p : Pointers R D) (d : Nat → SymType R D) (v : SymType R D), action 101 p d v = v := fun _ _ _ => rfl
  rw [e0, e0]

theorem newRule_102 (hf : Rewording f) : NewRule (R := R) (D := D) f g h 102 := by
  intro p p' hp d v
  have e : (fun (p : Pointers R D) (d : Nat → SymType R D) => ([(d 1).enumerationItem] : List EnumerationItem)) p' (fun i => newSym f g h (d i)) = (fun z : List EnumerationItem => z.map (newItem f)) ((fun (p : Pointers R D) (d : Nat → SymType R D) => ([(d 1).enumerationItem] : List EnumerationItem)) p d) := by
    first
    | rfl
    | simp only [newSym, hf.empty, hf.generalized, hf.utc, hp.value3, hp.defined2, hp.copy, newModuleIdentifier, newDefinitive, newTy, newElement, newValue, newAssignment,
    newBody, newConstraint, newSpec, newElements, newUnion, newParts, newPart, newElementss, newBound, newNamed, newComponent, newComponents, newTag, newBit, newFrom, newSymbol, newGlobal,
    newNameds, newTys, newNumber, newItem, newTys_append, newNameds_append, newComponents_append, newParts_append, newUnion_append, newElementss_append, singleElementConstraint,
    List.map_append, List.map_cons, List.map_nil, Option.map_some, Option.map_none]
  have e0 : ∀ (p : Pointers R D) (d : Nat → SymType R D) (v : SymType R D), action 102 p d v = { v with enumeration := [(d 1).enumerationItem] } := fun _ _ _ => rfl
  rw [e0, e0]
  exact congrArg (fun z => { newSym f g h v with enumeration := z }) e

theorem newRule_103 (hf : Rewording f) : NewRule (R := R) (D := D) f g h 103 := by
  intro p p' hp d v
  have e : (fun (p : Pointers R D) (d : Nat → SymType R D) => ((d 1).enumerationItem :: (d 3).enumeration : List EnumerationItem)) p' (fun i => newSym f g h (d i)) = (fun z : List EnumerationItem => z.map (newItem f)) ((fun (p : Pointers R D) (d : Nat → SymType R D) => ((d 1).enumerationItem :: (d 3).enumeration : List EnumerationItem)) p d) := by
    first
    | rfl
    | simp only [newSym, hf.empty, hf.generalized, hf.utc, hp.value3, hp.defined2, hp.copy, newModuleIdentifier, newDefinitive, newTy, newElement, newValue, newAssignment,
    newBody, newConstraint, newSpec, newElements, newUnion, newParts, newPart, newElementss, newBound, newNamed, newComponent, newComponents, newTag, newBit, newFrom, newSymbol, newGlobal,
    newNameds, newTys, newNumber, newItem, newTys_append, newNameds_append, newComponents_append, newParts_append, newUnion_append, newElementss_append, singleElementConstraint,
    List.map_append, List.map_cons, List.map_nil, Option.map_some, Option.map_none]
  have e0 : ∀ (p : Pointers R D) (d : Nat → SymType R D) (v : SymType R D), action 103 p d v = { v with enumeration := (d 1).enumerationItem :: (d 3).enumeration } := fun _ _ _ => rfl
  rw [e0, e0]
  exact congrArg (fun z => { newSym f g h v with enumeration := z }) e

theorem newRule_104 (hf : Rewording f) : NewRule (R := R) (D := D) f g h 104 := by
  intro p p' hp d v
  have e : (fun (p : Pointers R D) (d : Nat → SymType R D) => (.namedNumber (d 1).namedNumber : EnumerationItem)) p' (fun i => newSym f g h (d i)) = (fun z : EnumerationItem => newItem f z) ((fun (p : Pointers R D) (d : Nat → SymType R D) => (.namedNumber (d 1).namedNumber : EnumerationItem)) p d) := by
    first
    | rfl
    | simp only [newSym, hf.empty, hf.generalized, hf.utc, hp.value3, hp.defined2, hp.copy, newModuleIdentifier, newDefinitive, newTy, newElement, newValue, newAssignment,
    newBody, newConstraint, newSpec, newElements, newUnion, newParts, newPart, newElementss, newBound, newNamed, newComponent, newComponents, newTag, newBit, newFrom, newSymbol, newGlobal,
    newNameds, newTys, newNumber, newItem, newTys_append, newNameds_append, newComponents_append, newParts_append, newUnion_append, newElementss_append, singleElementConstraint,
    List.map_append, List.map_cons, List.map_nil, Option.map_some, Option.map_none]
  have e0 : ∀ (p : Pointers R D) (d : Nat → SymType R D) (v : SymType R D), action 104 p d v = { v with enumerationItem := .namedNumber (d 1).namedNumber } := fun _ _ _ => rfl
  rw [e0, e0]
  exact congrArg (fun z => { newSym f g h v with enumerationItem := z }) e

theorem newRule_105 (hf : Rewording f) : NewRule (R := R) (D := D) f g h 105 := by
  intro p p' hp d v
  have e : (fun (p : Pointers R D) (d : Nat → SymType R D) => (.identifier (d 1).name : EnumerationItem)) p' (fun i => newSym f g h (d i)) = (fun z : EnumerationItem => newItem f z) ((fun (p : Pointers R D) (d : Nat → SymType R D) => (.identifier (d 1).name : EnumerationItem)) p d) := by
    first
    | rfl
    | simp only [newSym, hf.empty, hf.generalized, hf.utc, hp.value3, hp.defined2, hp.copy, newModuleIdentifier, newDefinitive, newTy, newElement, newValue, newAssignment,
    newBody, newConstraint, newSpec, newElements, newUnion, newParts, newPart, newElementss, newBound, newNamed, newComponent, newComponents, newTag, newBit, newFrom, newSymbol, newGlobal,
    newNameds, newTys, newNumber, newItem, newTys_append, newNameds_append, newComponents_append, newParts_append, newUnion_append, newElementss_append, singleElementConstraint,
    List.map_append, List.map_cons, List.map_nil, Option.map_some, Option.map_none]
  have e0 : ∀ (p : Pointers R D) (d : Nat → SymType R D) (v : SymType R D), action 105 p d v = { v with enumerationItem := .identifier (d 1).name } := fun _ _ _ => rfl
  rw [e0, e0]
  exact congrArg (fun z => { newSym f g h v with enumerationItem := z }) e

theorem newRule_106 (hf : Rewording f) : NewRule (R := R) (D := D) f g h 106 := by
  intro p p' hp d v
  have e : (fun (p : Pointers R D) (d : Nat → SymType R D) => (.real : Ty R D)) p' (fun i => newSym f g h (d i)) = (fun z : Ty R D => newTy f g h z) ((fun (p : Pointers R D) (d : Nat → SymType R D) => (.real : Ty R D)) p d) := by
    first
    | rfl
    | simp only [newSym, hf.empty, hf.generalized, hf.utc, hp.value3, hp.defined2, hp.copy, newModuleIdentifier, newDefinitive, newTy, newElement, newValue, newAssignment,
    newBody, newConstraint, newSpec, newElements, newUnion, newParts, newPart, newElementss, newBound, newNamed, newComponent, newComponents, newTag, newBit, newFrom, newSymbol, newGlobal,
    newNameds, newTys, newNumber, newItem, newTys_append, newNameds_append, newComponents_append, newParts_append, newUnion_append, newElementss_append, singleElementConstraint,
    List.map_append, List.map_cons, List.map_nil, Option.map_some, Option.map_none]
  have e0 : ∀ (p : Pointers R D) (d : Nat → SymType R D) (v : SymType R D), action 106 p d v = { v with type := .real } := fun _ _ _ => rfl
  rw [e0, e0]
  exact congrArg (fun z => { newSym f g h v with type := z }) e

theorem newRule_107 : NewRule (R := R) (D := D) f g h 107 := by
  intro p p' _ d v
  have e0 : ∀ (p : Pointers R D) (d : Nat → SymType R D) (v : SymType R D), action 107 p d v = v := fun _ _ _ => rfl
  rw [e0, e0]

theorem newRule_108 : NewRule (R := R) (D := D) f g h 108 := by
  intro p p' _ d v
  have e0 : ∀ (p : Pointers R D) (d : Nat → SymType R D) (v : SymType R D), action 108 p d v = v := fun _ _ _ => rfl
  rw [e0, e0]

theorem newRule_109 (hf : Rewording f) : NewRule (R := R) (D := D) f g h 109 := by
  intro p p' hp d v
  have e : (fun (p : Pointers R D) (d : Nat → SymType R D) => (.real (d 1).real : Value R)) p' (fun i => newSym f g h (d i)) = (fun z : Value R => newValue f g z) ((fun (p : Pointers R D) (d : Nat → SymType R D) => (.real (d 1).real : Value R)) p d) := by
    first
    | rfl
    | simp only [newSym, hf.empty, hf.generalized, hf.utc, hp.value3, hp.defined2, hp.copy, newModuleIdentifier, newDefinitive, newTy, newElement, newValue, newAssignment,
    newBody, newConstraint, newSpec, newElements, newUnion, newParts, newPart, newElementss, newBound, newNamed, newComponent, newComponents, newTag, newBit, newFrom, newSymbol, newGlobal,
    newNameds, newTys, newNumber, newItem, newTys_append, newNameds_append, newComponents_append, newParts_append, newUnion_append, newElementss_append, singleElementConstraint,
    List.map_append, List.map_cons, List.map_nil, Option.map_some, Option.map_none]
  have e0 : ∀ (p : Pointers R D) (d : Nat → SymType R D) (v : SymType R D), action 109 p d v = { v with value := .real (d 1).real } := fun _ _ _ => rfl
  rw [e0, e0]
  exact congrArg (fun z => { newSym f g h v with value := z }) e

theorem newRule_110 (hf : Rewording f) : NewRule (R := R) (D := D) f g h 110 := by
  intro p p' hp d v
  have e : (fun (p : Pointers R D) (d : Nat → SymType R D) => (.real (.neg (d 2).real) : Value R)) p' (fun i => newSym f g h (d i)) = (fun z : Value R => newValue f g z) ((fun (p : Pointers R D) (d : Nat → SymType R D) => (.real (.neg (d 2).real) : Value R)) p d) := by
    first
    | rfl
    | simp only [newSym, hf.empty, hf.generalized, hf.utc, hp.value3, hp.defined2, hp.copy, newModuleIdentifier, newDefinitive, newTy, newElement, newValue, newAssignment,
    newBody, newConstraint, newSpec, newElements, newUnion, newParts, newPart, newElementss, newBound, newNamed, newComponent, newComponents, newTag, newBit, newFrom, newSymbol, newGlobal,
    newNameds, newTys, newNumber, newItem, newTys_append, newNameds_append, newComponents_append, newParts_append, newUnion_append, newElementss_append, singleElementConstraint,
    List.map_append, List.map_cons, List.map_nil, Option.map_some, Option.map_none]
  have e0 : ∀ (p : Pointers R D) (d : Nat → SymType R D) (v : SymType R D), action 110 p d v = { v with value := .real (.neg (d 2).real) } := fun _ _ _ => rfl
  rw [e0, e0]
  exact congrArg (fun z => { newSym f g h v with value := z }) e

theorem newRule_111 (hf : Rewording f) : NewRule (R := R) (D := D) f g h 111 := by
  intro p p' hp d v
  have e : (fun (p : Pointers R D) (d : Nat → SymType R D) => (.real .posInf : Value R)) p' (fun i => newSym f g h (d i)) = (fun z : Value R => newValue f g z) ((fun (p : Pointers R D) (d : Nat → SymType R D) => (.real .posInf : Value R)) p d) := by
    first
    | rfl
    | simp only [newSym, hf.empty, hf.generalized, hf.utc, hp.value3, hp.defined2, hp.copy, newModuleIdentifier, newDefinitive, newTy, newElement, newValue, newAssignment,
    newBody, newConstraint, newSpec, newElements, newUnion, newParts, newPart, newElementss, newBound, newNamed, newComponent, newComponents, newTag, newBit, newFrom, newSymbol, newGlobal,
    newNameds, newTys, newNumber, newItem, newTys_append, newNameds_append, newComponents_append, newParts_append, newUnion_append, newElementss_append, singleElementConstraint,
    List.map_append, List.map_cons, List.map_nil, Option.map_some, Option.map_none]
  have e0 : ∀ (p : Pointers R D) (d : Nat → SymType R D) (v : SymType R D), action 111 p d v = { v with value := .real .posInf } := fun _ _ _ => rfl
  rw [e0, e0]
  exact congrArg (fun z => { newSym f g h v with value := z }) e

theorem newRule_112 (hf : Rewording f) : NewRule (R := R) (D := D) f g h 112 := by
  intro p p' hp d v
  have e : (fun (p : Pointers R D) (d : Nat → SymType R D) => (.real .negInf : Value R)) p' (fun i => newSym f g h (d i)) = (fun z : Value R => newValue f g z) ((fun (p : Pointers R D) (d : Nat → SymType R D) => (.real .negInf : Value R)) p d) := by
    first
    | rfl
    | simp only [newSym, hf.empty, hf.generalized, hf.utc, hp.value3, hp.defined2, hp.copy, newModuleIdentifier, newDefinitive, newTy, newElement, newValue, newAssignment,
    newBody, newConstraint, newSpec, newElements, newUnion, newParts, newPart, newElementss, newBound, newNamed, newComponent, newComponents, newTag, newBit, newFrom, newSymbol, newGlobal,
    newNameds, newTys, newNumber, newItem, newTys_append, newNameds_append, newComponents_append, newParts_append, newUnion_append, newElementss_append, singleElementConstraint,
    List.map_append, List.map_cons, List.map_nil, Option.map_some, Option.map_none]
  have e0 : ∀ (p : Pointers R D) (d : Nat → SymType R D) (v : SymType R D), action 112 p d v = { v with value := .real .negInf } := fun _ _ _ => rfl
  rw [e0, e0]
  exact congrArg (fun z => { newSym f g h v with value := z }) e

theorem newRule_113 (hf : Rewording f) : NewRule (R := R) (D := D) f g h 113 := by
  intro p p' hp d v
  have e : (fun (p : Pointers R D) (d : Nat → SymType R D) => (.lit (d 1).number 0 0 : GoReal)) p' (fun i => newSym f g h (d i)) = (fun z : GoReal => z) ((fun (p : Pointers R D) (d : Nat → SymType R D) => (.lit (d 1).number 0 0 : GoReal)) p d) := by
    first
    | rfl
    | simp only [newSym, hf.empty, hf.generalized, hf.utc, hp.value3, hp.defined2, hp.copy, newModuleIdentifier, newDefinitive, newTy, newElement, newValue, newAssignment,
    newBody, newConstraint, newSpec, newElements, newUnion, newParts, newPart, newElementss, newBound, newNamed, newComponent, newComponents, newTag, newBit, newFrom, newSymbol, newGlobal,
    newNameds, newTys, newNumber, newItem, newTys_append, newNameds_append, newComponents_append, newParts_append, newUnion_append, newElementss_append, singleElementConstraint,
    List.map_append, List.map_cons, List.map_nil, Option.map_some, Option.map_none]
  have e0 : ∀ (p : Pointers R D) (d : Nat → SymType R D) (v : SymType R D), action 113 p d v = { v with real := .lit (d 1).number 0 0 } := fun _ _ _ => rfl
  rw [e0, e0]
  exact congrArg (fun z => { newSym f g h v with real := z }) e

theorem newRule_114 (hf : Rewording f) : NewRule (R := R) (D := D) f g h 114 := by
  intro p p' hp d v
  have e : (fun (p : Pointers R D) (d : Nat → SymType R D) => (.lit (d 1).number (d 3).number 0 : GoReal)) p' (fun i => newSym f g h (d i)) = (fun z : GoReal => z) ((fun (p : Pointers R D) (d : Nat → SymType R D) => (.lit (d 1).number (d 3).number 0 : GoReal)) p d) := by
    first
    | rfl
    | simp only [newSym, hf.empty, hf.generalized, hf.utc, hp.value3, hp.defined2, hp.copy, newModuleIdentifier, newDefinitive, newTy, newElement, newValue, newAssignment,
    newBody, newConstraint, newSpec, newElements, newUnion, newParts, newPart, newElementss, newBound, newNamed, newComponent, newComponents, newTag, newBit, newFrom, newSymbol, newGlobal,
    newNameds, newTys, newNumber, newItem, newTys_append, newNameds_append, newComponents_append, newParts_append, newUnion_append, newElementss_append, singleElementConstraint,
    List.map_append, List.map_cons, List.map_nil, Option.map_some, Option.map_none]
  have e0 : ∀ (p : Pointers R D) (d : Nat → SymType R D) (v : SymType R D), action 114 p d v = { v with real := .lit (d 1).number (d 3).number 0 } := fun _ _ _ => rfl
  rw [e0, e0]
  exact congrArg (fun z => { newSym f g h v with real := z }) e

theorem newRule_115 (hf : Rewording f) : NewRule (R := R) (D := D) f g h 115 := by
  intro p p' hp d v
  have e : (fun (p : Pointers R D) (d : Nat → SymType R D) => (.lit (d 1).number (d 3).number (d 5).number : GoReal)) p' (fun i => newSym f g h (d i)) = (fun z : GoReal => z) ((fun (p : Pointers R D) (d : Nat → SymType R D) => (.lit (d 1).number (d 3).number (d 5).number : GoReal)) p d) := by
    first
    | rfl
    | simp only [newSym, hf.empty, hf.generalized, hf.utc, hp.value3, hp.defined2, hp.copy, newModuleIdentifier, newDefinitive, newTy, newElement, newValue, newAssignment,
    newBody, newConstraint, newSpec, newElements, newUnion, newParts, newPart, newElementss, newBound, newNamed, newComponent, newComponents, newTag, newBit, newFrom, newSymbol, newGlobal,
    newNameds, newTys, newNumber, newItem, newTys_append, newNameds_append, newComponents_append, newParts_append, newUnion_append, newElementss_append, singleElementConstraint,
    List.map_append, List.map_cons, List.map_nil, Option.map_some, Option.map_none]
  have e0 : ∀ (p : Pointers R D) (d : Nat → SymType R D) (v : SymType R D), action 115 p d v = { v with real := .lit (d 1).number (d 3).number (d 5).number } := fun _ _ _ => rfl
  rw [e0, e0]
  exact congrArg (fun z => { newSym f g h v with real := z }) e

theorem newRule_116 (hf : Rewording f) : NewRule (R := R) (D := D) f g h 116 := by
  intro p p' hp d v
  have e : (fun (p : Pointers R D) (d : Nat → SymType R D) => (.lit (d 1).number 0 (d 3).number : GoReal)) p' (fun i => newSym f g h (d i)) = (fun z : GoReal => z) ((fun (p : Pointers R D) (d : Nat → SymType R D) => (.lit (d 1).number 0 (d 3).number : GoReal)) p d) := by
    first
    | rfl
    | simp only [newSym, hf.empty, hf.generalized, hf.utc, hp.value3, hp.defined2, hp.copy, newModuleIdentifier, newDefinitive, newTy, newElement, newValue, newAssignment,
    newBody, newConstraint, newSpec, newElements, newUnion, newParts, newPart, newElementss, newBound, newNamed, newComponent, newComponents, newTag, newBit, newFrom, newSymbol, newGlobal,
    newNameds, newTys, newNumber, newItem, newTys_append, newNameds_append, newComponents_append, newParts_append, newUnion_append, newElementss_append, singleElementConstraint,
    List.map_append, List.map_cons, List.map_nil, Option.map_some, Option.map_none]
  have e0 : ∀ (p : Pointers R D) (d : Nat → SymType R D) (v : SymType R D), action 116 p d v = { v with real := .lit (d 1).number 0 (d 3).number } := fun _ _ _ => rfl
  rw [e0, e0]
  exact congrArg (fun z => { newSym f g h v with real := z }) e

theorem newRule_117 : NewRule (R := R) (D := D) f g h 117 := by
  intro p p' _ d v
  have e0 : ∀ (p : Pointers R D) (d : Nat → SymType R D) (v : SymType R D), action 117 p d v = v := fun _ _ _ => rfl
  rw [e0, e0]

theorem newRule_118 (hf : Rewording f) : NewRule (R := R) (D := D) f g h 118 := by
  intro p p' hp d v
  have e : (fun (p : Pointers R D) (d : Nat → SymType R D) => (- (d 2).number : Int)) p' (fun i => newSym f g h (d i)) = (fun z : Int => z) ((fun (p : Pointers R D) (d : Nat → SymType R D) => (- (d 2).number : Int)) p d) := by
    first
    | rfl
    | simp only [newSym, hf.empty, hf.generalized, hf.utc, hp.value3, hp.defined2, hp.copy, newModuleIdentifier, newDefinitive, newTy, newElement, newValue, newAssignment,
    newBody, newConstraint, newSpec, newElements, newUnion, newParts, newPart, newElementss, newBound, newNamed, newComponent, newComponents, newTag, newBit, newFrom, newSymbol, newGlobal,
    newNameds, newTys, newNumber, newItem, newTys_append, newNameds_append, newComponents_append, newParts_append, newUnion_append, newElementss_append, singleElementConstraint,
    List.map_append, List.map_cons, List.map_nil, Option.map_some, Option.map_none]
  have e0 : ∀ (p : Pointers R D) (d : Nat → SymType R D) (v : SymType R D), action 118 p d v = { v with number := - (d 2).number } := fun _ _ _ => rfl
  rw [e0, e0]
  exact congrArg (fun z => { newSym f g h v with number := z }) e

theorem newRule_119 (hf : Rewording f) : NewRule (R := R) (D := D) f g h 119 := by
  intro p p' hp d v
  have e : (fun (p : Pointers R D) (d : Nat → SymType R D) => (.bitString [] : Ty R D)) p' (fun i => newSym f g h (d i)) = (fun z : Ty R D => newTy f g h z) ((fun (p : Pointers R D) (d : Nat → SymType R D) => (.bitString [] : Ty R D)) p d) := by
    first
    | rfl
    | simp only [newSym, hf.empty, hf.generalized, hf.utc, hp.value3, hp.defined2, hp.copy, newModuleIdentifier, newDefinitive, newTy, newElement, newValue, newAssignment,
    newBody, newConstraint, newSpec, newElements, newUnion, newParts, newPart, newElementss, newBound, newNamed, newComponent, newComponents, newTag, newBit, newFrom, newSymbol, newGlobal,
    newNameds, newTys, newNumber, newItem, newTys_append, newNameds_append, newComponents_append, newParts_append, newUnion_append, newElementss_append, singleElementConstraint,
    List.map_append, List.map_cons, List.map_nil, Option.map_some, Option.map_none]
  have e0 : ∀ (p : Pointers R D) (d : Nat → SymType R D) (v : SymType R D), action 119 p d v = { v with type := .bitString [] } := fun _ _ _ => rfl
  rw [e0, e0]
  exact congrArg (fun z => { newSym f g h v with type := z }) e

theorem newRule_120 (hf : Rewording f) : NewRule (R := R) (D := D) f g h 120 := by
  intro p p' hp d v
  have e : (fun (p : Pointers R D) (d : Nat → SymType R D) => (.bitString (d 4).namedBitList : Ty R D)) p' (fun i => newSym f g h (d i)) = (fun z : Ty R D => newTy f g h z) ((fun (p : Pointers R D) (d : Nat → SymType R D) => (.bitString (d 4).namedBitList : Ty R D)) p d) := by
    first
    | rfl
    | simp only [newSym, hf.empty, hf.generalized, hf.utc, hp.value3, hp.defined2, hp.copy, newModuleIdentifier, newDefinitive, newTy, newElement, newValue, newAssignment,
    newBody, newConstraint, newSpec, newElements, newUnion, newParts, newPart, newElementss, newBound, newNamed, newComponent, newComponents, newTag, newBit, newFrom, newSymbol, newGlobal,
    newNameds, newTys, newNumber, newItem, newTys_append, newNameds_append, newComponents_append, newParts_append, newUnion_append, newElementss_append, singleElementConstraint,
    List.map_append, List.map_cons, List.map_nil, Option.map_some, Option.map_none]
  have e0 : ∀ (p : Pointers R D) (d : Nat → SymType R D) (v : SymType R D), action 120 p d v = { v with type := .bitString (d 4).namedBitList } := fun _ _ _ => rfl
  rw [e0, e0]
  exact congrArg (fun z => { newSym f g h v with type := z }) e

theorem newRule_121 (hf : Rewording f) : NewRule (R := R) (D := D) f g h 121 := by
  intro p p' hp d v
  have e : (fun (p : Pointers R D) (d : Nat → SymType R D) => ([(d 1).namedBit] : List (NamedBit R))) p' (fun i => newSym f g h (d i)) = (fun z : List (NamedBit R) => z.map (newBit f g)) ((fun (p : Pointers R D) (d : Nat → SymType R D) => ([(d 1).namedBit] : List (NamedBit R))) p d) := by
    first
    | rfl
    | simp only [newSym, hf.empty, hf.generalized, hf.utc, hp.value3, hp.defined2, hp.copy, newModuleIdentifier, newDefinitive, newTy, newElement, newValue, newAssignment,
    newBody, newConstraint, newSpec, newElements, newUnion, newParts, newPart, newElementss, newBound, newNamed, newComponent, newComponents, newTag, newBit, newFrom, newSymbol, newGlobal,
    newNameds, newTys, newNumber, newItem, newTys_append, newNameds_append, newComponents_append, newParts_append, newUnion_append, newElementss_append, singleElementConstraint,
    List.map_append, List.map_cons, List.map_nil, Option.map_some, Option.map_none]
  have e0 : ∀ (p : Pointers R D) (d : Nat → SymType R D) (v : SymType R D), action 121 p d v = { v with namedBitList := [(d 1).namedBit] } := fun _ _ _ => rfl
  rw [e0, e0]
  exact congrArg (fun z => { newSym f g h v with namedBitList := z }) e

theorem newRule_122 (hf : Rewording f) : NewRule (R := R) (D := D) f g h 122 := by
  intro p p' hp d v
  have e : (fun (p : Pointers R D) (d : Nat → SymType R D) => ((d 1).namedBitList ++ [(d 3).namedBit] : List (NamedBit R))) p' (fun i => newSym f g h (d i)) = (fun z : List (NamedBit R) => z.map (newBit f g)) ((fun (p : Pointers R D) (d : Nat → SymType R D) => ((d 1).namedBitList ++ [(d 3).namedBit] : List (NamedBit R))) p d) := by
    first
    | rfl
    | simp only [newSym, hf.empty, hf.generalized, hf.utc, hp.value3, hp.defined2, hp.copy, newModuleIdentifier, newDefinitive, newTy, newElement, newValue, newAssignment,
    newBody, newConstraint, newSpec, newElements, newUnion, newParts, newPart, newElementss, newBound, newNamed, newComponent, newComponents, newTag, newBit, newFrom, newSymbol, newGlobal,
    newNameds, newTys, newNumber, newItem, newTys_append, newNameds_append, newComponents_append, newParts_append, newUnion_append, newElementss_append, singleElementConstraint,
    List.map_append, List.map_cons, List.map_nil, Option.map_some, Option.map_none]
  have e0 : ∀ (p : Pointers R D) (d : Nat → SymType R D) (v : SymType R D), action 122 p d v = { v with namedBitList := (d 1).namedBitList ++ [(d 3).namedBit] } := fun _ _ _ => rfl
  rw [e0, e0]
  exact congrArg (fun z => { newSym f g h v with namedBitList := z }) e

theorem newRule_123 (hf : Rewording f) : NewRule (R := R) (D := D) f g h 123 := by
  intro p p' hp d v
  have e : (fun (p : Pointers R D) (d : Nat → SymType R D) => (⟨(d 1).name, .number (d 3).number⟩ : NamedBit R)) p' (fun i => newSym f g h (d i)) = (fun z : NamedBit R => newBit f g z) ((fun (p : Pointers R D) (d : Nat → SymType R D) => (⟨(d 1).name, .number (d 3).number⟩ : NamedBit R)) p d) := by
    first
    | rfl
    | simp only [newSym, hf.empty, hf.generalized, hf.utc, hp.value3, hp.defined2, hp.copy, newModuleIdentifier, newDefinitive, newTy, newElement, newValue, newAssignment,
    newBody, newConstraint, newSpec, newElements, newUnion, newParts, newPart, newElementss, newBound, newNamed, newComponent, newComponents, newTag, newBit, newFrom, newSymbol, newGlobal,
    newNameds, newTys, newNumber, newItem, newTys_append, newNameds_append, newComponents_append, newParts_append, newUnion_append, newElementss_append, singleElementConstraint,
    List.map_append, List.map_cons, List.map_nil, Option.map_some, Option.map_none]
  have e0 : ∀ (p : Pointers R D) (d : Nat → SymType R D) (v : SymType R D), action 123 p d v = { v with namedBit := ⟨(d 1).name, .number (d 3).number⟩ } := fun _ _ _ => rfl
  rw [e0, e0]
  exact congrArg (fun z => { newSym f g h v with namedBit := z }) e

theorem newRule_124 (hf : Rewording f) : NewRule (R := R) (D := D) f g h 124 := by
  intro p p' hp d v
  have e : (fun (p : Pointers R D) (d : Nat → SymType R D) => (⟨(d 1).name, .defined (d 3).definedValue⟩ : NamedBit R)) p' (fun i => newSym f g h (d i)) = (fun z : NamedBit R => newBit f g z) ((fun (p : Pointers R D) (d : Nat → SymType R D) => (⟨(d 1).name, .defined (d 3).definedValue⟩ : NamedBit R)) p d) := by
    first
    | rfl
    | simp only [newSym, hf.empty, hf.generalized, hf.utc, hp.value3, hp.defined2, hp.copy, newModuleIdentifier, newDefinitive, newTy, newElement, newValue, newAssignment,
    newBody, newConstraint, newSpec, newElements, newUnion, newParts, newPart, newElementss, newBound, newNamed, newComponent, newComponents, newTag, newBit, newFrom, newSymbol, newGlobal,
    newNameds, newTys, newNumber, newItem, newTys_append, newNameds_append, newComponents_append, newParts_append, newUnion_append, newElementss_append, singleElementConstraint,
    List.map_append, List.map_cons, List.map_nil, Option.map_some, Option.map_none]
  have e0 : ∀ (p : Pointers R D) (d : Nat → SymType R D) (v : SymType R D), action 124 p d v = { v with namedBit := ⟨(d 1).name, .defined (d 3).definedValue⟩ } := fun _ _ _ => rfl
  rw [e0, e0]
  exact congrArg (fun z => { newSym f g h v with namedBit := z }) e

theorem newRule_125 (hf : Rewording f) : NewRule (R := R) (D := D) f g h 125 := by
  intro p p' hp d v
  have e : (fun (p : Pointers R D) (d : Nat → SymType R D) => (.octetString : Ty R D)) p' (fun i => newSym f g h (d i)) = (fun z : Ty R D => newTy f g h z) ((fun (p : Pointers R D) (d : Nat → SymType R D) => (.octetString : Ty R D)) p d) := by
    first
    | rfl
    | simp only [newSym, hf.empty, hf.generalized, hf.utc, hp.value3, hp.defined2, hp.copy, newModuleIdentifier, newDefinitive, newTy, newElement, newValue, newAssignment,
    newBody, newConstraint, newSpec, newElements, newUnion, newParts, newPart, newElementss, newBound, newNamed, newComponent, newComponents, newTag, newBit, newFrom, newSymbol, newGlobal,
    newNameds, newTys, newNumber, newItem, newTys_append, newNameds_append, newComponents_append, newParts_append, newUnion_append, newElementss_append, singleElementConstraint,
    List.map_append, List.map_cons, List.map_nil, Option.map_some, Option.map_none]
  have e0 : ∀ (p : Pointers R D) (d : Nat → SymType R D) (v : SymType R D), action 125 p d v = { v with type := .octetString } := fun _ _ _ => rfl
  rw [e0, e0]
  exact congrArg (fun z => { newSym f g h v with type := z }) e

theorem newRule_126 (hf : Rewording f) : NewRule (R := R) (D := D) f g h 126 := by
  intro p p' hp d v
  have e : (fun (p : Pointers R D) (d : Nat → SymType R D) => (.null : Ty R D)) p' (fun i => newSym f g h (d i)) = (fun z : Ty R D => newTy f g h z) ((fun (p : Pointers R D) (d : Nat → SymType R D) => (.null : Ty R D)) p d) := by
    first
    | rfl
    | simp only [newSym, hf.empty, hf.generalized, hf.utc, hp.value3, hp.defined2, hp.copy, newModuleIdentifier, newDefinitive, newTy, newElement, newValue, newAssignment,
    newBody, newConstraint, newSpec, newElements, newUnion, newParts, newPart, newElementss, newBound, newNamed, newComponent, newComponents, newTag, newBit, newFrom, newSymbol, newGlobal,
    newNameds, newTys, newNumber, newItem, newTys_append, newNameds_append, newComponents_append, newParts_append, newUnion_append, newElementss_append, singleElementConstraint,
    List.map_append, List.map_cons, List.map_nil, Option.map_some, Option.map_none]
  have e0 : ∀ (p : Pointers R D) (d : Nat → SymType R D) (v : SymType R D), action 126 p d v = { v with type := .null } := fun _ _ _ => rfl
  rw [e0, e0]
  exact congrArg (fun z => { newSym f g h v with type := z }) e

theorem newRule_127 (hf : Rewording f) : NewRule (R := R) (D := D) f g h 127 := by
  intro p p' hp d v
  have e : (fun (p : Pointers R D) (d : Nat → SymType R D) => (.sequence [] [] : Ty R D)) p' (fun i => newSym f g h (d i)) = (fun z : Ty R D => newTy f g h z) ((fun (p : Pointers R D) (d : Nat → SymType R D) => (.sequence [] [] : Ty R D)) p d) := by
    first
    | rfl
    | simp only [newSym, hf.empty, hf.generalized, hf.utc, hp.value3, hp.defined2, hp.copy, newModuleIdentifier, newDefinitive, newTy, newElement, newValue, newAssignment,
    newBody, newConstraint, newSpec, newElements, newUnion, newParts, newPart, newElementss, newBound, newNamed, newComponent, newComponents, newTag, newBit, newFrom, newSymbol, newGlobal,
    newNameds, newTys, newNumber, newItem, newTys_append, newNameds_append, newComponents_append, newParts_append, newUnion_append, newElementss_append, singleElementConstraint,
    List.map_append, List.map_cons, List.map_nil, Option.map_some, Option.map_none]
  have e0 : ∀ (p : Pointers R D) (d : Nat → SymType R D) (v : SymType R D), action 127 p d v = { v with type := .sequence [] [] } := fun _ _ _ => rfl
  rw [e0, e0]
  exact congrArg (fun z => { newSym f g h v with type := z }) e

theorem newRule_128 (hf : Rewording f) : NewRule (R := R) (D := D) f g h 128 := by
  intro p p' hp d v
  have e : (fun (p : Pointers R D) (d : Nat → SymType R D) => (.sequence [] [] : Ty R D)) p' (fun i => newSym f g h (d i)) = (fun z : Ty R D => newTy f g h z) ((fun (p : Pointers R D) (d : Nat → SymType R D) => (.sequence [] [] : Ty R D)) p d) := by
    first
    | rfl
    | simp only [newSym, hf.empty, hf.generalized, hf.utc, hp.value3, hp.defined2, hp.copy, newModuleIdentifier, newDefinitive, newTy, newElement, newValue, newAssignment,
    newBody, newConstraint, newSpec, newElements, newUnion, newParts, newPart, newElementss, newBound, newNamed, newComponent, newComponents, newTag, newBit, newFrom, newSymbol, newGlobal,
    newNameds, newTys, newNumber, newItem, newTys_append, newNameds_append, newComponents_append, newParts_append, newUnion_append, newElementss_append, singleElementConstraint,
    List.map_append, List.map_cons, List.map_nil, Option.map_some, Option.map_none]
  have e0 : ∀ (p : Pointers R D) (d : Nat → SymType R D) (v : SymType R D), action 128 p d v = { v with type := .sequence [] [] } := fun _ _ _ => rfl
  rw [e0, e0]
  exact congrArg (fun z => { newSym f g h v with type := z }) e

theorem newRule_129 (hf : Rewording f) : NewRule (R := R) (D := D) f g h 129 := by
  intro p p' hp d v
  have e : (fun (p : Pointers R D) (d : Nat → SymType R D) => (.sequence ((d 3).componentTypeLists.components ++ (d 3).componentTypeLists.trailingComponents) (d 3).componentTypeLists.extensionAdditions : Ty R D)) p' (fun i => newSym f g h (d i)) = (fun z : Ty R D => newTy f g h z) ((fun (p : Pointers R D) (d : Nat → SymType R D) => (.sequence ((d 3).componentTypeLists.components ++ (d 3).componentTypeLists.trailingComponents) (d 3).componentTypeLists.extensionAdditions : Ty R D)) p d) := by
    first
    | rfl
    | simp only [newSym, hf.empty, hf.generalized, hf.utc, hp.value3, hp.defined2, hp.copy, newModuleIdentifier, newDefinitive, newTy, newElement, newValue, newAssignment,
    newBody, newConstraint, newSpec, newElements, newUnion, newParts, newPart, newElementss, newBound, newNamed, newComponent, newComponents, newTag, newBit, newFrom, newSymbol, newGlobal,
    newNameds, newTys, newNumber, newItem, newTys_append, newNameds_append, newComponents_append, newParts_append, newUnion_append, newElementss_append, singleElementConstraint,
    List.map_append, List.map_cons, List.map_nil, Option.map_some, Option.map_none]
  have e0 : ∀ (p : Pointers R D) (d : Nat → SymType R D) (v : SymType R D), action 129 p d v = { v with type := .sequence ((d 3).componentTypeLists.components ++ (d 3).componentTypeLists.trailingComponents) (d 3).componentTypeLists.extensionAdditions } := fun _ _ _ => rfl
  rw [e0, e0]
  exact congrArg (fun z => { newSym f g h v with type := z }) e

theorem newRule_130 : NewRule (R := R) (D := D) f g h 130 := by
  intro p p' _ d v
  have e0 : ∀ (p : Pointers R D) (d : Nat → SymType R D) (v : SymType R D), action 130 p d v = v := fun _ _ _ => rfl
  rw [e0, e0]

theorem newRule_131 : NewRule (R := R) (D := D) f g h 131 := by
  intro p p' _ d v
  have e0 : ∀ (p : Pointers R D) (d : Nat → SymType R D) (v : SymType R D), action 131 p d v = v := fun _ _ _ => rfl
  rw [e0, e0]

theorem newRule_132 : NewRule (R := R) (D := D) f g h 132 := by
  intro p p' _ d v
  have e0 : ∀ (p : Pointers R D) (d : Nat → SymType R D) (v : SymType R D), action 132 p d v = v := fun _ _ _ => rfl
  rw [e0, e0]

theorem newRule_133 : NewRule (R := R) (D := D) f g h 133 := by
  intro p p' _ d v
  have e0 : ∀ (p : Pointers R D) (d : Nat → SymType R D) (v : SymType R D), action 133 p d v = v := fun _ _ _ => rfl
  rw [e0, e0]

theorem newRule_134 (hf : Rewording f) : NewRule (R := R) (D := D) f g h 134 := by
  intro p p' hp d v
  have e : (fun (p : Pointers R D) (d : Nat → SymType R D) => ({ components := (d 1).componentTypeList } : ComponentTypeLists R D)) p' (fun i => newSym f g h (d i)) = (fun z : ComponentTypeLists R D => ⟨newComponents f g h z.components, newComponents f g h z.extensionAdditions, newComponents f g h z.trailingComponents⟩ : ComponentTypeLists R D → ComponentTypeLists R D) ((fun (p : Pointers R D) (d : Nat → SymType R D) => ({ components := (d 1).componentTypeList } : ComponentTypeLists R D)) p d) := by
    first
    | rfl
    | simp only [newSym, hf.empty, hf.generalized, hf.utc, hp.value3, hp.defined2, hp.copy, newModuleIdentifier, newDefinitive, newTy, newElement, newValue, newAssignment,
    newBody, newConstraint, newSpec, newElements, newUnion, newParts, newPart, newElementss, newBound, newNamed, newComponent, newComponents, newTag, newBit, newFrom, newSymbol, newGlobal,
    newNameds, newTys, newNumber, newItem, newTys_append, newNameds_append, newComponents_append, newParts_append, newUnion_append, newElementss_append, singleElementConstraint,
    List.map_append, List.map_cons, List.map_nil, Option.map_some, Option.map_none]
  have e0 : ∀ (p : Pointers R D) (d : Nat → SymType R D) (v : SymType R D), action 134 p d v = { v with componentTypeLists := { components := (d 1).componentTypeList } } := fun _ _ _ => rfl
  rw [e0, e0]
  exact congrArg (fun z => { newSym f g h v with componentTypeLists := z }) e

theorem newRule_135 (hf : Rewording f) : NewRule (R := R) (D := D) f g h 135 := by
  intro p p' hp d v
  have e : (fun (p : Pointers R D) (d : Nat → SymType R D) => ({ components := (d 1).componentTypeList, extensionAdditions := (d 4).extensionAdditions } : ComponentTypeLists R D)) p' (fun i => newSym f g h (d i)) = (fun z : ComponentTypeLists R D => ⟨newComponents f g h z.components, newComponents f g h z.extensionAdditions, newComponents f g h z.trailingComponents⟩ : ComponentTypeLists R D → ComponentTypeLists R D) ((fun (p : Pointers R D) (d : Nat → SymType R D) => ({ components := (d 1).componentTypeList, extensionAdditions := (d 4).extensionAdditions } : ComponentTypeLists R D)) p d) := by
    first
    | rfl
    | simp only [newSym, hf.empty, hf.generalized, hf.utc, hp.value3, hp.defined2, hp.copy, newModuleIdentifier, newDefinitive, newTy, newElement, newValue, newAssignment,
    newBody, newConstraint, newSpec, newElements, newUnion, newParts, newPart, newElementss, newBound, newNamed, newComponent, newComponents, newTag, newBit, newFrom, newSymbol, newGlobal,
    newNameds, newTys, newNumber, newItem, newTys_append, newNameds_append, newComponents_append, newParts_append, newUnion_append, newElementss_append, singleElementConstraint,
    List.map_append, List.map_cons, List.map_nil, Option.map_some, Option.map_none]
  have e0 : ∀ (p : Pointers R D) (d : Nat → SymType R D) (v : SymType R D), action 135 p d v = { v with componentTypeLists := { components := (d 1).componentTypeList, extensionAdditions := (d 4).extensionAdditions } } := fun _ _ _ => rfl
  rw [e0, e0]
  exact congrArg (fun z => { newSym f g h v with componentTypeLists := z }) e

theorem newRule_136 (hf : Rewording f) : NewRule (R := R) (D := D) f g h 136 := by
  intro p p' hp d v
  have e : (fun (p : Pointers R D) (d : Nat → SymType R D) => (⟨(d 1).componentTypeList, (d 4).extensionAdditions, (d 7).componentTypeList⟩ : ComponentTypeLists R D)) p' (fun i => newSym f g h (d i)) = (fun z : ComponentTypeLists R D => ⟨newComponents f g h z.components, newComponents f g h z.extensionAdditions, newComponents f g h z.trailingComponents⟩ : ComponentTypeLists R D → ComponentTypeLists R D) ((fun (p : Pointers R D) (d : Nat → SymType R D) => (⟨(d 1).componentTypeList, (d 4).extensionAdditions, (d 7).componentTypeList⟩ : ComponentTypeLists R D)) p d) := by
    first
    | rfl
    | simp only [newSym, hf.empty, hf.generalized, hf.utc, hp.value3, hp.defined2, hp.copy, newModuleIdentifier, newDefinitive, newTy, newElement, newValue, newAssignment,
    newBody, newConstraint, newSpec, newElements, newUnion, newParts, newPart, newElementss, newBound, newNamed, newComponent, newComponents, newTag, newBit, newFrom, newSymbol, newGlobal,
    newNameds, newTys, newNumber, newItem, newTys_append, newNameds_append, newComponents_append, newParts_append, newUnion_append, newElementss_append, singleElementConstraint,
    List.map_append, List.map_cons, List.map_nil, Option.map_some, Option.map_none]
  have e0 : ∀ (p : Pointers R D) (d : Nat → SymType R D) (v : SymType R D), action 136 p d v = { v with componentTypeLists := ⟨(d 1).componentTypeList, (d 4).extensionAdditions, (d 7).componentTypeList⟩ } := fun _ _ _ => rfl
  rw [e0, e0]
  exact congrArg (fun z => { newSym f g h v with componentTypeLists := z }) e

theorem newRule_137 : NewRule (R := R) (D := D) f g h 137 := by
  intro p p' _ d v
  have e0 : ∀ (p : Pointers R D) (d : Nat → SymType R D) (v : SymType R D), action 137 p d v = v := fun _ _ _ => rfl
  rw [e0, e0]

theorem newRule_138 : NewRule (R := R) (D := D) f g h 138 := by
  intro p p' _ d v
  have e0 : ∀ (p : Pointers R D) (d : Nat → SymType R D) (v : SymType R D), action 138 p d v = v := fun _ _ _ => rfl
  rw [e0, e0]

theorem newRule_139 (hf : Rewording f) : NewRule (R := R) (D := D) f g h 139 := by
  intro p p' hp d v
  have e : (fun (p : Pointers R D) (d : Nat → SymType R D) => ((d 2).extensionAdditions : List (ComponentType R D))) p' (fun i => newSym f g h (d i)) = (fun z : List (ComponentType R D) => newComponents f g h z) ((fun (p : Pointers R D) (d : Nat → SymType R D) => ((d 2).extensionAdditions : List (ComponentType R D))) p d) := by
    first
    | rfl
    | simp only [newSym, hf.empty, hf.generalized, hf.utc, hp.value3, hp.defined2, hp.copy, newModuleIdentifier, newDefinitive, newTy, newElement, newValue, newAssignment,
    newBody, newConstraint, newSpec, newElements, newUnion, newParts, newPart, newElementss, newBound, newNamed, newComponent, newComponents, newTag, newBit, newFrom, newSymbol, newGlobal,
    newNameds, newTys, newNumber, newItem, newTys_append, newNameds_append, newComponents_append, newParts_append, newUnion_append, newElementss_append, singleElementConstraint,
    List.map_append, List.map_cons, List.map_nil, Option.map_some, Option.map_none]
  have e0 : ∀ (p : Pointers R D) (d : Nat → SymType R D) (v : SymType R D), action 139 p d v = { v with extensionAdditions := (d 2).extensionAdditions } := fun _ _ _ => rfl
  rw [e0, e0]
  exact congrArg (fun z => { newSym f g h v with extensionAdditions := z }) e

theorem newRule_140 (hf : Rewording f) : NewRule (R := R) (D := D) f g h 140 := by
  intro p p' hp d v
  have e : (fun (p : Pointers R D) (d : Nat → SymType R D) => ([] : List (ComponentType R D))) p' (fun i => newSym f g h (d i)) = (fun z : List (ComponentType R D) => newComponents f g h z) ((fun (p : Pointers R D) (d : Nat → SymType R D) => ([] : List (ComponentType R D))) p d) := by
    first
    | rfl
    | simp only [newSym, hf.empty, hf.generalized, hf.utc, hp.value3, hp.defined2, hp.copy, newModuleIdentifier, newDefinitive, newTy, newElement, newValue, newAssignment,
    newBody, newConstraint, newSpec, newElements, newUnion, newParts, newPart, newElementss, newBound, newNamed, newComponent, newComponents, newTag, newBit, newFrom, newSymbol, newGlobal,
    newNameds, newTys, newNumber, newItem, newTys_append, newNameds_append, newComponents_append, newParts_append, newUnion_append, newElementss_append, singleElementConstraint,
    List.map_append, List.map_cons, List.map_nil, Option.map_some, Option.map_none]
  have e0 : ∀ (p : Pointers R D) (d : Nat → SymType R D) (v : SymType R D), action 140 p d v = { v with extensionAdditions := [] } := fun _ _ _ => rfl
  rw [e0, e0]
  exact congrArg (fun z => { newSym f g h v with extensionAdditions := z }) e

theorem newRule_141 (hf : Rewording f) : NewRule (R := R) (D := D) f g h 141 := by
  intro p p' hp d v
  have e : (fun (p : Pointers R D) (d : Nat → SymType R D) => ((d 1).extensionAdditions : List (ComponentType R D))) p' (fun i => newSym f g h (d i)) = (fun z : List (ComponentType R D) => newComponents f g h z) ((fun (p : Pointers R D) (d : Nat → SymType R D) => ((d 1).extensionAdditions : List (ComponentType R D))) p d) := by
    first
    | rfl
    | simp only [newSym, hf.empty, hf.generalized, hf.utc, hp.value3, hp.defined2, hp.copy, newModuleIdentifier, newDefinitive, newTy, newElement, newValue, newAssignment,
    newBody, newConstraint, newSpec, newElements, newUnion, newParts, newPart, newElementss, newBound, newNamed, newComponent, newComponents, newTag, newBit, newFrom, newSymbol, newGlobal,
    newNameds, newTys, newNumber, newItem, newTys_append, newNameds_append, newComponents_append, newParts_append, newUnion_append, newElementss_append, singleElementConstraint,
    List.map_append, List.map_cons, List.map_nil, Option.map_some, Option.map_none]
  have e0 : ∀ (p : Pointers R D) (d : Nat → SymType R D) (v : SymType R D), action 141 p d v = { v with extensionAdditions := (d 1).extensionAdditions } := fun _ _ _ => rfl
  rw [e0, e0]
  exact congrArg (fun z => { newSym f g h v with extensionAdditions := z }) e

theorem newRule_142 (hf : Rewording f) : NewRule (R := R) (D := D) f g h 142 := by
  intro p p' hp d v
  have e : (fun (p : Pointers R D) (d : Nat → SymType R D) => ((d 1).extensionAdditions ++ (d 3).extensionAdditions : List (ComponentType R D))) p' (fun i => newSym f g h (d i)) = (fun z : List (ComponentType R D) => newComponents f g h z) ((fun (p : Pointers R D) (d : Nat → SymType R D) => ((d 1).extensionAdditions ++ (d 3).extensionAdditions : List (ComponentType R D))) p d) := by
    first
    | rfl
    | simp only [newSym, hf.empty, hf.generalized, hf.utc, hp.value3, hp.defined2, hp.copy, newModuleIdentifier, newDefinitive, newTy, newElement, newValue, newAssignment,
    newBody, newConstraint, newSpec, newElements, newUnion, newParts, newPart, newElementss, newBound, newNamed, newComponent, newComponents, newTag, newBit, newFrom, newSymbol, newGlobal,
    newNameds, newTys, newNumber, newItem, newTys_append, newNameds_append, newComponents_append, newParts_append, newUnion_append, newElementss_append, singleElementConstraint,
    List.map_append, List.map_cons, List.map_nil, Option.map_some, Option.map_none]
  have e0 : ∀ (p : Pointers R D) (d : Nat → SymType R D) (v : SymType R D), action 142 p d v = { v with extensionAdditions := (d 1).extensionAdditions ++ (d 3).extensionAdditions } := fun _ _ _ => rfl
  rw [e0, e0]
  exact congrArg (fun z => { newSym f g h v with extensionAdditions := z }) e

theorem newRule_143 (hf : Rewording f) : NewRule (R := R) (D := D) f g h 143 := by
  intro p p' hp d v
  have e : (fun (p : Pointers R D) (d : Nat → SymType R D) => ([(d 1).componentType] : List (ComponentType R D))) p' (fun i => newSym f g h (d i)) = (fun z : List (ComponentType R D) => newComponents f g h z) ((fun (p : Pointers R D) (d : Nat → SymType R D) => ([(d 1).componentType] : List (ComponentType R D))) p d) := by
    first
    | rfl
    | simp only [newSym, hf.empty, hf.generalized, hf.utc, hp.value3, hp.defined2, hp.copy, newModuleIdentifier, newDefinitive, newTy, newElement, newValue, newAssignment,
    newBody, newConstraint, newSpec, newElements, newUnion, newParts, newPart, newElementss, newBound, newNamed, newComponent, newComponents, newTag, newBit, newFrom, newSymbol, newGlobal,
    newNameds, newTys, newNumber, newItem, newTys_append, newNameds_append, newComponents_append, newParts_append, newUnion_append, newElementss_append, singleElementConstraint,
    List.map_append, List.map_cons, List.map_nil, Option.map_some, Option.map_none]
  have e0 : ∀ (p : Pointers R D) (d : Nat → SymType R D) (v : SymType R D), action 143 p d v = { v with extensionAdditions := [(d 1).componentType] } := fun _ _ _ => rfl
  rw [e0, e0]
  exact congrArg (fun z => { newSym f g h v with extensionAdditions := z }) e

theorem newRule_144 (hf : Rewording f) : NewRule (R := R) (D := D) f g h 144 := by
  intro p p' hp d v
  have e : (fun (p : Pointers R D) (d : Nat → SymType R D) => ([] : List (ComponentType R D))) p' (fun i => newSym f g h (d i)) = (fun z : List (ComponentType R D) => newComponents f g h z) ((fun (p : Pointers R D) (d : Nat → SymType R D) => ([] : List (ComponentType R D))) p d) := by
    first
    | rfl
    | simp only [newSym, hf.empty, hf.generalized, hf.utc, hp.value3, hp.defined2, hp.copy, newModuleIdentifier, newDefinitive, newTy, newElement, newValue, newAssignment,
    newBody, newConstraint, newSpec, newElements, newUnion, newParts, newPart, newElementss, newBound, newNamed, newComponent, newComponents, newTag, newBit, newFrom, newSymbol, newGlobal,
    newNameds, newTys, newNumber, newItem, newTys_append, newNameds_append, newComponents_append, newParts_append, newUnion_append, newElementss_append, singleElementConstraint,
    List.map_append, List.map_cons, List.map_nil, Option.map_some, Option.map_none]
  have e0 : ∀ (p : Pointers R D) (d : Nat → SymType R D) (v : SymType R D), action 144 p d v = { v with extensionAdditions := [] } := fun _ _ _ => rfl
  rw [e0, e0]
  exact congrArg (fun z => { newSym f g h v with extensionAdditions := z }) e

theorem newRule_145 : NewRule (R := R) (D := D) f g h 145 := by
  intro p p' _ d v
  have e0 : ∀ (p : Pointers R D) (d : Nat → SymType R D) (v : SymType R D), action 145 p d v = v := fun _ _ _ => rfl
  rw [e0, e0]

theorem newRule_146 : NewRule (R := R) (D := D) f g h 146 := by
  intro p p' _ d v
  have e0 : ∀ (p : Pointers R D) (d : Nat → SymType R D) (v : SymType R D), action 146 p d v = v := fun _ _ _ => rfl
  rw [e0, e0]

theorem newRule_147 : NewRule (R := R) (D := D) f g h 147 := by
  intro p p' _ d v
  have e0 : ∀ (p : Pointers R D) (d : Nat → SymType R D) (v : SymType R D), action 147 p d v = v := fun _ _ _ => rfl
  rw [e0, e0]

theorem newRule_148 (hf : Rewording f) : NewRule (R := R) (D := D) f g h 148 := by
  intro p p' hp d v
  have e : (fun (p : Pointers R D) (d : Nat → SymType R D) => ([(d 1).componentType] : List (ComponentType R D))) p' (fun i => newSym f g h (d i)) = (fun z : List (ComponentType R D) => newComponents f g h z) ((fun (p : Pointers R D) (d : Nat → SymType R D) => ([(d 1).componentType] : List (ComponentType R D))) p d) := by
    first
    | rfl
    | simp only [newSym, hf.empty, hf.generalized, hf.utc, hp.value3, hp.defined2, hp.copy, newModuleIdentifier, newDefinitive, newTy, newElement, newValue, newAssignment,
    newBody, newConstraint, newSpec, newElements, newUnion, newParts, newPart, newElementss, newBound, newNamed, newComponent, newComponents, newTag, newBit, newFrom, newSymbol, newGlobal,
    newNameds, newTys, newNumber, newItem, newTys_append, newNameds_append, newComponents_append, newParts_append, newUnion_append, newElementss_append, singleElementConstraint,
    List.map_append, List.map_cons, List.map_nil, Option.map_some, Option.map_none]
  have e0 : ∀ (p : Pointers R D) (d : Nat → SymType R D) (v : SymType R D), action 148 p d v = { v with componentTypeList := [(d 1).componentType] } := fun _ _ _ => rfl
  rw [e0, e0]
  exact congrArg (fun z => { newSym f g h v with componentTypeList := z }) e

theorem newRule_149 (hf : Rewording f) : NewRule (R := R) (D := D) f g h 149 := by
  intro p p' hp d v
  have e : (fun (p : Pointers R D) (d : Nat → SymType R D) => ((d 1).componentTypeList ++ [(d 3).componentType] : List (ComponentType R D))) p' (fun i => newSym f g h (d i)) = (fun z : List (ComponentType R D) => newComponents f g h z) ((fun (p : Pointers R D) (d : Nat → SymType R D) => ((d 1).componentTypeList ++ [(d 3).componentType] : List (ComponentType R D))) p d) := by
    first
    | rfl
    | simp only [newSym, hf.empty, hf.generalized, hf.utc, hp.value3, hp.defined2, hp.copy, newModuleIdentifier, newDefinitive, newTy, newElement, newValue, newAssignment,
    newBody, newConstraint, newSpec, newElements, newUnion, newParts, newPart, newElementss, newBound, newNamed, newComponent, newComponents, newTag, newBit, newFrom, newSymbol, newGlobal,
    newNameds, newTys, newNumber, newItem, newTys_append, newNameds_append, newComponents_append, newParts_append, newUnion_append, newElementss_append, singleElementConstraint,
    List.map_append, List.map_cons, List.map_nil, Option.map_some, Option.map_none]
  have e0 : ∀ (p : Pointers R D) (d : Nat → SymType R D) (v : SymType R D), action 149 p d v = { v with componentTypeList := (d 1).componentTypeList ++ [(d 3).componentType] } := fun _ _ _ => rfl
  rw [e0, e0]
  exact congrArg (fun z => { newSym f g h v with componentTypeList := z }) e

theorem newRule_150 (hf : Rewording f) : NewRule (R := R) (D := D) f g h 150 := by
  intro p p' hp d v
  have e : (fun (p : Pointers R D) (d : Nat → SymType R D) => (.named (d 1).namedType false none : ComponentType R D)) p' (fun i => newSym f g h (d i)) = (fun z : ComponentType R D => newComponent f g h z) ((fun (p : Pointers R D) (d : Nat → SymType R D) => (.named (d 1).namedType false none : ComponentType R D)) p d) := by
    first
    | rfl
    | simp only [newSym, hf.empty, hf.generalized, hf.utc, hp.value3, hp.defined2, hp.copy, newModuleIdentifier, newDefinitive, newTy, newElement, newValue, newAssignment,
    newBody, newConstraint, newSpec, newElements, newUnion, newParts, newPart, newElementss, newBound, newNamed, newComponent, newComponents, newTag, newBit, newFrom, newSymbol, newGlobal,
    newNameds, newTys, newNumber, newItem, newTys_append, newNameds_append, newComponents_append, newParts_append, newUnion_append, newElementss_append, singleElementConstraint,
    List.map_append, List.map_cons, List.map_nil, Option.map_some, Option.map_none]
  have e0 : ∀ (p : Pointers R D) (d : Nat → SymType R D) (v : SymType R D), action 150 p d v = { v with componentType := .named (d 1).namedType false none } := fun _ _ _ => rfl
  rw [e0, e0]
  exact congrArg (fun z => { newSym f g h v with componentType := z }) e

theorem newRule_151 (hf : Rewording f) : NewRule (R := R) (D := D) f g h 151 := by
  intro p p' hp d v
  have e : (fun (p : Pointers R D) (d : Nat → SymType R D) => (.named (d 1).namedType true none : ComponentType R D)) p' (fun i => newSym f g h (d i)) = (fun z : ComponentType R D => newComponent f g h z) ((fun (p : Pointers R D) (d : Nat → SymType R D) => (.named (d 1).namedType true none : ComponentType R D)) p d) := by
    first
    | rfl
    | simp only [newSym, hf.empty, hf.generalized, hf.utc, hp.value3, hp.defined2, hp.copy, newModuleIdentifier, newDefinitive, newTy, newElement, newValue, newAssignment,
    newBody, newConstraint, newSpec, newElements, newUnion, newParts, newPart, newElementss, newBound, newNamed, newComponent, newComponents, newTag, newBit, newFrom, newSymbol, newGlobal,
    newNameds, newTys, newNumber, newItem, newTys_append, newNameds_append, newComponents_append, newParts_append, newUnion_append, newElementss_append, singleElementConstraint,
    List.map_append, List.map_cons, List.map_nil, Option.map_some, Option.map_none]
  have e0 : ∀ (p : Pointers R D) (d : Nat → SymType R D) (v : SymType R D), action 151 p d v = { v with componentType := .named (d 1).namedType true none } := fun _ _ _ => rfl
  rw [e0, e0]
  exact congrArg (fun z => { newSym f g h v with componentType := z }) e

theorem newRule_152 (hf : Rewording f) : NewRule (R := R) (D := D) f g h 152 := by
  intro p p' hp d v
  have e : (fun (p : Pointers R D) (d : Nat → SymType R D) => (.named (d 1).namedType false (some p.value3) : ComponentType R D)) p' (fun i => newSym f g h (d i)) = (fun z : ComponentType R D => newComponent f g h z) ((fun (p : Pointers R D) (d : Nat → SymType R D) => (.named (d 1).namedType false (some p.value3) : ComponentType R D)) p d) := by
    first
    | rfl
    | simp only [newSym, hf.empty, hf.generalized, hf.utc, hp.value3, hp.defined2, hp.copy, newModuleIdentifier, newDefinitive, newTy, newElement, newValue, newAssignment,
    newBody, newConstraint, newSpec, newElements, newUnion, newParts, newPart, newElementss, newBound, newNamed, newComponent, newComponents, newTag, newBit, newFrom, newSymbol, newGlobal,
    newNameds, newTys, newNumber, newItem, newTys_append, newNameds_append, newComponents_append, newParts_append, newUnion_append, newElementss_append, singleElementConstraint,
    List.map_append, List.map_cons, List.map_nil, Option.map_some, Option.map_none]
  have e0 : ∀ (p : Pointers R D) (d : Nat → SymType R D) (v : SymType R D), action 152 p d v = { v with componentType := .named (d 1).namedType false (some p.value3) } := fun _ _ _ => rfl
  rw [e0, e0]
  exact congrArg (fun z => { newSym f g h v with componentType := z }) e

theorem newRule_153 (hf : Rewording f) : NewRule (R := R) (D := D) f g h 153 := by
  intro p p' hp d v
  have e : (fun (p : Pointers R D) (d : Nat → SymType R D) => (.componentsOf (d 3).type : ComponentType R D)) p' (fun i => newSym f g h (d i)) = (fun z : ComponentType R D => newComponent f g h z) ((fun (p : Pointers R D) (d : Nat → SymType R D) => (.componentsOf (d 3).type : ComponentType R D)) p d) := by
    first
    | rfl
    | simp only [newSym, hf.empty, hf.generalized, hf.utc, hp.value3, hp.defined2, hp.copy, newModuleIdentifier, newDefinitive, newTy, newElement, newValue, newAssignment,
    newBody, newConstraint, newSpec, newElements, newUnion, newParts, newPart, newElementss, newBound, newNamed, newComponent, newComponents, newTag, newBit, newFrom, newSymbol, newGlobal,
    newNameds, newTys, newNumber, newItem, newTys_append, newNameds_append, newComponents_append, newParts_append, newUnion_append, newElementss_append, singleElementConstraint,
    List.map_append, List.map_cons, List.map_nil, Option.map_some, Option.map_none]
  have e0 : ∀ (p : Pointers R D) (d : Nat → SymType R D) (v : SymType R D), action 153 p d v = { v with componentType := .componentsOf (d 3).type } := fun _ _ _ => rfl
  rw [e0, e0]
  exact congrArg (fun z => { newSym f g h v with componentType := z }) e

theorem newRule_154 (hf : Rewording f) : NewRule (R := R) (D := D) f g h 154 := by
  intro p p' hp d v
  have e : (fun (p : Pointers R D) (d : Nat → SymType R D) => (.set [] [] : Ty R D)) p' (fun i => newSym f g h (d i)) = (fun z : Ty R D => newTy f g h z) ((fun (p : Pointers R D) (d : Nat → SymType R D) => (.set [] [] : Ty R D)) p d) := by
    first
    | rfl
    | simp only [newSym, hf.empty, hf.generalized, hf.utc, hp.value3, hp.defined2, hp.copy, newModuleIdentifier, newDefinitive, newTy, newElement, newValue, newAssignment,
    newBody, newConstraint, newSpec, newElements, newUnion, newParts, newPart, newElementss, newBound, newNamed, newComponent, newComponents, newTag, newBit, newFrom, newSymbol, newGlobal,
    newNameds, newTys, newNumber, newItem, newTys_append, newNameds_append, newComponents_append, newParts_append, newUnion_append, newElementss_append, singleElementConstraint,
    List.map_append, List.map_cons, List.map_nil, Option.map_some, Option.map_none]
  have e0 : ∀ (p : Pointers R D) (d : Nat → SymType R D) (v : SymType R D), action 154 p d v = { v with type := .set [] [] } := fun _ _ _ => rfl
  rw [e0, e0]
  exact congrArg (fun z => { newSym f g h v with type := z }) e

theorem newRule_155 (hf : Rewording f) : NewRule (R := R) (D := D) f g h 155 := by
  intro p p' hp d v
  have e : (fun (p : Pointers R D) (d : Nat → SymType R D) => (.set [] [] : Ty R D)) p' (fun i => newSym f g h (d i)) = (fun z : Ty R D => newTy f g h z) ((fun (p : Pointers R D) (d : Nat → SymType R D) => (.set [] [] : Ty R D)) p d) := by
    first
    | rfl
    | simp only [newSym, hf.empty, hf.generalized, hf.utc, hp.value3, hp.defined2, hp.copy, newModuleIdentifier, newDefinitive, newTy, newElement, newValue, newAssignment,
    newBody, newConstraint, newSpec, newElements, newUnion, newParts, newPart, newElementss, newBound, newNamed, newComponent, newComponents, newTag, newBit, newFrom, newSymbol, newGlobal,
    newNameds, newTys, newNumber, newItem, newTys_append, newNameds_append, newComponents_append, newParts_append, newUnion_append, newElementss_append, singleElementConstraint,
    List.map_append, List.map_cons, List.map_nil, Option.map_some, Option.map_none]
  have e0 : ∀ (p : Pointers R D) (d : Nat → SymType R D) (v : SymType R D), action 155 p d v = { v with type := .set [] [] } := fun _ _ _ => rfl
  rw [e0, e0]
  exact congrArg (fun z => { newSym f g h v with type := z }) e

theorem newRule_156 (hf : Rewording f) : NewRule (R := R) (D := D) f g h 156 := by
  intro p p' hp d v
  have e : (fun (p : Pointers R D) (d : Nat → SymType R D) => (.set ((d 3).componentTypeLists.components ++ (d 3).componentTypeLists.trailingComponents) (d 3).componentTypeLists.extensionAdditions : Ty R D)) p' (fun i => newSym f g h (d i)) = (fun z : Ty R D => newTy f g h z) ((fun (p : Pointers R D) (d : Nat → SymType R D) => (.set ((d 3).componentTypeLists.components ++ (d 3).componentTypeLists.trailingComponents) (d 3).componentTypeLists.extensionAdditions : Ty R D)) p d) := by
    first
    | rfl
    | simp only [newSym, hf.empty, hf.generalized, hf.utc, hp.value3, hp.defined2, hp.copy, newModuleIdentifier, newDefinitive, newTy, newElement, newValue, newAssignment,
    newBody, newConstraint, newSpec, newElements, newUnion, newParts, newPart, newElementss, newBound, newNamed, newComponent, newComponents, newTag, newBit, newFrom, newSymbol, newGlobal,
    newNameds, newTys, newNumber, newItem, newTys_append, newNameds_append, newComponents_append, newParts_append, newUnion_append, newElementss_append, singleElementConstraint,
    List.map_append, List.map_cons, List.map_nil, Option.map_some, Option.map_none]
  have e0 : ∀ (p : Pointers R D) (d : Nat → SymType R D) (v : SymType R D), action 156 p d v = { v with type := .set ((d 3).componentTypeLists.components ++ (d 3).componentTypeLists.trailingComponents) (d 3).componentTypeLists.extensionAdditions } := fun _ _ _ => rfl
  rw [e0, e0]
  exact congrArg (fun z => { newSym f g h v with type := z }) e

theorem newRule_157 (hf : Rewording f) : NewRule (R := R) (D := D) f g h 157 := by
  intro p p' hp d v
  have e : (fun (p : Pointers R D) (d : Nat → SymType R D) => (.setOf (d 3).type : Ty R D)) p' (fun i => newSym f g h (d i)) = (fun z : Ty R D => newTy f g h z) ((fun (p : Pointers R D) (d : Nat → SymType R D) => (.setOf (d 3).type : Ty R D)) p d) := by
    first
    | rfl
    | simp only [newSym, hf.empty, hf.generalized, hf.utc, hp.value3, hp.defined2, hp.copy, newModuleIdentifier, newDefinitive, newTy, newElement, newValue, newAssignment,
    newBody, newConstraint, newSpec, newElements, newUnion, newParts, newPart, newElementss, newBound, newNamed, newComponent, newComponents, newTag, newBit, newFrom, newSymbol, newGlobal,
    newNameds, newTys, newNumber, newItem, newTys_append, newNameds_append, newComponents_append, newParts_append, newUnion_append, newElementss_append, singleElementConstraint,
    List.map_append, List.map_cons, List.map_nil, Option.map_some, Option.map_none]
  have e0 : ∀ (p : Pointers R D) (d : Nat → SymType R D) (v : SymType R D), action 157 p d v = { v with type := .setOf (d 3).type } := fun _ _ _ => rfl
  rw [e0, e0]
  exact congrArg (fun z => { newSym f g h v with type := z }) e

theorem newRule_158 (hf : Rewording f) : NewRule (R := R) (D := D) f g h 158 := by
  intro p p' hp d v
  have e : (fun (p : Pointers R D) (d : Nat → SymType R D) => (.setOf (.named (d 3).namedType) : Ty R D)) p' (fun i => newSym f g h (d i)) = (fun z : Ty R D => newTy f g h z) ((fun (p : Pointers R D) (d : Nat → SymType R D) => (.setOf (.named (d 3).namedType) : Ty R D)) p d) := by
    first
    | rfl
    | simp only [newSym, hf.empty, hf.generalized, hf.utc, hp.value3, hp.defined2, hp.copy, newModuleIdentifier, newDefinitive, newTy, newElement, newValue, newAssignment,
    newBody, newConstraint, newSpec, newElements, newUnion, newParts, newPart, newElementss, newBound, newNamed, newComponent, newComponents, newTag, newBit, newFrom, newSymbol, newGlobal,
    newNameds, newTys, newNumber, newItem, newTys_append, newNameds_append, newComponents_append, newParts_append, newUnion_append, newElementss_append, singleElementConstraint,
    List.map_append, List.map_cons, List.map_nil, Option.map_some, Option.map_none]
  have e0 : ∀ (p : Pointers R D) (d : Nat → SymType R D) (v : SymType R D), action 158 p d v = { v with type := .setOf (.named (d 3).namedType) } := fun _ _ _ => rfl
  rw [e0, e0]
  exact congrArg (fun z => { newSym f g h v with type := z }) e

theorem newRule_159 (hf : Rewording f) : NewRule (R := R) (D := D) f g h 159 := by
  intro p p' hp d v
  have e : (fun (p : Pointers R D) (d : Nat → SymType R D) => (.any [] : Ty R D)) p' (fun i => newSym f g h (d i)) = (fun z : Ty R D => newTy f g h z) ((fun (p : Pointers R D) (d : Nat → SymType R D) => (.any [] : Ty R D)) p d) := by
    first
    | rfl
    | simp only [newSym, hf.empty, hf.generalized, hf.utc, hp.value3, hp.defined2, hp.copy, newModuleIdentifier, newDefinitive, newTy, newElement, newValue, newAssignment,
    newBody, newConstraint, newSpec, newElements, newUnion, newParts, newPart, newElementss, newBound, newNamed, newComponent, newComponents, newTag, newBit, newFrom, newSymbol, newGlobal,
    newNameds, newTys, newNumber, newItem, newTys_append, newNameds_append, newComponents_append, newParts_append, newUnion_append, newElementss_append, singleElementConstraint,
    List.map_append, List.map_cons, List.map_nil, Option.map_some, Option.map_none]
  have e0 : ∀ (p : Pointers R D) (d : Nat → SymType R D) (v : SymType R D), action 159 p d v = { v with type := .any [] } := fun _ _ _ => rfl
  rw [e0, e0]
  exact congrArg (fun z => { newSym f g h v with type := z }) e

theorem newRule_160 (hf : Rewording f) : NewRule (R := R) (D := D) f g h 160 := by
  intro p p' hp d v
  have e : (fun (p : Pointers R D) (d : Nat → SymType R D) => (.any (d 4).name : Ty R D)) p' (fun i => newSym f g h (d i)) = (fun z : Ty R D => newTy f g h z) ((fun (p : Pointers R D) (d : Nat → SymType R D) => (.any (d 4).name : Ty R D)) p d) := by
    first
    | rfl
    | simp only [newSym, hf.empty, hf.generalized, hf.utc, hp.value3, hp.defined2, hp.copy, newModuleIdentifier, newDefinitive, newTy, newElement, newValue, newAssignment,
    newBody, newConstraint, newSpec, newElements, newUnion, newParts, newPart, newElementss, newBound, newNamed, newComponent, newComponents, newTag, newBit, newFrom, newSymbol, newGlobal,
    newNameds, newTys, newNumber, newItem, newTys_append, newNameds_append, newComponents_append, newParts_append, newUnion_append, newElementss_append, singleElementConstraint,
    List.map_append, List.map_cons, List.map_nil, Option.map_some, Option.map_none]
  have e0 : ∀ (p : Pointers R D) (d : Nat → SymType R D) (v : SymType R D), action 160 p d v = { v with type := .any (d 4).name } := fun _ _ _ => rfl
  rw [e0, e0]
  exact congrArg (fun z => { newSym f g h v with type := z }) e

theorem newRule_161 (hf : Rewording f) : NewRule (R := R) (D := D) f g h 161 := by
  intro p p' hp d v
  have e : (fun (p : Pointers R D) (d : Nat → SymType R D) => (.choice (d 3).choiceType.1 (d 3).choiceType.2 : Ty R D)) p' (fun i => newSym f g h (d i)) = (fun z : Ty R D => newTy f g h z) ((fun (p : Pointers R D) (d : Nat → SymType R D) => (.choice (d 3).choiceType.1 (d 3).choiceType.2 : Ty R D)) p d) := by
    first
    | rfl
    | simp only [newSym, hf.empty, hf.generalized, hf.utc, hp.value3, hp.defined2, hp.copy, newModuleIdentifier, newDefinitive, newTy, newElement, newValue, newAssignment,
    newBody, newConstraint, newSpec, newElements, newUnion, newParts, newPart, newElementss, newBound, newNamed, newComponent, newComponents, newTag, newBit, newFrom, newSymbol, newGlobal,
    newNameds, newTys, newNumber, newItem, newTys_append, newNameds_append, newComponents_append, newParts_append, newUnion_append, newElementss_append, singleElementConstraint,
    List.map_append, List.map_cons, List.map_nil, Option.map_some, Option.map_none]
  have e0 : ∀ (p : Pointers R D) (d : Nat → SymType R D) (v : SymType R D), action 161 p d v = { v with type := .choice (d 3).choiceType.1 (d 3).choiceType.2 } := fun _ _ _ => rfl
  rw [e0, e0]
  exact congrArg (fun z => { newSym f g h v with type := z }) e

theorem newRule_162 (hf : Rewording f) : NewRule (R := R) (D := D) f g h 162 := by
  intro p p' hp d v
  have e : (fun (p : Pointers R D) (d : Nat → SymType R D) => (((d 1).alternativeTypeList, (d 4).extensionAdditionAlternativesList) : List (NamedType R D) × List (Ty R D))) p' (fun i => newSym f g h (d i)) = (fun z : List (NamedType R D) × List (Ty R D) => (newNameds f g h z.1, newTys f g h z.2)) ((fun (p : Pointers R D) (d : Nat → SymType R D) => (((d 1).alternativeTypeList, (d 4).extensionAdditionAlternativesList) : List (NamedType R D) × List (Ty R D))) p d) := by
    first
    | rfl
    | simp only [newSym, hf.empty, hf.generalized, hf.utc, hp.value3, hp.defined2, hp.copy, newModuleIdentifier, newDefinitive, newTy, newElement, newValue, newAssignment,
    newBody, newConstraint, newSpec, newElements, newUnion, newParts, newPart, newElementss, newBound, newNamed, newComponent, newComponents, newTag, newBit, newFrom, newSymbol, newGlobal,
    newNameds, newTys, newNumber, newItem, newTys_append, newNameds_append, newComponents_append, newParts_append, newUnion_append, newElementss_append, singleElementConstraint,
    List.map_append, List.map_cons, List.map_nil, Option.map_some, Option.map_none]
  have e0 : ∀ (p : Pointers R D) (d : Nat → SymType R D) (v : SymType R D), action 162 p d v = { v with choiceType := ((d 1).alternativeTypeList, (d 4).extensionAdditionAlternativesList) } := fun _ _ _ => rfl
  rw [e0, e0]
  exact congrArg (fun z => { newSym f g h v with choiceType := z }) e

theorem newRule_163 (hf : Rewording f) : NewRule (R := R) (D := D) f g h 163 := by
  intro p p' hp d v
  have e : (fun (p : Pointers R D) (d : Nat → SymType R D) => (((d 1).alternativeTypeList, []) : List (NamedType R D) × List (Ty R D))) p' (fun i => newSym f g h (d i)) = (fun z : List (NamedType R D) × List (Ty R D) => (newNameds f g h z.1, newTys f g h z.2)) ((fun (p : Pointers R D) (d : Nat → SymType R D) => (((d 1).alternativeTypeList, []) : List (NamedType R D) × List (Ty R D))) p d) := by
    first
    | rfl
    | simp only [newSym, hf.empty, hf.generalized, hf.utc, hp.value3, hp.defined2, hp.copy, newModuleIdentifier, newDefinitive, newTy, newElement, newValue, newAssignment,
    newBody, newConstraint, newSpec, newElements, newUnion, newParts, newPart, newElementss, newBound, newNamed, newComponent, newComponents, newTag, newBit, newFrom, newSymbol, newGlobal,
    newNameds, newTys, newNumber, newItem, newTys_append, newNameds_append, newComponents_append, newParts_append, newUnion_append, newElementss_append, singleElementConstraint,
    List.map_append, List.map_cons, List.map_nil, Option.map_some, Option.map_none]
  have e0 : ∀ (p : Pointers R D) (d : Nat → SymType R D) (v : SymType R D), action 163 p d v = { v with choiceType := ((d 1).alternativeTypeList, []) } := fun _ _ _ => rfl
  rw [e0, e0]
  exact congrArg (fun z => { newSym f g h v with choiceType := z }) e

theorem newRule_164 (hf : Rewording f) : NewRule (R := R) (D := D) f g h 164 := by
  intro p p' hp d v
  have e : (fun (p : Pointers R D) (d : Nat → SymType R D) => (([], (d 2).extensionAdditionAlternativesList) : List (NamedType R D) × List (Ty R D))) p' (fun i => newSym f g h (d i)) = (fun z : List (NamedType R D) × List (Ty R D) => (newNameds f g h z.1, newTys f g h z.2)) ((fun (p : Pointers R D) (d : Nat → SymType R D) => (([], (d 2).extensionAdditionAlternativesList) : List (NamedType R D) × List (Ty R D))) p d) := by
    first
    | rfl
    | simp only [newSym, hf.empty, hf.generalized, hf.utc, hp.value3, hp.defined2, hp.copy, newModuleIdentifier, newDefinitive, newTy, newElement, newValue, newAssignment,
    newBody, newConstraint, newSpec, newElements, newUnion, newParts, newPart, newElementss, newBound, newNamed, newComponent, newComponents, newTag, newBit, newFrom, newSymbol, newGlobal,
    newNameds, newTys, newNumber, newItem, newTys_append, newNameds_append, newComponents_append, newParts_append, newUnion_append, newElementss_append, singleElementConstraint,
    List.map_append, List.map_cons, List.map_nil, Option.map_some, Option.map_none]
  have e0 : ∀ (p : Pointers R D) (d : Nat → SymType R D) (v : SymType R D), action 164 p d v = { v with choiceType := ([], (d 2).extensionAdditionAlternativesList) } := fun _ _ _ => rfl
  rw [e0, e0]
  exact congrArg (fun z => { newSym f g h v with choiceType := z }) e

theorem newRule_165 : NewRule (R := R) (D := D) f g h 165 := by
  intro p p' _ d v
  have e0 : ∀ (p : Pointers R D) (d : Nat → SymType R D) (v : SymType R D), action 165 p d v = v := fun _ _ _ => rfl
  rw [e0, e0]

theorem newRule_166 (hf : Rewording f) : NewRule (R := R) (D := D) f g h 166 := by
  intro p p' hp d v
  have e : (fun (p : Pointers R D) (d : Nat → SymType R D) => ((d 2).extensionAdditionAlternativesList : List (Ty R D))) p' (fun i => newSym f g h (d i)) = (fun z : List (Ty R D) => newTys f g h z) ((fun (p : Pointers R D) (d : Nat → SymType R D) => ((d 2).extensionAdditionAlternativesList : List (Ty R D))) p d) := by
    first
    | rfl
    | simp only [newSym, hf.empty, hf.generalized, hf.utc, hp.value3, hp.defined2, hp.copy, newModuleIdentifier, newDefinitive, newTy, newElement, newValue, newAssignment,
    newBody, newConstraint, newSpec, newElements, newUnion, newParts, newPart, newElementss, newBound, newNamed, newComponent, newComponents, newTag, newBit, newFrom, newSymbol, newGlobal,
    newNameds, newTys, newNumber, newItem, newTys_append, newNameds_append, newComponents_append, newParts_append, newUnion_append, newElementss_append, singleElementConstraint,
    List.map_append, List.map_cons, List.map_nil, Option.map_some, Option.map_none]
  have e0 : ∀ (p : Pointers R D) (d : Nat → SymType R D) (v : SymType R D), action 166 p d v = { v with extensionAdditionAlternativesList := (d 2).extensionAdditionAlternativesList } := fun _ _ _ => rfl
  rw [e0, e0]
  exact congrArg (fun z => { newSym f g h v with extensionAdditionAlternativesList := z }) e

theorem newRule_167 (hf : Rewording f) : NewRule (R := R) (D := D) f g h 167 := by
  intro p p' hp d v
  have e : (fun (p : Pointers R D) (d : Nat → SymType R D) => ([] : List (Ty R D))) p' (fun i => newSym f g h (d i)) = (fun z : List (Ty R D) => newTys f g h z) ((fun (p : Pointers R D) (d : Nat → SymType R D) => ([] : List (Ty R D))) p d) := by
    first
    | rfl
    | simp only [newSym, hf.empty, hf.generalized, hf.utc, hp.value3, hp.defined2, hp.copy, newModuleIdentifier, newDefinitive, newTy, newElement, newValue, newAssignment,
    newBody, newConstraint, newSpec, newElements, newUnion, newParts, newPart, newElementss, newBound, newNamed, newComponent, newComponents, newTag, newBit, newFrom, newSymbol, newGlobal,
    newNameds, newTys, newNumber, newItem, newTys_append, newNameds_append, newComponents_append, newParts_append, newUnion_append, newElementss_append, singleElementConstraint,
    List.map_append, List.map_cons, List.map_nil, Option.map_some, Option.map_none]
  have e0 : ∀ (p : Pointers R D) (d : Nat → SymType R D) (v : SymType R D), action 167 p d v = { v with extensionAdditionAlternativesList := [] } := fun _ _ _ => rfl
  rw [e0, e0]
  exact congrArg (fun z => { newSym f g h v with extensionAdditionAlternativesList := z }) e

theorem newRule_168 (hf : Rewording f) : NewRule (R := R) (D := D) f g h 168 := by
  intro p p' hp d v
  have e : (fun (p : Pointers R D) (d : Nat → SymType R D) => ([(d 1).extensionAdditionAlternative] : List (Ty R D))) p' (fun i => newSym f g h (d i)) = (fun z : List (Ty R D) => newTys f g h z) ((fun (p : Pointers R D) (d : Nat → SymType R D) => ([(d 1).extensionAdditionAlternative] : List (Ty R D))) p d) := by
    first
    | rfl
    | simp only [newSym, hf.empty, hf.generalized, hf.utc, hp.value3, hp.defined2, hp.copy, newModuleIdentifier, newDefinitive, newTy, newElement, newValue, newAssignment,
    newBody, newConstraint, newSpec, newElements, newUnion, newParts, newPart, newElementss, newBound, newNamed, newComponent, newComponents, newTag, newBit, newFrom, newSymbol, newGlobal,
    newNameds, newTys, newNumber, newItem, newTys_append, newNameds_append, newComponents_append, newParts_append, newUnion_append, newElementss_append, singleElementConstraint,
    List.map_append, List.map_cons, List.map_nil, Option.map_some, Option.map_none]
  have e0 : ∀ (p : Pointers R D) (d : Nat → SymType R D) (v : SymType R D), action 168 p d v = { v with extensionAdditionAlternativesList := [(d 1).extensionAdditionAlternative] } := fun _ _ _ => rfl
  rw [e0, e0]
  exact congrArg (fun z => { newSym f g h v with extensionAdditionAlternativesList := z }) e

theorem newRule_169 (hf : Rewording f) : NewRule (R := R) (D := D) f g h 169 := by
  intro p p' hp d v
  have e : (fun (p : Pointers R D) (d : Nat → SymType R D) => ((d 1).extensionAdditionAlternativesList ++ [(d 3).extensionAdditionAlternative] : List (Ty R D))) p' (fun i => newSym f g h (d i)) = (fun z : List (Ty R D) => newTys f g h z) ((fun (p : Pointers R D) (d : Nat → SymType R D) => ((d 1).extensionAdditionAlternativesList ++ [(d 3).extensionAdditionAlternative] : List (Ty R D))) p d) := by
    first
    | rfl
    | simp only [newSym, hf.empty, hf.generalized, hf.utc, hp.value3, hp.defined2, hp.copy, newModuleIdentifier, newDefinitive, newTy, newElement, newValue, newAssignment,
    newBody, newConstraint, newSpec, newElements, newUnion, newParts, newPart, newElementss, newBound, newNamed, newComponent, newComponents, newTag, newBit, newFrom, newSymbol, newGlobal,
    newNameds, newTys, newNumber, newItem, newTys_append, newNameds_append, newComponents_append, newParts_append, newUnion_append, newElementss_append, singleElementConstraint,
    List.map_append, List.map_cons, List.map_nil, Option.map_some, Option.map_none]
  have e0 : ∀ (p : Pointers R D) (d : Nat → SymType R D) (v : SymType R D), action 169 p d v = { v with extensionAdditionAlternativesList := (d 1).extensionAdditionAlternativesList ++ [(d 3).extensionAdditionAlternative] } := fun _ _ _ => rfl
  rw [e0, e0]
  exact congrArg (fun z => { newSym f g h v with extensionAdditionAlternativesList := z }) e

theorem newRule_170 (hf : Rewording f) : NewRule (R := R) (D := D) f g h 170 := by
  intro p p' hp d v
  have e : (fun (p : Pointers R D) (d : Nat → SymType R D) => (.named (d 1).namedType : Ty R D)) p' (fun i => newSym f g h (d i)) = (fun z : Ty R D => newTy f g h z) ((fun (p : Pointers R D) (d : Nat → SymType R D) => (.named (d 1).namedType : Ty R D)) p d) := by
    first
    | rfl
    | simp only [newSym, hf.empty, hf.generalized, hf.utc, hp.value3, hp.defined2, hp.copy, newModuleIdentifier, newDefinitive, newTy, newElement, newValue, newAssignment,
    newBody, newConstraint, newSpec, newElements, newUnion, newParts, newPart, newElementss, newBound, newNamed, newComponent, newComponents, newTag, newBit, newFrom, newSymbol, newGlobal,
    newNameds, newTys, newNumber, newItem, newTys_append, newNameds_append, newComponents_append, newParts_append, newUnion_append, newElementss_append, singleElementConstraint,
    List.map_append, List.map_cons, List.map_nil, Option.map_some, Option.map_none]
  have e0 : ∀ (p : Pointers R D) (d : Nat → SymType R D) (v : SymType R D), action 170 p d v = { v with extensionAdditionAlternative := .named (d 1).namedType } := fun _ _ _ => rfl
  rw [e0, e0]
  exact congrArg (fun z => { newSym f g h v with extensionAdditionAlternative := z }) e

theorem newRule_171 : NewRule (R := R) (D := D) f g h 171 := by
  intro p p' _ d v
  have e0 : ∀ (p : Pointers R D) (d : Nat → SymType R D) (v : SymType R D), action 171 p d v = v := fun _ _ _ => rfl
  rw [e0, e0]

theorem newRule_172 (hf : Rewording f) : NewRule (R := R) (D := D) f g h 172 := by
  intro p p' hp d v
  have e : (fun (p : Pointers R D) (d : Nat → SymType R D) => ([(d 1).namedType] : List (NamedType R D))) p' (fun i => newSym f g h (d i)) = (fun z : List (NamedType R D) => newNameds f g h z) ((fun (p : Pointers R D) (d : Nat → SymType R D) => ([(d 1).namedType] : List (NamedType R D))) p d) := by
    first
    | rfl
    | simp only [newSym, hf.empty, hf.generalized, hf.utc, hp.value3, hp.defined2, hp.copy, newModuleIdentifier, newDefinitive, newTy, newElement, newValue, newAssignment,
    newBody, newConstraint, newSpec, newElements, newUnion, newParts, newPart, newElementss, newBound, newNamed, newComponent, newComponents, newTag, newBit, newFrom, newSymbol, newGlobal,
    newNameds, newTys, newNumber, newItem, newTys_append, newNameds_append, newComponents_append, newParts_append, newUnion_append, newElementss_append, singleElementConstraint,
    List.map_append, List.map_cons, List.map_nil, Option.map_some, Option.map_none]
  have e0 : ∀ (p : Pointers R D) (d : Nat → SymType R D) (v : SymType R D), action 172 p d v = { v with alternativeTypeList := [(d 1).namedType] } := fun _ _ _ => rfl
  rw [e0, e0]
  exact congrArg (fun z => { newSym f g h v with alternativeTypeList := z }) e

theorem newRule_173 (hf : Rewording f) : NewRule (R := R) (D := D) f g h 173 := by
  intro p p' hp d v
  have e : (fun (p : Pointers R D) (d : Nat → SymType R D) => ((d 1).alternativeTypeList ++ [(d 3).namedType] : List (NamedType R D))) p' (fun i => newSym f g h (d i)) = (fun z : List (NamedType R D) => newNameds f g h z) ((fun (p : Pointers R D) (d : Nat → SymType R D) => ((d 1).alternativeTypeList ++ [(d 3).namedType] : List (NamedType R D))) p d) := by
    first
    | rfl
    | simp only [newSym, hf.empty, hf.generalized, hf.utc, hp.value3, hp.defined2, hp.copy, newModuleIdentifier, newDefinitive, newTy, newElement, newValue, newAssignment,
    newBody, newConstraint, newSpec, newElements, newUnion, newParts, newPart, newElementss, newBound, newNamed, newComponent, newComponents, newTag, newBit, newFrom, newSymbol, newGlobal,
    newNameds, newTys, newNumber, newItem, newTys_append, newNameds_append, newComponents_append, newParts_append, newUnion_append, newElementss_append, singleElementConstraint,
    List.map_append, List.map_cons, List.map_nil, Option.map_some, Option.map_none]
  have e0 : ∀ (p : Pointers R D) (d : Nat → SymType R D) (v : SymType R D), action 173 p d v = { v with alternativeTypeList := (d 1).alternativeTypeList ++ [(d 3).namedType] } := fun _ _ _ => rfl
  rw [e0, e0]
  exact congrArg (fun z => { newSym f g h v with alternativeTypeList := z }) e

theorem newRule_174 (hf : Rewording f) : NewRule (R := R) (D := D) f g h 174 := by
  intro p p' hp d v
  have e : (fun (p : Pointers R D) (d : Nat → SymType R D) => (.tagged (d 1).tag (d 2).type 0 false : Ty R D)) p' (fun i => newSym f g h (d i)) = (fun z : Ty R D => newTy f g h z) ((fun (p : Pointers R D) (d : Nat → SymType R D) => (.tagged (d 1).tag (d 2).type 0 false : Ty R D)) p d) := by
    first
    | rfl
    | simp only [newSym, hf.empty, hf.generalized, hf.utc, hp.value3, hp.defined2, hp.copy, newModuleIdentifier, newDefinitive, newTy, newElement, newValue, newAssignment,
    newBody, newConstraint, newSpec, newElements, newUnion, newParts, newPart, newElementss, newBound, newNamed, newComponent, newComponents, newTag, newBit, newFrom, newSymbol, newGlobal,
    newNameds, newTys, newNumber, newItem, newTys_append, newNameds_append, newComponents_append, newParts_append, newUnion_append, newElementss_append, singleElementConstraint,
    List.map_append, List.map_cons, List.map_nil, Option.map_some, Option.map_none]
  have e0 : ∀ (p : Pointers R D) (d : Nat → SymType R D) (v : SymType R D), action 174 p d v = { v with type := .tagged (d 1).tag (d 2).type 0 false } := fun _ _ _ => rfl
  rw [e0, e0]
  exact congrArg (fun z => { newSym f g h v with type := z }) e

theorem newRule_175 (hf : Rewording f) : NewRule (R := R) (D := D) f g h 175 := by
  intro p p' hp d v
  have e : (fun (p : Pointers R D) (d : Nat → SymType R D) => (.tagged (d 1).tag (d 3).type TAGS_IMPLICIT true : Ty R D)) p' (fun i => newSym f g h (d i)) = (fun z : Ty R D => newTy f g h z) ((fun (p : Pointers R D) (d : Nat → SymType R D) => (.tagged (d 1).tag (d 3).type TAGS_IMPLICIT true : Ty R D)) p d) := by
    first
    | rfl
    | simp only [newSym, hf.empty, hf.generalized, hf.utc, hp.value3, hp.defined2, hp.copy, newModuleIdentifier, newDefinitive, newTy, newElement, newValue, newAssignment,
    newBody, newConstraint, newSpec, newElements, newUnion, newParts, newPart, newElementss, newBound, newNamed, newComponent, newComponents, newTag, newBit, newFrom, newSymbol, newGlobal,
    newNameds, newTys, newNumber, newItem, newTys_append, newNameds_append, newComponents_append, newParts_append, newUnion_append, newElementss_append, singleElementConstraint,
    List.map_append, List.map_cons, List.map_nil, Option.map_some, Option.map_none]
  have e0 : ∀ (p : Pointers R D) (d : Nat → SymType R D) (v : SymType R D), action 175 p d v = { v with type := .tagged (d 1).tag (d 3).type TAGS_IMPLICIT true } := fun _ _ _ => rfl
  rw [e0, e0]
  exact congrArg (fun z => { newSym f g h v with type := z }) e

theorem newRule_176 (hf : Rewording f) : NewRule (R := R) (D := D) f g h 176 := by
  intro p p' hp d v
  have e : (fun (p : Pointers R D) (d : Nat → SymType R D) => (.tagged (d 1).tag (d 3).type TAGS_EXPLICIT true : Ty R D)) p' (fun i => newSym f g h (d i)) = (fun z : Ty R D => newTy f g h z) ((fun (p : Pointers R D) (d : Nat → SymType R D) => (.tagged (d 1).tag (d 3).type TAGS_EXPLICIT true : Ty R D)) p d) := by
    first
    | rfl
    | simp only [newSym, hf.empty, hf.generalized, hf.utc, hp.value3, hp.defined2, hp.copy, newModuleIdentifier, newDefinitive, newTy, newElement, newValue, newAssignment,
    newBody, newConstraint, newSpec, newElements, newUnion, newParts, newPart, newElementss, newBound, newNamed, newComponent, newComponents, newTag, newBit, newFrom, newSymbol, newGlobal,
    newNameds, newTys, newNumber, newItem, newTys_append, newNameds_append, newComponents_append, newParts_append, newUnion_append, newElementss_append, singleElementConstraint,
    List.map_append, List.map_cons, List.map_nil, Option.map_some, Option.map_none]
  have e0 : ∀ (p : Pointers R D) (d : Nat → SymType R D) (v : SymType R D), action 176 p d v = { v with type := .tagged (d 1).tag (d 3).type TAGS_EXPLICIT true } := fun _ _ _ => rfl
  rw [e0, e0]
  exact congrArg (fun z => { newSym f g h v with type := z }) e

theorem newRule_177 (hf : Rewording f) : NewRule (R := R) (D := D) f g h 177 := by
  intro p p' hp d v
  have e : (fun (p : Pointers R D) (d : Nat → SymType R D) => (⟨(d 2).cls, (d 3).value⟩ : Tag R)) p' (fun i => newSym f g h (d i)) = (fun z : Tag R => newTag f g z) ((fun (p : Pointers R D) (d : Nat → SymType R D) => (⟨(d 2).cls, (d 3).value⟩ : Tag R)) p d) := by
    first
    | rfl
    | simp only [newSym, hf.empty, hf.generalized, hf.utc, hp.value3, hp.defined2, hp.copy, newModuleIdentifier, newDefinitive, newTy, newElement, newValue, newAssignment,
    newBody, newConstraint, newSpec, newElements, newUnion, newParts, newPart, newElementss, newBound, newNamed, newComponent, newComponents, newTag, newBit, newFrom, newSymbol, newGlobal,
    newNameds, newTys, newNumber, newItem, newTys_append, newNameds_append, newComponents_append, newParts_append, newUnion_append, newElementss_append, singleElementConstraint,
    List.map_append, List.map_cons, List.map_nil, Option.map_some, Option.map_none]
  have e0 : ∀ (p : Pointers R D) (d : Nat → SymType R D) (v : SymType R D), action 177 p d v = { v with tag := ⟨(d 2).cls, (d 3).value⟩ } := fun _ _ _ => rfl
  rw [e0, e0]
  exact congrArg (fun z => { newSym f g h v with tag := z }) e

theorem newRule_178 (hf : Rewording f) : NewRule (R := R) (D := D) f g h 178 := by
  intro p p' hp d v
  have e : (fun (p : Pointers R D) (d : Nat → SymType R D) => (.number (d 1).number : Value R)) p' (fun i => newSym f g h (d i)) = (fun z : Value R => newValue f g z) ((fun (p : Pointers R D) (d : Nat → SymType R D) => (.number (d 1).number : Value R)) p d) := by
    first
    | rfl
    | simp only [newSym, hf.empty, hf.generalized, hf.utc, hp.value3, hp.defined2, hp.copy, newModuleIdentifier, newDefinitive, newTy, newElement, newValue, newAssignment,
    newBody, newConstraint, newSpec, newElements, newUnion, newParts, newPart, newElementss, newBound, newNamed, newComponent, newComponents, newTag, newBit, newFrom, newSymbol, newGlobal,
    newNameds, newTys, newNumber, newItem, newTys_append, newNameds_append, newComponents_append, newParts_append, newUnion_append, newElementss_append, singleElementConstraint,
    List.map_append, List.map_cons, List.map_nil, Option.map_some, Option.map_none]
  have e0 : ∀ (p : Pointers R D) (d : Nat → SymType R D) (v : SymType R D), action 178 p d v = { v with value := .number (d 1).number } := fun _ _ _ => rfl
  rw [e0, e0]
  exact congrArg (fun z => { newSym f g h v with value := z }) e

theorem newRule_179 (hf : Rewording f) : NewRule (R := R) (D := D) f g h 179 := by
  intro p p' hp d v
  have e : (fun (p : Pointers R D) (d : Nat → SymType R D) => (.defined (d 1).definedValue : Value R)) p' (fun i => newSym f g h (d i)) = (fun z : Value R => newValue f g z) ((fun (p : Pointers R D) (d : Nat → SymType R D) => (.defined (d 1).definedValue : Value R)) p d) := by
    first
    | rfl
    | simp only [newSym, hf.empty, hf.generalized, hf.utc, hp.value3, hp.defined2, hp.copy, newModuleIdentifier, newDefinitive, newTy, newElement, newValue, newAssignment,
    newBody, newConstraint, newSpec, newElements, newUnion, newParts, newPart, newElementss, newBound, newNamed, newComponent, newComponents, newTag, newBit, newFrom, newSymbol, newGlobal,
    newNameds, newTys, newNumber, newItem, newTys_append, newNameds_append, newComponents_append, newParts_append, newUnion_append, newElementss_append, singleElementConstraint,
    List.map_append, List.map_cons, List.map_nil, Option.map_some, Option.map_none]
  have e0 : ∀ (p : Pointers R D) (d : Nat → SymType R D) (v : SymType R D), action 179 p d v = { v with value := .defined (d 1).definedValue } := fun _ _ _ => rfl
  rw [e0, e0]
  exact congrArg (fun z => { newSym f g h v with value := z }) e

theorem newRule_180 (hf : Rewording f) : NewRule (R := R) (D := D) f g h 180 := by
  intro p p' hp d v
  have e : (fun (p : Pointers R D) (d : Nat → SymType R D) => (CLASS_UNIVERSAL : Int)) p' (fun i => newSym f g h (d i)) = (fun z : Int => z) ((fun (p : Pointers R D) (d : Nat → SymType R D) => (CLASS_UNIVERSAL : Int)) p d) := by
    first
    | rfl
    | simp only [newSym, hf.empty, hf.generalized, hf.utc, hp.value3, hp.defined2, hp.copy, newModuleIdentifier, newDefinitive, newTy, newElement, newValue, newAssignment,
    newBody, newConstraint, newSpec, newElements, newUnion, newParts, newPart, newElementss, newBound, newNamed, newComponent, newComponents, newTag, newBit, newFrom, newSymbol, newGlobal,
    newNameds, newTys, newNumber, newItem, newTys_append, newNameds_append, newComponents_append, newParts_append, newUnion_append, newElementss_append, singleElementConstraint,
    List.map_append, List.map_cons, List.map_nil, Option.map_some, Option.map_none]
  have e0 : ∀ (p : Pointers R D) (d : Nat → SymType R D) (v : SymType R D), action 180 p d v = { v with cls := CLASS_UNIVERSAL } := fun _ _ _ => rfl
  rw [e0, e0]
  exact congrArg (fun z => { newSym f g h v with cls := z }) e

theorem newRule_181 (hf : Rewording f) : NewRule (R := R) (D := D) f g h 181 := by
  intro p p' hp d v
  have e : (fun (p : Pointers R D) (d : Nat → SymType R D) => (CLASS_APPLICATION : Int)) p' (fun i => newSym f g h (d i)) = (fun z : Int => z) ((fun (p : Pointers R D) (d : Nat → SymType R D) => (CLASS_APPLICATION : Int)) p d) := by
    first
    | rfl
    | simp only [newSym, hf.empty, hf.generalized, hf.utc, hp.value3, hp.defined2, hp.copy, newModuleIdentifier, newDefinitive, newTy, newElement, newValue, newAssignment,
    newBody, newConstraint, newSpec, newElements, newUnion, newParts, newPart, newElementss, newBound, newNamed, newComponent, newComponents, newTag, newBit, newFrom, newSymbol, newGlobal,
    newNameds, newTys, newNumber, newItem, newTys_append, newNameds_append, newComponents_append, newParts_append, newUnion_append, newElementss_append, singleElementConstraint,
    List.map_append, List.map_cons, List.map_nil, Option.map_some, Option.map_none]
  have e0 : ∀ (p : Pointers R D) (d : Nat → SymType R D) (v : SymType R D), action 181 p d v = { v with cls := CLASS_APPLICATION } := fun _ _ _ => rfl
  rw [e0, e0]
  exact congrArg (fun z => { newSym f g h v with cls := z }) e

theorem newRule_182 (hf : Rewording f) : NewRule (R := R) (D := D) f g h 182 := by
  intro p p' hp d v
  have e : (fun (p : Pointers R D) (d : Nat → SymType R D) => (CLASS_PRIVATE : Int)) p' (fun i => newSym f g h (d i)) = (fun z : Int => z) ((fun (p : Pointers R D) (d : Nat → SymType R D) => (CLASS_PRIVATE : Int)) p d) := by
    first
    | rfl
    | simp only [newSym, hf.empty, hf.generalized, hf.utc, hp.value3, hp.defined2, hp.copy, newModuleIdentifier, newDefinitive, newTy, newElement, newValue, newAssignment,
    newBody, newConstraint, newSpec, newElements, newUnion, newParts, newPart, newElementss, newBound, newNamed, newComponent, newComponents, newTag, newBit, newFrom, newSymbol, newGlobal,
    newNameds, newTys, newNumber, newItem, newTys_append, newNameds_append, newComponents_append, newParts_append, newUnion_append, newElementss_append, singleElementConstraint,
    List.map_append, List.map_cons, List.map_nil, Option.map_some, Option.map_none]
  have e0 : ∀ (p : Pointers R D) (d : Nat → SymType R D) (v : SymType R D), action 182 p d v = { v with cls := CLASS_PRIVATE } := fun _ _ _ => rfl
  rw [e0, e0]
  exact congrArg (fun z => { newSym f g h v with cls := z }) e

theorem newRule_183 (hf : Rewording f) : NewRule (R := R) (D := D) f g h 183 := by
  intro p p' hp d v
  have e : (fun (p : Pointers R D) (d : Nat → SymType R D) => (CLASS_CONTEXT_SPECIFIC : Int)) p' (fun i => newSym f g h (d i)) = (fun z : Int => z) ((fun (p : Pointers R D) (d : Nat → SymType R D) => (CLASS_CONTEXT_SPECIFIC : Int)) p d) := by
    first
    | rfl
    | simp only [newSym, hf.empty, hf.generalized, hf.utc, hp.value3, hp.defined2, hp.copy, newModuleIdentifier, newDefinitive, newTy, newElement, newValue, newAssignment,
    newBody, newConstraint, newSpec, newElements, newUnion, newParts, newPart, newElementss, newBound, newNamed, newComponent, newComponents, newTag, newBit, newFrom, newSymbol, newGlobal,
    newNameds, newTys, newNumber, newItem, newTys_append, newNameds_append, newComponents_append, newParts_append, newUnion_append, newElementss_append, singleElementConstraint,
    List.map_append, List.map_cons, List.map_nil, Option.map_some, Option.map_none]
  have e0 : ∀ (p : Pointers R D) (d : Nat → SymType R D) (v : SymType R D), action 183 p d v = { v with cls := CLASS_CONTEXT_SPECIFIC } := fun _ _ _ => rfl
  rw [e0, e0]
  exact congrArg (fun z => { newSym f g h v with cls := z }) e

theorem newRule_184 (hf : Rewording f) : NewRule (R := R) (D := D) f g h 184 := by
  intro p p' hp d v
  have e : (fun (p : Pointers R D) (d : Nat → SymType R D) => (.sequenceOf (d 3).type : Ty R D)) p' (fun i => newSym f g h (d i)) = (fun z : Ty R D => newTy f g h z) ((fun (p : Pointers R D) (d : Nat → SymType R D) => (.sequenceOf (d 3).type : Ty R D)) p d) := by
    first
    | rfl
    | simp only [newSym, hf.empty, hf.generalized, hf.utc, hp.value3, hp.defined2, hp.copy, newModuleIdentifier, newDefinitive, newTy, newElement, newValue, newAssignment,
    newBody, newConstraint, newSpec, newElements, newUnion, newParts, newPart, newElementss, newBound, newNamed, newComponent, newComponents, newTag, newBit, newFrom, newSymbol, newGlobal,
    newNameds, newTys, newNumber, newItem, newTys_append, newNameds_append, newComponents_append, newParts_append, newUnion_append, newElementss_append, singleElementConstraint,
    List.map_append, List.map_cons, List.map_nil, Option.map_some, Option.map_none]
  have e0 : ∀ (p : Pointers R D) (d : Nat → SymType R D) (v : SymType R D), action 184 p d v = { v with type := .sequenceOf (d 3).type } := fun _ _ _ => rfl
  rw [e0, e0]
  exact congrArg (fun z => { newSym f g h v with type := z }) e

theorem newRule_185 (hf : Rewording f) : NewRule (R := R) (D := D) f g h 185 := by
  intro p p' hp d v
  have e : (fun (p : Pointers R D) (d : Nat → SymType R D) => (.sequenceOf (.named (d 3).namedType) : Ty R D)) p' (fun i => newSym f g h (d i)) = (fun z : Ty R D => newTy f g h z) ((fun (p : Pointers R D) (d : Nat → SymType R D) => (.sequenceOf (.named (d 3).namedType) : Ty R D)) p d) := by
    first
    | rfl
    | simp only [newSym, hf.empty, hf.generalized, hf.utc, hp.value3, hp.defined2, hp.copy, newModuleIdentifier, newDefinitive, newTy, newElement, newValue, newAssignment,
    newBody, newConstraint, newSpec, newElements, newUnion, newParts, newPart, newElementss, newBound, newNamed, newComponent, newComponents, newTag, newBit, newFrom, newSymbol, newGlobal,
    newNameds, newTys, newNumber, newItem, newTys_append, newNameds_append, newComponents_append, newParts_append, newUnion_append, newElementss_append, singleElementConstraint,
    List.map_append, List.map_cons, List.map_nil, Option.map_some, Option.map_none]
  have e0 : ∀ (p : Pointers R D) (d : Nat → SymType R D) (v : SymType R D), action 185 p d v = { v with type := .sequenceOf (.named (d 3).namedType) } := fun _ _ _ => rfl
  rw [e0, e0]
  exact congrArg (fun z => { newSym f g h v with type := z }) e

theorem newRule_186 (hf : Rewording f) : NewRule (R := R) (D := D) f g h 186 := by
  intro p p' hp d v
  have e : (fun (p : Pointers R D) (d : Nat → SymType R D) => (.objectIdentifier : Ty R D)) p' (fun i => newSym f g h (d i)) = (fun z : Ty R D => newTy f g h z) ((fun (p : Pointers R D) (d : Nat → SymType R D) => (.objectIdentifier : Ty R D)) p d) := by
    first
    | rfl
    | simp only [newSym, hf.empty, hf.generalized, hf.utc, hp.value3, hp.defined2, hp.copy, newModuleIdentifier, newDefinitive, newTy, newElement, newValue, newAssignment,
    newBody, newConstraint, newSpec, newElements, newUnion, newParts, newPart, newElementss, newBound, newNamed, newComponent, newComponents, newTag, newBit, newFrom, newSymbol, newGlobal,
    newNameds, newTys, newNumber, newItem, newTys_append, newNameds_append, newComponents_append, newParts_append, newUnion_append, newElementss_append, singleElementConstraint,
    List.map_append, List.map_cons, List.map_nil, Option.map_some, Option.map_none]
  have e0 : ∀ (p : Pointers R D) (d : Nat → SymType R D) (v : SymType R D), action 186 p d v = { v with type := .objectIdentifier } := fun _ _ _ => rfl
  rw [e0, e0]
  exact congrArg (fun z => { newSym f g h v with type := z }) e

theorem newRule_187 (hf : Rewording f) : NewRule (R := R) (D := D) f g h 187 := by
  intro p p' hp d v
  have e : (fun (p : Pointers R D) (d : Nat → SymType R D) => ((d 2).objectIdentifierValue : List (ObjectIdElement R))) p' (fun i => newSym f g h (d i)) = (fun z : List (ObjectIdElement R) => z.map (newElement f g)) ((fun (p : Pointers R D) (d : Nat → SymType R D) => ((d 2).objectIdentifierValue : List (ObjectIdElement R))) p d) := by
    first
    | rfl
    | simp only [newSym, hf.empty, hf.generalized, hf.utc, hp.value3, hp.defined2, hp.copy, newModuleIdentifier, newDefinitive, newTy, newElement, newValue, newAssignment,
    newBody, newConstraint, newSpec, newElements, newUnion, newParts, newPart, newElementss, newBound, newNamed, newComponent, newComponents, newTag, newBit, newFrom, newSymbol, newGlobal,
    newNameds, newTys, newNumber, newItem, newTys_append, newNameds_append, newComponents_append, newParts_append, newUnion_append, newElementss_append, singleElementConstraint,
    List.map_append, List.map_cons, List.map_nil, Option.map_some, Option.map_none]
  have e0 : ∀ (p : Pointers R D) (d : Nat → SymType R D) (v : SymType R D), action 187 p d v = { v with objectIdentifierValue := (d 2).objectIdentifierValue } := fun _ _ _ => rfl
  rw [e0, e0]
  exact congrArg (fun z => { newSym f g h v with objectIdentifierValue := z }) e

theorem newRule_188 (hf : Rewording f) : NewRule (R := R) (D := D) f g h 188 := by
  intro p p' hp d v
  have e : (fun (p : Pointers R D) (d : Nat → SymType R D) => ({ reference := some p.defined2 } :: (d 3).objectIdentifierValue : List (ObjectIdElement R))) p' (fun i => newSym f g h (d i)) = (fun z : List (ObjectIdElement R) => z.map (newElement f g)) ((fun (p : Pointers R D) (d : Nat → SymType R D) => ({ reference := some p.defined2 } :: (d 3).objectIdentifierValue : List (ObjectIdElement R))) p d) := by
    first
    | rfl
    | simp only [newSym, hf.empty, hf.generalized, hf.utc, hp.value3, hp.defined2, hp.copy, newModuleIdentifier, newDefinitive, newTy, newElement, newValue, newAssignment,
    newBody, newConstraint, newSpec, newElements, newUnion, newParts, newPart, newElementss, newBound, newNamed, newComponent, newComponents, newTag, newBit, newFrom, newSymbol, newGlobal,
    newNameds, newTys, newNumber, newItem, newTys_append, newNameds_append, newComponents_append, newParts_append, newUnion_append, newElementss_append, singleElementConstraint,
    List.map_append, List.map_cons, List.map_nil, Option.map_some, Option.map_none]
  have e0 : ∀ (p : Pointers R D) (d : Nat → SymType R D) (v : SymType R D), action 188 p d v = { v with objectIdentifierValue := { reference := some p.defined2 } :: (d 3).objectIdentifierValue } := fun _ _ _ => rfl
  rw [e0, e0]
  exact congrArg (fun z => { newSym f g h v with objectIdentifierValue := z }) e

theorem newRule_189 (hf : Rewording f) : NewRule (R := R) (D := D) f g h 189 := by
  intro p p' hp d v
  have e : (fun (p : Pointers R D) (d : Nat → SymType R D) => ([(d 1).objectIdElement] : List (ObjectIdElement R))) p' (fun i => newSym f g h (d i)) = (fun z : List (ObjectIdElement R) => z.map (newElement f g)) ((fun (p : Pointers R D) (d : Nat → SymType R D) => ([(d 1).objectIdElement] : List (ObjectIdElement R))) p d) := by
    first
    | rfl
    | simp only [newSym, hf.empty, hf.generalized, hf.utc, hp.value3, hp.defined2, hp.copy, newModuleIdentifier, newDefinitive, newTy, newElement, newValue, newAssignment,
    newBody, newConstraint, newSpec, newElements, newUnion, newParts, newPart, newElementss, newBound, newNamed, newComponent, newComponents, newTag, newBit, newFrom, newSymbol, newGlobal,
    newNameds, newTys, newNumber, newItem, newTys_append, newNameds_append, newComponents_append, newParts_append, newUnion_append, newElementss_append, singleElementConstraint,
    List.map_append, List.map_cons, List.map_nil, Option.map_some, Option.map_none]
  have e0 : ∀ (p : Pointers R D) (d : Nat → SymType R D) (v : SymType R D), action 189 p d v = { v with objectIdentifierValue := [(d 1).objectIdElement] } := fun _ _ _ => rfl
  rw [e0, e0]
  exact congrArg (fun z => { newSym f g h v with objectIdentifierValue := z }) e

theorem newRule_190 (hf : Rewording f) : NewRule (R := R) (D := D) f g h 190 := by
  intro p p' hp d v
  have e : (fun (p : Pointers R D) (d : Nat → SymType R D) => ((d 1).objectIdElement :: (d 2).objectIdentifierValue : List (ObjectIdElement R))) p' (fun i => newSym f g h (d i)) = (fun z : List (ObjectIdElement R) => z.map (newElement f g)) ((fun (p : Pointers R D) (d : Nat → SymType R D) => ((d 1).objectIdElement :: (d 2).objectIdentifierValue : List (ObjectIdElement R))) p d) := by
    first
    | rfl
    | simp only [newSym, hf.empty, hf.generalized, hf.utc, hp.value3, hp.defined2, hp.copy, newModuleIdentifier, newDefinitive, newTy, newElement, newValue, newAssignment,
    newBody, newConstraint, newSpec, newElements, newUnion, newParts, newPart, newElementss, newBound, newNamed, newComponent, newComponents, newTag, newBit, newFrom, newSymbol, newGlobal,
    newNameds, newTys, newNumber, newItem, newTys_append, newNameds_append, newComponents_append, newParts_append, newUnion_append, newElementss_append, singleElementConstraint,
    List.map_append, List.map_cons, List.map_nil, Option.map_some, Option.map_none]
  have e0 : ∀ (p : Pointers R D) (d : Nat → SymType R D) (v : SymType R D), action 190 p d v = { v with objectIdentifierValue := (d 1).objectIdElement :: (d 2).objectIdentifierValue } := fun _ _ _ => rfl
  rw [e0, e0]
  exact congrArg (fun z => { newSym f g h v with objectIdentifierValue := z }) e

theorem newRule_191 (hf : Rewording f) : NewRule (R := R) (D := D) f g h 191 := by
  intro p p' hp d v
  have e : (fun (p : Pointers R D) (d : Nat → SymType R D) => ({ name := (d 1).name } : ObjectIdElement R)) p' (fun i => newSym f g h (d i)) = (fun z : ObjectIdElement R => newElement f g z) ((fun (p : Pointers R D) (d : Nat → SymType R D) => ({ name := (d 1).name } : ObjectIdElement R)) p d) := by
    first
    | rfl
    | simp only [newSym, hf.empty, hf.generalized, hf.utc, hp.value3, hp.defined2, hp.copy, newModuleIdentifier, newDefinitive, newTy, newElement, newValue, newAssignment,
    newBody, newConstraint, newSpec, newElements, newUnion, newParts, newPart, newElementss, newBound, newNamed, newComponent, newComponents, newTag, newBit, newFrom, newSymbol, newGlobal,
    newNameds, newTys, newNumber, newItem, newTys_append, newNameds_append, newComponents_append, newParts_append, newUnion_append, newElementss_append, singleElementConstraint,
    List.map_append, List.map_cons, List.map_nil, Option.map_some, Option.map_none]
  have e0 : ∀ (p : Pointers R D) (d : Nat → SymType R D) (v : SymType R D), action 191 p d v = { v with objectIdElement := { name := (d 1).name } } := fun _ _ _ => rfl
  rw [e0, e0]
  exact congrArg (fun z => { newSym f g h v with objectIdElement := z }) e

theorem newRule_192 : NewRule (R := R) (D := D) f g h 192 := by
  intro p p' _ d v
  have e0 : ∀ (p : Pointers R D) (d : Nat → SymType R D) (v : SymType R D), action 192 p d v = v := fun _ _ _ => rfl
  rw [e0, e0]

theorem newRule_193 : NewRule (R := R) (D := D) f g h 193 := by
  intro p p' _ d v
  have e0 : ∀ (p : Pointers R D) (d : Nat → SymType R D) (v : SymType R D), action 193 p d v = v := fun _ _ _ => rfl
  rw [e0, e0]

theorem newRule_194 (hf : Rewording f) : NewRule (R := R) (D := D) f g h 194 := by
  intro p p' hp d v
  have e : (fun (p : Pointers R D) (d : Nat → SymType R D) => ({ reference := some (p.copy (d 1).definedValue) } : ObjectIdElement R)) p' (fun i => newSym f g h (d i)) = (fun z : ObjectIdElement R => newElement f g z) ((fun (p : Pointers R D) (d : Nat → SymType R D) => ({ reference := some (p.copy (d 1).definedValue) } : ObjectIdElement R)) p d) := by
    first
    | rfl
    | simp only [newSym, hf.empty, hf.generalized, hf.utc, hp.value3, hp.defined2, hp.copy, newModuleIdentifier, newDefinitive, newTy, newElement, newValue, newAssignment,
    newBody, newConstraint, newSpec, newElements, newUnion, newParts, newPart, newElementss, newBound, newNamed, newComponent, newComponents, newTag, newBit, newFrom, newSymbol, newGlobal,
    newNameds, newTys, newNumber, newItem, newTys_append, newNameds_append, newComponents_append, newParts_append, newUnion_append, newElementss_append, singleElementConstraint,
    List.map_append, List.map_cons, List.map_nil, Option.map_some, Option.map_none]
  have e0 : ∀ (p : Pointers R D) (d : Nat → SymType R D) (v : SymType R D), action 194 p d v = { v with objectIdElement := { reference := some (p.copy (d 1).definedValue) } } := fun _ _ _ => rfl
  rw [e0, e0]
  exact congrArg (fun z => { newSym f g h v with objectIdElement := z }) e

theorem newRule_195 (hf : Rewording f) : NewRule (R := R) (D := D) f g h 195 := by
  intro p p' hp d v
  have e : (fun (p : Pointers R D) (d : Nat → SymType R D) => ({ id := (d 1).number } : ObjectIdElement R)) p' (fun i => newSym f g h (d i)) = (fun z : ObjectIdElement R => newElement f g z) ((fun (p : Pointers R D) (d : Nat → SymType R D) => ({ id := (d 1).number } : ObjectIdElement R)) p d) := by
    first
    | rfl
    | simp only [newSym, hf.empty, hf.generalized, hf.utc, hp.value3, hp.defined2, hp.copy, newModuleIdentifier, newDefinitive, newTy, newElement, newValue, newAssignment,
    newBody, newConstraint, newSpec, newElements, newUnion, newParts, newPart, newElementss, newBound, newNamed, newComponent, newComponents, newTag, newBit, newFrom, newSymbol, newGlobal,
    newNameds, newTys, newNumber, newItem, newTys_append, newNameds_append, newComponents_append, newParts_append, newUnion_append, newElementss_append, singleElementConstraint,
    List.map_append, List.map_cons, List.map_nil, Option.map_some, Option.map_none]
  have e0 : ∀ (p : Pointers R D) (d : Nat → SymType R D) (v : SymType R D), action 195 p d v = { v with objectIdElement := { id := (d 1).number } } := fun _ _ _ => rfl
  rw [e0, e0]
  exact congrArg (fun z => { newSym f g h v with objectIdElement := z }) e

theorem newRule_196 (hf : Rewording f) : NewRule (R := R) (D := D) f g h 196 := by
  intro p p' hp d v
  have e : (fun (p : Pointers R D) (d : Nat → SymType R D) => ({ reference := some (p.copy (d 1).definedValue) } : ObjectIdElement R)) p' (fun i => newSym f g h (d i)) = (fun z : ObjectIdElement R => newElement f g z) ((fun (p : Pointers R D) (d : Nat → SymType R D) => ({ reference := some (p.copy (d 1).definedValue) } : ObjectIdElement R)) p d) := by
    first
    | rfl
    | simp only [newSym, hf.empty, hf.generalized, hf.utc, hp.value3, hp.defined2, hp.copy, newModuleIdentifier, newDefinitive, newTy, newElement, newValue, newAssignment,
    newBody, newConstraint, newSpec, newElements, newUnion, newParts, newPart, newElementss, newBound, newNamed, newComponent, newComponents, newTag, newBit, newFrom, newSymbol, newGlobal,
    newNameds, newTys, newNumber, newItem, newTys_append, newNameds_append, newComponents_append, newParts_append, newUnion_append, newElementss_append, singleElementConstraint,
    List.map_append, List.map_cons, List.map_nil, Option.map_some, Option.map_none]
  have e0 : ∀ (p : Pointers R D) (d : Nat → SymType R D) (v : SymType R D), action 196 p d v = { v with objectIdElement := { reference := some (p.copy (d 1).definedValue) } } := fun _ _ _ => rfl
  rw [e0, e0]
  exact congrArg (fun z => { newSym f g h v with objectIdElement := z }) e

theorem newRule_197 (hf : Rewording f) : NewRule (R := R) (D := D) f g h 197 := by
  intro p p' hp d v
  have e : (fun (p : Pointers R D) (d : Nat → SymType R D) => (⟨(d 1).name, (d 3).objectIdElement.id, (d 3).objectIdElement.reference⟩ : ObjectIdElement R)) p' (fun i => newSym f g h (d i)) = (fun z : ObjectIdElement R => newElement f g z) ((fun (p : Pointers R D) (d : Nat → SymType R D) => (⟨(d 1).name, (d 3).objectIdElement.id, (d 3).objectIdElement.reference⟩ : ObjectIdElement R)) p d) := by
    first
    | rfl
    | simp only [newSym, hf.empty, hf.generalized, hf.utc, hp.value3, hp.defined2, hp.copy, newModuleIdentifier, newDefinitive, newTy, newElement, newValue, newAssignment,
    newBody, newConstraint, newSpec, newElements, newUnion, newParts, newPart, newElementss, newBound, newNamed, newComponent, newComponents, newTag, newBit, newFrom, newSymbol, newGlobal,
    newNameds, newTys, newNumber, newItem, newTys_append, newNameds_append, newComponents_append, newParts_append, newUnion_append, newElementss_append, singleElementConstraint,
    List.map_append, List.map_cons, List.map_nil, Option.map_some, Option.map_none]
  have e0 : ∀ (p : Pointers R D) (d : Nat → SymType R D) (v : SymType R D), action 197 p d v = { v with objectIdElement := ⟨(d 1).name, (d 3).objectIdElement.id, (d 3).objectIdElement.reference⟩ } := fun _ _ _ => rfl
  rw [e0, e0]
  exact congrArg (fun z => { newSym f g h v with objectIdElement := z }) e

theorem newRule_198 : NewRule (R := R) (D := D) f g h 198 := by
  intro p p' _ d v
  have e0 : ∀ (p : Pointers R D) (d : Nat → SymType R D) (v : SymType R D), action 198 p d v = v := fun _ _ _ => rfl
  rw [e0, e0]

theorem newRule_199 : NewRule (R := R) (D := D) f g h 199 := by
  intro p p' _ d v
  have e0 : ∀ (p : Pointers R D) (d : Nat → SymType R D) (v : SymType R D), action 199 p d v = v := fun _ _ _ => rfl
  rw [e0, e0]

theorem newRule_200 : NewRule (R := R) (D := D) f g h 200 := by
  intro p p' _ d v
  have e0 : ∀ (p : Pointers R D) (d : Nat → SymType R D) (v : SymType R D), action 200 p d v = v := fun _ _ _ => rfl
  rw [e0, e0]

theorem newRule_201 (hf : Rewording f) : NewRule (R := R) (D := D) f g h 201 := by
  intro p p' hp d v
  have e : (fun (p : Pointers R D) (d : Nat → SymType R D) => (.restrictedString Tok.BMPString : Ty R D)) p' (fun i => newSym f g h (d i)) = (fun z : Ty R D => newTy f g h z) ((fun (p : Pointers R D) (d : Nat → SymType R D) => (.restrictedString Tok.BMPString : Ty R D)) p d) := by
    first
    | rfl
    | simp only [newSym, hf.empty, hf.generalized, hf.utc, hp.value3, hp.defined2, hp.copy, newModuleIdentifier, newDefinitive, newTy, newElement, newValue, newAssignment,
    newBody, newConstraint, newSpec, newElements, newUnion, newParts, newPart, newElementss, newBound, newNamed, newComponent, newComponents, newTag, newBit, newFrom, newSymbol, newGlobal,
    newNameds, newTys, newNumber, newItem, newTys_append, newNameds_append, newComponents_append, newParts_append, newUnion_append, newElementss_append, singleElementConstraint,
    List.map_append, List.map_cons, List.map_nil, Option.map_some, Option.map_none]
  have e0 : ∀ (p : Pointers R D) (d : Nat → SymType R D) (v : SymType R D), action 201 p d v = { v with type := .restrictedString Tok.BMPString } := fun _ _ _ => rfl
  rw [e0, e0]
  exact congrArg (fun z => { newSym f g h v with type := z }) e

theorem newRule_202 (hf : Rewording f) : NewRule (R := R) (D := D) f g h 202 := by
  intro p p' hp d v
  have e : (fun (p : Pointers R D) (d : Nat → SymType R D) => (.restrictedString Tok.GeneralString : Ty R D)) p' (fun i => newSym f g h (d i)) = (fun z : Ty R D => newTy f g h z) ((fun (p : Pointers R D) (d : Nat → SymType R D) => (.restrictedString Tok.GeneralString : Ty R D)) p d) := by
    first
    | rfl
    | simp only [newSym, hf.empty, hf.generalized, hf.utc, hp.value3, hp.defined2, hp.copy, newModuleIdentifier, newDefinitive, newTy, newElement, newValue, newAssignment,
    newBody, newConstraint, newSpec, newElements, newUnion, newParts, newPart, newElementss, newBound, newNamed, newComponent, newComponents, newTag, newBit, newFrom, newSymbol, newGlobal,
    newNameds, newTys, newNumber, newItem, newTys_append, newNameds_append, newComponents_append, newParts_append, newUnion_append, newElementss_append, singleElementConstraint,
    List.map_append, List.map_cons, List.map_nil, Option.map_some, Option.map_none]
  have e0 : ∀ (p : Pointers R D) (d : Nat → SymType R D) (v : SymType R D), action 202 p d v = { v with type := .restrictedString Tok.GeneralString } := fun _ _ _ => rfl
  rw [e0, e0]
  exact congrArg (fun z => { newSym f g h v with type := z }) e

theorem newRule_203 (hf : Rewording f) : NewRule (R := R) (D := D) f g h 203 := by
  intro p p' hp d v
  have e : (fun (p : Pointers R D) (d : Nat → SymType R D) => (.restrictedString Tok.GraphicString : Ty R D)) p' (fun i => newSym f g h (d i)) = (fun z : Ty R D => newTy f g h z) ((fun (p : Pointers R D) (d : Nat → SymType R D) => (.restrictedString Tok.GraphicString : Ty R D)) p d) := by
    first
    | rfl
    | simp only [newSym, hf.empty, hf.generalized, hf.utc, hp.value3, hp.defined2, hp.copy, newModuleIdentifier, newDefinitive, newTy, newElement, newValue, newAssignment,
    newBody, newConstraint, newSpec, newElements, newUnion, newParts, newPart, newElementss, newBound, newNamed, newComponent, newComponents, newTag, newBit, newFrom, newSymbol, newGlobal,
    newNameds, newTys, newNumber, newItem, newTys_append, newNameds_append, newComponents_append, newParts_append, newUnion_append, newElementss_append, singleElementConstraint,
    List.map_append, List.map_cons, List.map_nil, Option.map_some, Option.map_none]
  have e0 : ∀ (p : Pointers R D) (d : Nat → SymType R D) (v : SymType R D), action 203 p d v = { v with type := .restrictedString Tok.GraphicString } := fun _ _ _ => rfl
  rw [e0, e0]
  exact congrArg (fun z => { newSym f g h v with type := z }) e

theorem newRule_204 (hf : Rewording f) : NewRule (R := R) (D := D) f g h 204 := by
  intro p p' hp d v
  have e : (fun (p : Pointers R D) (d : Nat → SymType R D) => (.restrictedString Tok.IA5String : Ty R D)) p' (fun i => newSym f g h (d i)) = (fun z : Ty R D => newTy f g h z) ((fun (p : Pointers R D) (d : Nat → SymType R D) => (.restrictedString Tok.IA5String : Ty R D)) p d) := by
    first
    | rfl
    | simp only [newSym, hf.empty, hf.generalized, hf.utc, hp.value3, hp.defined2, hp.copy, newModuleIdentifier, newDefinitive, newTy, newElement, newValue, newAssignment,
    newBody, newConstraint, newSpec, newElements, newUnion, newParts, newPart, newElementss, newBound, newNamed, newComponent, newComponents, newTag, newBit, newFrom, newSymbol, newGlobal,
    newNameds, newTys, newNumber, newItem, newTys_append, newNameds_append, newComponents_append, newParts_append, newUnion_append, newElementss_append, singleElementConstraint,
    List.map_append, List.map_cons, List.map_nil, Option.map_some, Option.map_none]
  have e0 : ∀ (p : Pointers R D) (d : Nat → SymType R D) (v : SymType R D), action 204 p d v = { v with type := .restrictedString Tok.IA5String } := fun _ _ _ => rfl
  rw [e0, e0]
  exact congrArg (fun z => { newSym f g h v with type := z }) e

theorem newRule_205 (hf : Rewording f) : NewRule (R := R) (D := D) f g h 205 := by
  intro p p' hp d v
  have e : (fun (p : Pointers R D) (d : Nat → SymType R D) => (.restrictedString Tok.ISO646String : Ty R D)) p' (fun i => newSym f g h (d i)) = (fun z : Ty R D => newTy f g h z) ((fun (p : Pointers R D) (d : Nat → SymType R D) => (.restrictedString Tok.ISO646String : Ty R D)) p d) := by
    first
    | rfl
    | simp only [newSym, hf.empty, hf.generalized, hf.utc, hp.value3, hp.defined2, hp.copy, newModuleIdentifier, newDefinitive, newTy, newElement, newValue, newAssignment,
    newBody, newConstraint, newSpec, newElements, newUnion, newParts, newPart, newElementss, newBound, newNamed, newComponent, newComponents, newTag, newBit, newFrom, newSymbol, newGlobal,
    newNameds, newTys, newNumber, newItem, newTys_append, newNameds_append, newComponents_append, newParts_append, newUnion_append, newElementss_append, singleElementConstraint,
    List.map_append, List.map_cons, List.map_nil, Option.map_some, Option.map_none]
  have e0 : ∀ (p : Pointers R D) (d : Nat → SymType R D) (v : SymType R D), action 205 p d v = { v with type := .restrictedString Tok.ISO646String } := fun _ _ _ => rfl
  rw [e0, e0]
  exact congrArg (fun z => { newSym f g h v with type := z }) e

theorem newRule_206 (hf : Rewording f) : NewRule (R := R) (D := D) f g h 206 := by
  intro p p' hp d v
  have e : (fun (p : Pointers R D) (d : Nat → SymType R D) => (.restrictedString Tok.NumericString : Ty R D)) p' (fun i => newSym f g h (d i)) = (fun z : Ty R D => newTy f g h z) ((fun (p : Pointers R D) (d : Nat → SymType R D) => (.restrictedString Tok.NumericString : Ty R D)) p d) := by
    first
    | rfl
    | simp only [newSym, hf.empty, hf.generalized, hf.utc, hp.value3, hp.defined2, hp.copy, newModuleIdentifier, newDefinitive, newTy, newElement, newValue, newAssignment,
    newBody, newConstraint, newSpec, newElements, newUnion, newParts, newPart, newElementss, newBound, newNamed, newComponent, newComponents, newTag, newBit, newFrom, newSymbol, newGlobal,
    newNameds, newTys, newNumber, newItem, newTys_append, newNameds_append, newComponents_append, newParts_append, newUnion_append, newElementss_append, singleElementConstraint,
    List.map_append, List.map_cons, List.map_nil, Option.map_some, Option.map_none]
  have e0 : ∀ (p : Pointers R D) (d : Nat → SymType R D) (v : SymType R D), action 206 p d v = { v with type := .restrictedString Tok.NumericString } := fun _ _ _ => rfl
  rw [e0, e0]
  exact congrArg (fun z => { newSym f g h v with type := z }) e

theorem newRule_207 (hf : Rewording f) : NewRule (R := R) (D := D) f g h 207 := by
  intro p p' hp d v
  have e : (fun (p : Pointers R D) (d : Nat → SymType R D) => (.restrictedString Tok.PrintableString : Ty R D)) p' (fun i => newSym f g h (d i)) = (fun z : Ty R D => newTy f g h z) ((fun (p : Pointers R D) (d : Nat → SymType R D) => (.restrictedString Tok.PrintableString : Ty R D)) p d) := by
    first
    | rfl
    | simp only [newSym, hf.empty, hf.generalized, hf.utc, hp.value3, hp.defined2, hp.copy, newModuleIdentifier, newDefinitive, newTy, newElement, newValue, newAssignment,
    newBody, newConstraint, newSpec, newElements, newUnion, newParts, newPart, newElementss, newBound, newNamed, newComponent, newComponents, newTag, newBit, newFrom, newSymbol, newGlobal,
    newNameds, newTys, newNumber, newItem, newTys_append, newNameds_append, newComponents_append, newParts_append, newUnion_append, newElementss_append, singleElementConstraint,
    List.map_append, List.map_cons, List.map_nil, Option.map_some, Option.map_none]
  have e0 : ∀ (p : Pointers R D) (d : Nat → SymType R D) (v : SymType R D), action 207 p d v = { v with type := .restrictedString Tok.PrintableString } := fun _ _ _ => rfl
  rw [e0, e0]
  exact congrArg (fun z => { newSym f g h v with type := z }) e

theorem newRule_208 (hf : Rewording f) : NewRule (R := R) (D := D) f g h 208 := by
  intro p p' hp d v
  have e : (fun (p : Pointers R D) (d : Nat → SymType R D) => (.restrictedString Tok.TeletexString : Ty R D)) p' (fun i => newSym f g h (d i)) = (fun z : Ty R D => newTy f g h z) ((fun (p : Pointers R D) (d : Nat → SymType R D) => (.restrictedString Tok.TeletexString : Ty R D)) p d) := by
    first
    | rfl
    | simp only [newSym, hf.empty, hf.generalized, hf.utc, hp.value3, hp.defined2, hp.copy, newModuleIdentifier, newDefinitive, newTy, newElement, newValue, newAssignment,
    newBody, newConstraint, newSpec, newElements, newUnion, newParts, newPart, newElementss, newBound, newNamed, newComponent, newComponents, newTag, newBit, newFrom, newSymbol, newGlobal,
    newNameds, newTys, newNumber, newItem, newTys_append, newNameds_append, newComponents_append, newParts_append, newUnion_append, newElementss_append, singleElementConstraint,
    List.map_append, List.map_cons, List.map_nil, Option.map_some, Option.map_none]
  have e0 : ∀ (p : Pointers R D) (d : Nat → SymType R D) (v : SymType R D), action 208 p d v = { v with type := .restrictedString Tok.TeletexString } := fun _ _ _ => rfl
  rw [e0, e0]
  exact congrArg (fun z => { newSym f g h v with type := z }) e

theorem newRule_209 (hf : Rewording f) : NewRule (R := R) (D := D) f g h 209 := by
  intro p p' hp d v
  have e : (fun (p : Pointers R D) (d : Nat → SymType R D) => (.restrictedString Tok.T61String : Ty R D)) p' (fun i => newSym f g h (d i)) = (fun z : Ty R D => newTy f g h z) ((fun (p : Pointers R D) (d : Nat → SymType R D) => (.restrictedString Tok.T61String : Ty R D)) p d) := by
    first
    | rfl
    | simp only [newSym, hf.empty, hf.generalized, hf.utc, hp.value3, hp.defined2, hp.copy, newModuleIdentifier, newDefinitive, newTy, newElement, newValue, newAssignment,
    newBody, newConstraint, newSpec, newElements, newUnion, newParts, newPart, newElementss, newBound, newNamed, newComponent, newComponents, newTag, newBit, newFrom, newSymbol, newGlobal,
    newNameds, newTys, newNumber, newItem, newTys_append, newNameds_append, newComponents_append, newParts_append, newUnion_append, newElementss_append, singleElementConstraint,
    List.map_append, List.map_cons, List.map_nil, Option.map_some, Option.map_none]
  have e0 : ∀ (p : Pointers R D) (d : Nat → SymType R D) (v : SymType R D), action 209 p d v = { v with type := .restrictedString Tok.T61String } := fun _ _ _ => rfl
  rw [e0, e0]
  exact congrArg (fun z => { newSym f g h v with type := z }) e

theorem newRule_210 (hf : Rewording f) : NewRule (R := R) (D := D) f g h 210 := by
  intro p p' hp d v
  have e : (fun (p : Pointers R D) (d : Nat → SymType R D) => (.restrictedString Tok.UniversalString : Ty R D)) p' (fun i => newSym f g h (d i)) = (fun z : Ty R D => newTy f g h z) ((fun (p : Pointers R D) (d : Nat → SymType R D) => (.restrictedString Tok.UniversalString : Ty R D)) p d) := by
    first
    | rfl
    | simp only [newSym, hf.empty, hf.generalized, hf.utc, hp.value3, hp.defined2, hp.copy, newModuleIdentifier, newDefinitive, newTy, newElement, newValue, newAssignment,
    newBody, newConstraint, newSpec, newElements, newUnion, newParts, newPart, newElementss, newBound, newNamed, newComponent, newComponents, newTag, newBit, newFrom, newSymbol, newGlobal,
    newNameds, newTys, newNumber, newItem, newTys_append, newNameds_append, newComponents_append, newParts_append, newUnion_append, newElementss_append, singleElementConstraint,
    List.map_append, List.map_cons, List.map_nil, Option.map_some, Option.map_none]
  have e0 : ∀ (p : Pointers R D) (d : Nat → SymType R D) (v : SymType R D), action 210 p d v = { v with type := .restrictedString Tok.UniversalString } := fun _ _ _ => rfl
  rw [e0, e0]
  exact congrArg (fun z => { newSym f g h v with type := z }) e

theorem newRule_211 (hf : Rewording f) : NewRule (R := R) (D := D) f g h 211 := by
  intro p p' hp d v
  have e : (fun (p : Pointers R D) (d : Nat → SymType R D) => (.restrictedString Tok.UTF8String : Ty R D)) p' (fun i => newSym f g h (d i)) = (fun z : Ty R D => newTy f g h z) ((fun (p : Pointers R D) (d : Nat → SymType R D) => (.restrictedString Tok.UTF8String : Ty R D)) p d) := by
    first
    | rfl
    | simp only [newSym, hf.empty, hf.generalized, hf.utc, hp.value3, hp.defined2, hp.copy, newModuleIdentifier, newDefinitive, newTy, newElement, newValue, newAssignment,
    newBody, newConstraint, newSpec, newElements, newUnion, newParts, newPart, newElementss, newBound, newNamed, newComponent, newComponents, newTag, newBit, newFrom, newSymbol, newGlobal,
    newNameds, newTys, newNumber, newItem, newTys_append, newNameds_append, newComponents_append, newParts_append, newUnion_append, newElementss_append, singleElementConstraint,
    List.map_append, List.map_cons, List.map_nil, Option.map_some, Option.map_none]
  have e0 : ∀ (p : Pointers R D) (d : Nat → SymType R D) (v : SymType R D), action 211 p d v = { v with type := .restrictedString Tok.UTF8String } := fun _ _ _ => rfl
  rw [e0, e0]
  exact congrArg (fun z => { newSym f g h v with type := z }) e

theorem newRule_212 (hf : Rewording f) : NewRule (R := R) (D := D) f g h 212 := by
  intro p p' hp d v
  have e : (fun (p : Pointers R D) (d : Nat → SymType R D) => (.restrictedString Tok.VideotexString : Ty R D)) p' (fun i => newSym f g h (d i)) = (fun z : Ty R D => newTy f g h z) ((fun (p : Pointers R D) (d : Nat → SymType R D) => (.restrictedString Tok.VideotexString : Ty R D)) p d) := by
    first
    | rfl
    | simp only [newSym, hf.empty, hf.generalized, hf.utc, hp.value3, hp.defined2, hp.copy, newModuleIdentifier, newDefinitive, newTy, newElement, newValue, newAssignment,
    newBody, newConstraint, newSpec, newElements, newUnion, newParts, newPart, newElementss, newBound, newNamed, newComponent, newComponents, newTag, newBit, newFrom, newSymbol, newGlobal,
    newNameds, newTys, newNumber, newItem, newTys_append, newNameds_append, newComponents_append, newParts_append, newUnion_append, newElementss_append, singleElementConstraint,
    List.map_append, List.map_cons, List.map_nil, Option.map_some, Option.map_none]
  have e0 : ∀ (p : Pointers R D) (d : Nat → SymType R D) (v : SymType R D), action 212 p d v = { v with type := .restrictedString Tok.VideotexString } := fun _ _ _ => rfl
  rw [e0, e0]
  exact congrArg (fun z => { newSym f g h v with type := z }) e

theorem newRule_213 (hf : Rewording f) : NewRule (R := R) (D := D) f g h 213 := by
  intro p p' hp d v
  have e : (fun (p : Pointers R D) (d : Nat → SymType R D) => (.restrictedString Tok.VisibleString : Ty R D)) p' (fun i => newSym f g h (d i)) = (fun z : Ty R D => newTy f g h z) ((fun (p : Pointers R D) (d : Nat → SymType R D) => (.restrictedString Tok.VisibleString : Ty R D)) p d) := by
    first
    | rfl
    | simp only [newSym, hf.empty, hf.generalized, hf.utc, hp.value3, hp.defined2, hp.copy, newModuleIdentifier, newDefinitive, newTy, newElement, newValue, newAssignment,
    newBody, newConstraint, newSpec, newElements, newUnion, newParts, newPart, newElementss, newBound, newNamed, newComponent, newComponents, newTag, newBit, newFrom, newSymbol, newGlobal,
    newNameds, newTys, newNumber, newItem, newTys_append, newNameds_append, newComponents_append, newParts_append, newUnion_append, newElementss_append, singleElementConstraint,
    List.map_append, List.map_cons, List.map_nil, Option.map_some, Option.map_none]
  have e0 : ∀ (p : Pointers R D) (d : Nat → SymType R D) (v : SymType R D), action 213 p d v = { v with type := .restrictedString Tok.VisibleString } := fun _ _ _ => rfl
  rw [e0, e0]
  exact congrArg (fun z => { newSym f g h v with type := z }) e

theorem newRule_214 (hf : Rewording f) : NewRule (R := R) (D := D) f g h 214 := by
  intro p p' hp d v
  have e : (fun (p : Pointers R D) (d : Nat → SymType R D) => (.characterString : Ty R D)) p' (fun i => newSym f g h (d i)) = (fun z : Ty R D => newTy f g h z) ((fun (p : Pointers R D) (d : Nat → SymType R D) => (.characterString : Ty R D)) p d) := by
    first
    | rfl
    | simp only [newSym, hf.empty, hf.generalized, hf.utc, hp.value3, hp.defined2, hp.copy, newModuleIdentifier, newDefinitive, newTy, newElement, newValue, newAssignment,
    newBody, newConstraint, newSpec, newElements, newUnion, newParts, newPart, newElementss, newBound, newNamed, newComponent, newComponents, newTag, newBit, newFrom, newSymbol, newGlobal,
    newNameds, newTys, newNumber, newItem, newTys_append, newNameds_append, newComponents_append, newParts_append, newUnion_append, newElementss_append, singleElementConstraint,
    List.map_append, List.map_cons, List.map_nil, Option.map_some, Option.map_none]
  have e0 : ∀ (p : Pointers R D) (d : Nat → SymType R D) (v : SymType R D), action 214 p d v = { v with type := .characterString } := fun _ _ _ => rfl
  rw [e0, e0]
  exact congrArg (fun z => { newSym f g h v with type := z }) e

theorem newRule_215 (hf : Rewording f) : NewRule (R := R) (D := D) f g h 215 := by
  intro p p' hp d v
  have e : (fun (p : Pointers R D) (d : Nat → SymType R D) => (.ref (c! "GeneralizedTime") : Ty R D)) p' (fun i => newSym f g h (d i)) = (fun z : Ty R D => newTy f g h z) ((fun (p : Pointers R D) (d : Nat → SymType R D) => (.ref (c! "GeneralizedTime") : Ty R D)) p d) := by
    first
    | rfl
    | simp only [newSym, hf.empty, hf.generalized, hf.utc, hp.value3, hp.defined2, hp.copy, newModuleIdentifier, newDefinitive, newTy, newElement, newValue, newAssignment,
    newBody, newConstraint, newSpec, newElements, newUnion, newParts, newPart, newElementss, newBound, newNamed, newComponent, newComponents, newTag, newBit, newFrom, newSymbol, newGlobal,
    newNameds, newTys, newNumber, newItem, newTys_append, newNameds_append, newComponents_append, newParts_append, newUnion_append, newElementss_append, singleElementConstraint,
    List.map_append, List.map_cons, List.map_nil, Option.map_some, Option.map_none]
  have e0 : ∀ (p : Pointers R D) (d : Nat → SymType R D) (v : SymType R D), action 215 p d v = { v with type := .ref (c! "GeneralizedTime") } := fun _ _ _ => rfl
  rw [e0, e0]
  exact congrArg (fun z => { newSym f g h v with type := z }) e

theorem newRule_216 (hf : Rewording f) : NewRule (R := R) (D := D) f g h 216 := by
  intro p p' hp d v
  have e : (fun (p : Pointers R D) (d : Nat → SymType R D) => (.ref (c! "UTCTime") : Ty R D)) p' (fun i => newSym f g h (d i)) = (fun z : Ty R D => newTy f g h z) ((fun (p : Pointers R D) (d : Nat → SymType R D) => (.ref (c! "UTCTime") : Ty R D)) p d) := by
    first
    | rfl
    | simp only [newSym, hf.empty, hf.generalized, hf.utc, hp.value3, hp.defined2, hp.copy, newModuleIdentifier, newDefinitive, newTy, newElement, newValue, newAssignment,
    newBody, newConstraint, newSpec, newElements, newUnion, newParts, newPart, newElementss, newBound, newNamed, newComponent, newComponents, newTag, newBit, newFrom, newSymbol, newGlobal,
    newNameds, newTys, newNumber, newItem, newTys_append, newNameds_append, newComponents_append, newParts_append, newUnion_append, newElementss_append, singleElementConstraint,
    List.map_append, List.map_cons, List.map_nil, Option.map_some, Option.map_none]
  have e0 : ∀ (p : Pointers R D) (d : Nat → SymType R D) (v : SymType R D), action 216 p d v = { v with type := .ref (c! "UTCTime") } := fun _ _ _ => rfl
  rw [e0, e0]
  exact congrArg (fun z => { newSym f g h v with type := z }) e

theorem newRule_217 (hf : Rewording f) : NewRule (R := R) (D := D) f g h 217 := by
  intro p p' hp d v
  have e : (fun (p : Pointers R D) (d : Nat → SymType R D) => (.constrained (d 1).type (d 2).constraint : Ty R D)) p' (fun i => newSym f g h (d i)) = (fun z : Ty R D => newTy f g h z) ((fun (p : Pointers R D) (d : Nat → SymType R D) => (.constrained (d 1).type (d 2).constraint : Ty R D)) p d) := by
    first
    | rfl
    | simp only [newSym, hf.empty, hf.generalized, hf.utc, hp.value3, hp.defined2, hp.copy, newModuleIdentifier, newDefinitive, newTy, newElement, newValue, newAssignment,
    newBody, newConstraint, newSpec, newElements, newUnion, newParts, newPart, newElementss, newBound, newNamed, newComponent, newComponents, newTag, newBit, newFrom, newSymbol, newGlobal,
    newNameds, newTys, newNumber, newItem, newTys_append, newNameds_append, newComponents_append, newParts_append, newUnion_append, newElementss_append, singleElementConstraint,
    List.map_append, List.map_cons, List.map_nil, Option.map_some, Option.map_none]
  have e0 : ∀ (p : Pointers R D) (d : Nat → SymType R D) (v : SymType R D), action 217 p d v = { v with type := .constrained (d 1).type (d 2).constraint } := fun _ _ _ => rfl
  rw [e0, e0]
  exact congrArg (fun z => { newSym f g h v with type := z }) e

theorem newRule_218 : NewRule (R := R) (D := D) f g h 218 := by
  intro p p' _ d v
  have e0 : ∀ (p : Pointers R D) (d : Nat → SymType R D) (v : SymType R D), action 218 p d v = v := fun _ _ _ => rfl
  rw [e0, e0]

theorem newRule_219 (hf : Rewording f) : NewRule (R := R) (D := D) f g h 219 := by
  intro p p' hp d v
  have e : (fun (p : Pointers R D) (d : Nat → SymType R D) => (.constrained (.setOf (d 4).type) (d 2).constraint : Ty R D)) p' (fun i => newSym f g h (d i)) = (fun z : Ty R D => newTy f g h z) ((fun (p : Pointers R D) (d : Nat → SymType R D) => (.constrained (.setOf (d 4).type) (d 2).constraint : Ty R D)) p d) := by
    first
    | rfl
    | simp only [newSym, hf.empty, hf.generalized, hf.utc, hp.value3, hp.defined2, hp.copy, newModuleIdentifier, newDefinitive, newTy, newElement, newValue, newAssignment,
    newBody, newConstraint, newSpec, newElements, newUnion, newParts, newPart, newElementss, newBound, newNamed, newComponent, newComponents, newTag, newBit, newFrom, newSymbol, newGlobal,
    newNameds, newTys, newNumber, newItem, newTys_append, newNameds_append, newComponents_append, newParts_append, newUnion_append, newElementss_append, singleElementConstraint,
    List.map_append, List.map_cons, List.map_nil, Option.map_some, Option.map_none]
  have e0 : ∀ (p : Pointers R D) (d : Nat → SymType R D) (v : SymType R D), action 219 p d v = { v with type := .constrained (.setOf (d 4).type) (d 2).constraint } := fun _ _ _ => rfl
  rw [e0, e0]
  exact congrArg (fun z => { newSym f g h v with type := z }) e

theorem newRule_220 (hf : Rewording f) : NewRule (R := R) (D := D) f g h 220 := by
  intro p p' hp d v
  have e : (fun (p : Pointers R D) (d : Nat → SymType R D) => (.constrained (.setOf (d 4).type) (singleElementConstraint (d 2).elements) : Ty R D)) p' (fun i => newSym f g h (d i)) = (fun z : Ty R D => newTy f g h z) ((fun (p : Pointers R D) (d : Nat → SymType R D) => (.constrained (.setOf (d 4).type) (singleElementConstraint (d 2).elements) : Ty R D)) p d) := by
    first
    | rfl
    | simp only [newSym, hf.empty, hf.generalized, hf.utc, hp.value3, hp.defined2, hp.copy, newModuleIdentifier, newDefinitive, newTy, newElement, newValue, newAssignment,
    newBody, newConstraint, newSpec, newElements, newUnion, newParts, newPart, newElementss, newBound, newNamed, newComponent, newComponents, newTag, newBit, newFrom, newSymbol, newGlobal,
    newNameds, newTys, newNumber, newItem, newTys_append, newNameds_append, newComponents_append, newParts_append, newUnion_append, newElementss_append, singleElementConstraint,
    List.map_append, List.map_cons, List.map_nil, Option.map_some, Option.map_none]
  have e0 : ∀ (p : Pointers R D) (d : Nat → SymType R D) (v : SymType R D), action 220 p d v = { v with type := .constrained (.setOf (d 4).type) (singleElementConstraint (d 2).elements) } := fun _ _ _ => rfl
  rw [e0, e0]
  exact congrArg (fun z => { newSym f g h v with type := z }) e

theorem newRule_221 (hf : Rewording f) : NewRule (R := R) (D := D) f g h 221 := by
  intro p p' hp d v
  have e : (fun (p : Pointers R D) (d : Nat → SymType R D) => (.constrained (.sequenceOf (d 4).type) (d 2).constraint : Ty R D)) p' (fun i => newSym f g h (d i)) = (fun z : Ty R D => newTy f g h z) ((fun (p : Pointers R D) (d : Nat → SymType R D) => (.constrained (.sequenceOf (d 4).type) (d 2).constraint : Ty R D)) p d) := by
    first
    | rfl
    | simp only [newSym, hf.empty, hf.generalized, hf.utc, hp.value3, hp.defined2, hp.copy, newModuleIdentifier, newDefinitive, newTy, newElement, newValue, newAssignment,
    newBody, newConstraint, newSpec, newElements, newUnion, newParts, newPart, newElementss, newBound, newNamed, newComponent, newComponents, newTag, newBit, newFrom, newSymbol, newGlobal,
    newNameds, newTys, newNumber, newItem, newTys_append, newNameds_append, newComponents_append, newParts_append, newUnion_append, newElementss_append, singleElementConstraint,
    List.map_append, List.map_cons, List.map_nil, Option.map_some, Option.map_none]
  have e0 : ∀ (p : Pointers R D) (d : Nat → SymType R D) (v : SymType R D), action 221 p d v = { v with type := .constrained (.sequenceOf (d 4).type) (d 2).constraint } := fun _ _ _ => rfl
  rw [e0, e0]
  exact congrArg (fun z => { newSym f g h v with type := z }) e

theorem newRule_222 (hf : Rewording f) : NewRule (R := R) (D := D) f g h 222 := by
  intro p p' hp d v
  have e : (fun (p : Pointers R D) (d : Nat → SymType R D) => (.constrained (.sequenceOf (d 4).type) (singleElementConstraint (d 2).elements) : Ty R D)) p' (fun i => newSym f g h (d i)) = (fun z : Ty R D => newTy f g h z) ((fun (p : Pointers R D) (d : Nat → SymType R D) => (.constrained (.sequenceOf (d 4).type) (singleElementConstraint (d 2).elements) : Ty R D)) p d) := by
    first
    | rfl
    | simp only [newSym, hf.empty, hf.generalized, hf.utc, hp.value3, hp.defined2, hp.copy, newModuleIdentifier, newDefinitive, newTy, newElement, newValue, newAssignment,
    newBody, newConstraint, newSpec, newElements, newUnion, newParts, newPart, newElementss, newBound, newNamed, newComponent, newComponents, newTag, newBit, newFrom, newSymbol, newGlobal,
    newNameds, newTys, newNumber, newItem, newTys_append, newNameds_append, newComponents_append, newParts_append, newUnion_append, newElementss_append, singleElementConstraint,
    List.map_append, List.map_cons, List.map_nil, Option.map_some, Option.map_none]
  have e0 : ∀ (p : Pointers R D) (d : Nat → SymType R D) (v : SymType R D), action 222 p d v = { v with type := .constrained (.sequenceOf (d 4).type) (singleElementConstraint (d 2).elements) } := fun _ _ _ => rfl
  rw [e0, e0]
  exact congrArg (fun z => { newSym f g h v with type := z }) e

theorem newRule_223 (hf : Rewording f) : NewRule (R := R) (D := D) f g h 223 := by
  intro p p' hp d v
  have e : (fun (p : Pointers R D) (d : Nat → SymType R D) => (.constrained (.setOf (.named (d 4).namedType)) (d 2).constraint : Ty R D)) p' (fun i => newSym f g h (d i)) = (fun z : Ty R D => newTy f g h z) ((fun (p : Pointers R D) (d : Nat → SymType R D) => (.constrained (.setOf (.named (d 4).namedType)) (d 2).constraint : Ty R D)) p d) := by
    first
    | rfl
    | simp only [newSym, hf.empty, hf.generalized, hf.utc, hp.value3, hp.defined2, hp.copy, newModuleIdentifier, newDefinitive, newTy, newElement, newValue, newAssignment,
    newBody, newConstraint, newSpec, newElements, newUnion, newParts, newPart, newElementss, newBound, newNamed, newComponent, newComponents, newTag, newBit, newFrom, newSymbol, newGlobal,
    newNameds, newTys, newNumber, newItem, newTys_append, newNameds_append, newComponents_append, newParts_append, newUnion_append, newElementss_append, singleElementConstraint,
    List.map_append, List.map_cons, List.map_nil, Option.map_some, Option.map_none]
  have e0 : ∀ (p : Pointers R D) (d : Nat → SymType R D) (v : SymType R D), action 223 p d v = { v with type := .constrained (.setOf (.named (d 4).namedType)) (d 2).constraint } := fun _ _ _ => rfl
  rw [e0, e0]
  exact congrArg (fun z => { newSym f g h v with type := z }) e

theorem newRule_224 (hf : Rewording f) : NewRule (R := R) (D := D) f g h 224 := by
  intro p p' hp d v
  have e : (fun (p : Pointers R D) (d : Nat → SymType R D) => (.constrained (.setOf (.named (d 4).namedType)) (singleElementConstraint (d 2).elements) : Ty R D)) p' (fun i => newSym f g h (d i)) = (fun z : Ty R D => newTy f g h z) ((fun (p : Pointers R D) (d : Nat → SymType R D) => (.constrained (.setOf (.named (d 4).namedType)) (singleElementConstraint (d 2).elements) : Ty R D)) p d) := by
    first
    | rfl
    | simp only [newSym, hf.empty, hf.generalized, hf.utc, hp.value3, hp.defined2, hp.copy, newModuleIdentifier, newDefinitive, newTy, newElement, newValue, newAssignment,
    newBody, newConstraint, newSpec, newElements, newUnion, newParts, newPart, newElementss, newBound, newNamed, newComponent, newComponents, newTag, newBit, newFrom, newSymbol, newGlobal,
    newNameds, newTys, newNumber, newItem, newTys_append, newNameds_append, newComponents_append, newParts_append, newUnion_append, newElementss_append, singleElementConstraint,
    List.map_append, List.map_cons, List.map_nil, Option.map_some, Option.map_none]
  have e0 : ∀ (p : Pointers R D) (d : Nat → SymType R D) (v : SymType R D), action 224 p d v = { v with type := .constrained (.setOf (.named (d 4).namedType)) (singleElementConstraint (d 2).elements) } := fun _ _ _ => rfl
  rw [e0, e0]
  exact congrArg (fun z => { newSym f g h v with type := z }) e

theorem newRule_225 (hf : Rewording f) : NewRule (R := R) (D := D) f g h 225 := by
  intro p p' hp d v
  have e : (fun (p : Pointers R D) (d : Nat → SymType R D) => (.constrained (.sequenceOf (.named (d 4).namedType)) (d 2).constraint : Ty R D)) p' (fun i => newSym f g h (d i)) = (fun z : Ty R D => newTy f g h z) ((fun (p : Pointers R D) (d : Nat → SymType R D) => (.constrained (.sequenceOf (.named (d 4).namedType)) (d 2).constraint : Ty R D)) p d) := by
    first
    | rfl
    | simp only [newSym, hf.empty, hf.generalized, hf.utc, hp.value3, hp.defined2, hp.copy, newModuleIdentifier, newDefinitive, newTy, newElement, newValue, newAssignment,
    newBody, newConstraint, newSpec, newElements, newUnion, newParts, newPart, newElementss, newBound, newNamed, newComponent, newComponents, newTag, newBit, newFrom, newSymbol, newGlobal,
    newNameds, newTys, newNumber, newItem, newTys_append, newNameds_append, newComponents_append, newParts_append, newUnion_append, newElementss_append, singleElementConstraint,
    List.map_append, List.map_cons, List.map_nil, Option.map_some, Option.map_none]
  have e0 : ∀ (p : Pointers R D) (d : Nat → SymType R D) (v : SymType R D), action 225 p d v = { v with type := .constrained (.sequenceOf (.named (d 4).namedType)) (d 2).constraint } := fun _ _ _ => rfl
  rw [e0, e0]
  exact congrArg (fun z => { newSym f g h v with type := z }) e

theorem newRule_226 (hf : Rewording f) : NewRule (R := R) (D := D) f g h 226 := by
  intro p p' hp d v
  have e : (fun (p : Pointers R D) (d : Nat → SymType R D) => (.constrained (.sequenceOf (.named (d 4).namedType)) (singleElementConstraint (d 2).elements) : Ty R D)) p' (fun i => newSym f g h (d i)) = (fun z : Ty R D => newTy f g h z) ((fun (p : Pointers R D) (d : Nat → SymType R D) => (.constrained (.sequenceOf (.named (d 4).namedType)) (singleElementConstraint (d 2).elements) : Ty R D)) p d) := by
    first
    | rfl
    | simp only [newSym, hf.empty, hf.generalized, hf.utc, hp.value3, hp.defined2, hp.copy, newModuleIdentifier, newDefinitive, newTy, newElement, newValue, newAssignment,
    newBody, newConstraint, newSpec, newElements, newUnion, newParts, newPart, newElementss, newBound, newNamed, newComponent, newComponents, newTag, newBit, newFrom, newSymbol, newGlobal,
    newNameds, newTys, newNumber, newItem, newTys_append, newNameds_append, newComponents_append, newParts_append, newUnion_append, newElementss_append, singleElementConstraint,
    List.map_append, List.map_cons, List.map_nil, Option.map_some, Option.map_none]
  have e0 : ∀ (p : Pointers R D) (d : Nat → SymType R D) (v : SymType R D), action 226 p d v = { v with type := .constrained (.sequenceOf (.named (d 4).namedType)) (singleElementConstraint (d 2).elements) } := fun _ _ _ => rfl
  rw [e0, e0]
  exact congrArg (fun z => { newSym f g h v with type := z }) e

theorem newRule_227 (hf : Rewording f) : NewRule (R := R) (D := D) f g h 227 := by
  intro p p' hp d v
  have e : (fun (p : Pointers R D) (d : Nat → SymType R D) => (.mk (d 2).constraintSpec : Constraint R D)) p' (fun i => newSym f g h (d i)) = (fun z : Constraint R D => newConstraint f g h z) ((fun (p : Pointers R D) (d : Nat → SymType R D) => (.mk (d 2).constraintSpec : Constraint R D)) p d) := by
    first
    | rfl
    | simp only [newSym, hf.empty, hf.generalized, hf.utc, hp.value3, hp.defined2, hp.copy, newModuleIdentifier, newDefinitive, newTy, newElement, newValue, newAssignment,
    newBody, newConstraint, newSpec, newElements, newUnion, newParts, newPart, newElementss, newBound, newNamed, newComponent, newComponents, newTag, newBit, newFrom, newSymbol, newGlobal,
    newNameds, newTys, newNumber, newItem, newTys_append, newNameds_append, newComponents_append, newParts_append, newUnion_append, newElementss_append, singleElementConstraint,
    List.map_append, List.map_cons, List.map_nil, Option.map_some, Option.map_none]
  have e0 : ∀ (p : Pointers R D) (d : Nat → SymType R D) (v : SymType R D), action 227 p d v = { v with constraint := .mk (d 2).constraintSpec } := fun _ _ _ => rfl
  rw [e0, e0]
  exact congrArg (fun z => { newSym f g h v with constraint := z }) e

theorem newRule_228 (hf : Rewording f) : NewRule (R := R) (D := D) f g h 228 := by
  intro p p' hp d v
  have e : (fun (p : Pointers R D) (d : Nat → SymType R D) => (.subtype (d 1).subtypeConstraint : ConstraintSpec R D)) p' (fun i => newSym f g h (d i)) = (fun z : ConstraintSpec R D => newSpec f g h z) ((fun (p : Pointers R D) (d : Nat → SymType R D) => (.subtype (d 1).subtypeConstraint : ConstraintSpec R D)) p d) := by
    first
    | rfl
    | simp only [newSym, hf.empty, hf.generalized, hf.utc, hp.value3, hp.defined2, hp.copy, newModuleIdentifier, newDefinitive, newTy, newElement, newValue, newAssignment,
    newBody, newConstraint, newSpec, newElements, newUnion, newParts, newPart, newElementss, newBound, newNamed, newComponent, newComponents, newTag, newBit, newFrom, newSymbol, newGlobal,
    newNameds, newTys, newNumber, newItem, newTys_append, newNameds_append, newComponents_append, newParts_append, newUnion_append, newElementss_append, singleElementConstraint,
    List.map_append, List.map_cons, List.map_nil, Option.map_some, Option.map_none]
  have e0 : ∀ (p : Pointers R D) (d : Nat → SymType R D) (v : SymType R D), action 228 p d v = { v with constraintSpec := .subtype (d 1).subtypeConstraint } := fun _ _ _ => rfl
  rw [e0, e0]
  exact congrArg (fun z => { newSym f g h v with constraintSpec := z }) e

theorem newRule_229 : NewRule (R := R) (D := D) f g h 229 := by
  intro p p' _ d v
  have e0 : ∀ (p : Pointers R D) (d : Nat → SymType R D) (v : SymType R D), action 229 p d v = v := fun _ _ _ => rfl
  rw [e0, e0]

theorem newRule_230 : NewRule (R := R) (D := D) f g h 230 := by
  intro p p' _ d v
  have e0 : ∀ (p : Pointers R D) (d : Nat → SymType R D) (v : SymType R D), action 230 p d v = v := fun _ _ _ => rfl
  rw [e0, e0]

theorem newRule_231 (hf : Rewording f) : NewRule (R := R) (D := D) f g h 231 := by
  intro p p' hp d v
  have e : (fun (p : Pointers R D) (d : Nat → SymType R D) => ((d 1).subtypeConstraint : List (Elements R D))) p' (fun i => newSym f g h (d i)) = (fun z : List (Elements R D) => newElementss f g h z) ((fun (p : Pointers R D) (d : Nat → SymType R D) => ((d 1).subtypeConstraint : List (Elements R D))) p d) := by
    first
    | rfl
    | simp only [newSym, hf.empty, hf.generalized, hf.utc, hp.value3, hp.defined2, hp.copy, newModuleIdentifier, newDefinitive, newTy, newElement, newValue, newAssignment,
    newBody, newConstraint, newSpec, newElements, newUnion, newParts, newPart, newElementss, newBound, newNamed, newComponent, newComponents, newTag, newBit, newFrom, newSymbol, newGlobal,
    newNameds, newTys, newNumber, newItem, newTys_append, newNameds_append, newComponents_append, newParts_append, newUnion_append, newElementss_append, singleElementConstraint,
    List.map_append, List.map_cons, List.map_nil, Option.map_some, Option.map_none]
  have e0 : ∀ (p : Pointers R D) (d : Nat → SymType R D) (v : SymType R D), action 231 p d v = { v with subtypeConstraint := (d 1).subtypeConstraint } := fun _ _ _ => rfl
  rw [e0, e0]
  exact congrArg (fun z => { newSym f g h v with subtypeConstraint := z }) e

theorem newRule_232 (hf : Rewording f) : NewRule (R := R) (D := D) f g h 232 := by
  intro p p' hp d v
  have e : (fun (p : Pointers R D) (d : Nat → SymType R D) => ((d 1).subtypeConstraint ++ [(d 5).elementSetSpec] : List (Elements R D))) p' (fun i => newSym f g h (d i)) = (fun z : List (Elements R D) => newElementss f g h z) ((fun (p : Pointers R D) (d : Nat → SymType R D) => ((d 1).subtypeConstraint ++ [(d 5).elementSetSpec] : List (Elements R D))) p d) := by
    first
    | rfl
    | simp only [newSym, hf.empty, hf.generalized, hf.utc, hp.value3, hp.defined2, hp.copy, newModuleIdentifier, newDefinitive, newTy, newElement, newValue, newAssignment,
    newBody, newConstraint, newSpec, newElements, newUnion, newParts, newPart, newElementss, newBound, newNamed, newComponent, newComponents, newTag, newBit, newFrom, newSymbol, newGlobal,
    newNameds, newTys, newNumber, newItem, newTys_append, newNameds_append, newComponents_append, newParts_append, newUnion_append, newElementss_append, singleElementConstraint,
    List.map_append, List.map_cons, List.map_nil, Option.map_some, Option.map_none]
  have e0 : ∀ (p : Pointers R D) (d : Nat → SymType R D) (v : SymType R D), action 232 p d v = { v with subtypeConstraint := (d 1).subtypeConstraint ++ [(d 5).elementSetSpec] } := fun _ _ _ => rfl
  rw [e0, e0]
  exact congrArg (fun z => { newSym f g h v with subtypeConstraint := z }) e

theorem newRule_233 (hf : Rewording f) : NewRule (R := R) (D := D) f g h 233 := by
  intro p p' hp d v
  have e : (fun (p : Pointers R D) (d : Nat → SymType R D) => ([(d 1).elementSetSpec] : List (Elements R D))) p' (fun i => newSym f g h (d i)) = (fun z : List (Elements R D) => newElementss f g h z) ((fun (p : Pointers R D) (d : Nat → SymType R D) => ([(d 1).elementSetSpec] : List (Elements R D))) p d) := by
    first
    | rfl
    | simp only [newSym, hf.empty, hf.generalized, hf.utc, hp.value3, hp.defined2, hp.copy, newModuleIdentifier, newDefinitive, newTy, newElement, newValue, newAssignment,
    newBody, newConstraint, newSpec, newElements, newUnion, newParts, newPart, newElementss, newBound, newNamed, newComponent, newComponents, newTag, newBit, newFrom, newSymbol, newGlobal,
    newNameds, newTys, newNumber, newItem, newTys_append, newNameds_append, newComponents_append, newParts_append, newUnion_append, newElementss_append, singleElementConstraint,
    List.map_append, List.map_cons, List.map_nil, Option.map_some, Option.map_none]
  have e0 : ∀ (p : Pointers R D) (d : Nat → SymType R D) (v : SymType R D), action 233 p d v = { v with subtypeConstraint := [(d 1).elementSetSpec] } := fun _ _ _ => rfl
  rw [e0, e0]
  exact congrArg (fun z => { newSym f g h v with subtypeConstraint := z }) e

theorem newRule_234 : NewRule (R := R) (D := D) f g h 234 := by
  intro p p' _ d v
  have e0 : ∀ (p : Pointers R D) (d : Nat → SymType R D) (v : SymType R D), action 234 p d v = v := fun _ _ _ => rfl
  rw [e0, e0]

theorem newRule_235 (hf : Rewording f) : NewRule (R := R) (D := D) f g h 235 := by
  intro p p' hp d v
  have e : (fun (p : Pointers R D) (d : Nat → SymType R D) => (.unions (d 1).unions : Elements R D)) p' (fun i => newSym f g h (d i)) = (fun z : Elements R D => newElements f g h z) ((fun (p : Pointers R D) (d : Nat → SymType R D) => (.unions (d 1).unions : Elements R D)) p d) := by
    first
    | rfl
    | simp only [newSym, hf.empty, hf.generalized, hf.utc, hp.value3, hp.defined2, hp.copy, newModuleIdentifier, newDefinitive, newTy, newElement, newValue, newAssignment,
    newBody, newConstraint, newSpec, newElements, newUnion, newParts, newPart, newElementss, newBound, newNamed, newComponent, newComponents, newTag, newBit, newFrom, newSymbol, newGlobal,
    newNameds, newTys, newNumber, newItem, newTys_append, newNameds_append, newComponents_append, newParts_append, newUnion_append, newElementss_append, singleElementConstraint,
    List.map_append, List.map_cons, List.map_nil, Option.map_some, Option.map_none]
  have e0 : ∀ (p : Pointers R D) (d : Nat → SymType R D) (v : SymType R D), action 235 p d v = { v with elementSetSpec := .unions (d 1).unions } := fun _ _ _ => rfl
  rw [e0, e0]
  exact congrArg (fun z => { newSym f g h v with elementSetSpec := z }) e

theorem newRule_236 (hf : Rewording f) : NewRule (R := R) (D := D) f g h 236 := by
  intro p p' hp d v
  have e : (fun (p : Pointers R D) (d : Nat → SymType R D) => (.exclusions (d 2).exclusions : Elements R D)) p' (fun i => newSym f g h (d i)) = (fun z : Elements R D => newElements f g h z) ((fun (p : Pointers R D) (d : Nat → SymType R D) => (.exclusions (d 2).exclusions : Elements R D)) p d) := by
    first
    | rfl
    | simp only [newSym, hf.empty, hf.generalized, hf.utc, hp.value3, hp.defined2, hp.copy, newModuleIdentifier, newDefinitive, newTy, newElement, newValue, newAssignment,
    newBody, newConstraint, newSpec, newElements, newUnion, newParts, newPart, newElementss, newBound, newNamed, newComponent, newComponents, newTag, newBit, newFrom, newSymbol, newGlobal,
    newNameds, newTys, newNumber, newItem, newTys_append, newNameds_append, newComponents_append, newParts_append, newUnion_append, newElementss_append, singleElementConstraint,
    List.map_append, List.map_cons, List.map_nil, Option.map_some, Option.map_none]
  have e0 : ∀ (p : Pointers R D) (d : Nat → SymType R D) (v : SymType R D), action 236 p d v = { v with elementSetSpec := .exclusions (d 2).exclusions } := fun _ _ _ => rfl
  rw [e0, e0]
  exact congrArg (fun z => { newSym f g h v with elementSetSpec := z }) e

theorem newRule_237 (hf : Rewording f) : NewRule (R := R) (D := D) f g h 237 := by
  intro p p' hp d v
  have e : (fun (p : Pointers R D) (d : Nat → SymType R D) => ([(d 1).intersections] : List (List (IntersectionElements R D)))) p' (fun i => newSym f g h (d i)) = (fun z : List (List (IntersectionElements R D)) => newUnion f g h z) ((fun (p : Pointers R D) (d : Nat → SymType R D) => ([(d 1).intersections] : List (List (IntersectionElements R D)))) p d) := by
    first
    | rfl
    | simp only [newSym, hf.empty, hf.generalized, hf.utc, hp.value3, hp.defined2, hp.copy, newModuleIdentifier, newDefinitive, newTy, newElement, newValue, newAssignment,
    newBody, newConstraint, newSpec, newElements, newUnion, newParts, newPart, newElementss, newBound, newNamed, newComponent, newComponents, newTag, newBit, newFrom, newSymbol, newGlobal,
    newNameds, newTys, newNumber, newItem, newTys_append, newNameds_append, newComponents_append, newParts_append, newUnion_append, newElementss_append, singleElementConstraint,
    List.map_append, List.map_cons, List.map_nil, Option.map_some, Option.map_none]
  have e0 : ∀ (p : Pointers R D) (d : Nat → SymType R D) (v : SymType R D), action 237 p d v = { v with unions := [(d 1).intersections] } := fun _ _ _ => rfl
  rw [e0, e0]
  exact congrArg (fun z => { newSym f g h v with unions := z }) e

theorem newRule_238 (hf : Rewording f) : NewRule (R := R) (D := D) f g h 238 := by
  intro p p' hp d v
  have e : (fun (p : Pointers R D) (d : Nat → SymType R D) => ((d 1).unions ++ [(d 3).intersections] : List (List (IntersectionElements R D)))) p' (fun i => newSym f g h (d i)) = (fun z : List (List (IntersectionElements R D)) => newUnion f g h z) ((fun (p : Pointers R D) (d : Nat → SymType R D) => ((d 1).unions ++ [(d 3).intersections] : List (List (IntersectionElements R D)))) p d) := by
    first
    | rfl
    | simp only [newSym, hf.empty, hf.generalized, hf.utc, hp.value3, hp.defined2, hp.copy, newModuleIdentifier, newDefinitive, newTy, newElement, newValue, newAssignment,
    newBody, newConstraint, newSpec, newElements, newUnion, newParts, newPart, newElementss, newBound, newNamed, newComponent, newComponents, newTag, newBit, newFrom, newSymbol, newGlobal,
    newNameds, newTys, newNumber, newItem, newTys_append, newNameds_append, newComponents_append, newParts_append, newUnion_append, newElementss_append, singleElementConstraint,
    List.map_append, List.map_cons, List.map_nil, Option.map_some, Option.map_none]
  have e0 : ∀ (p : Pointers R D) (d : Nat → SymType R D) (v : SymType R D), action 238 p d v = { v with unions := (d 1).unions ++ [(d 3).intersections] } := fun _ _ _ => rfl
  rw [e0, e0]
  exact congrArg (fun z => { newSym f g h v with unions := z }) e

theorem newRule_239 : NewRule (R := R) (D := D) f g h 239 := by
  intro p p' _ d v
  have e0 : ∀ (p : Pointers R D) (d : Nat → SymType R D) (v : SymType R D), action 239 p d v = v := fun _ _ _ => rfl
  rw [e0, e0]

theorem newRule_240 (hf : Rewording f) : NewRule (R := R) (D := D) f g h 240 := by
  intro p p' hp d v
  have e : (fun (p : Pointers R D) (d : Nat → SymType R D) => ([(d 1).intersectionElements] : List (IntersectionElements R D))) p' (fun i => newSym f g h (d i)) = (fun z : List (IntersectionElements R D) => newParts f g h z) ((fun (p : Pointers R D) (d : Nat → SymType R D) => ([(d 1).intersectionElements] : List (IntersectionElements R D))) p d) := by
    first
    | rfl
    | simp only [newSym, hf.empty, hf.generalized, hf.utc, hp.value3, hp.defined2, hp.copy, newModuleIdentifier, newDefinitive, newTy, newElement, newValue, newAssignment,
    newBody, newConstraint, newSpec, newElements, newUnion, newParts, newPart, newElementss, newBound, newNamed, newComponent, newComponents, newTag, newBit, newFrom, newSymbol, newGlobal,
    newNameds, newTys, newNumber, newItem, newTys_append, newNameds_append, newComponents_append, newParts_append, newUnion_append, newElementss_append, singleElementConstraint,
    List.map_append, List.map_cons, List.map_nil, Option.map_some, Option.map_none]
  have e0 : ∀ (p : Pointers R D) (d : Nat → SymType R D) (v : SymType R D), action 240 p d v = { v with intersections := [(d 1).intersectionElements] } := fun _ _ _ => rfl
  rw [e0, e0]
  exact congrArg (fun z => { newSym f g h v with intersections := z }) e

theorem newRule_241 (hf : Rewording f) : NewRule (R := R) (D := D) f g h 241 := by
  intro p p' hp d v
  have e : (fun (p : Pointers R D) (d : Nat → SymType R D) => ((d 1).intersections ++ [(d 3).intersectionElements] : List (IntersectionElements R D))) p' (fun i => newSym f g h (d i)) = (fun z : List (IntersectionElements R D) => newParts f g h z) ((fun (p : Pointers R D) (d : Nat → SymType R D) => ((d 1).intersections ++ [(d 3).intersectionElements] : List (IntersectionElements R D))) p d) := by
    first
    | rfl
    | simp only [newSym, hf.empty, hf.generalized, hf.utc, hp.value3, hp.defined2, hp.copy, newModuleIdentifier, newDefinitive, newTy, newElement, newValue, newAssignment,
    newBody, newConstraint, newSpec, newElements, newUnion, newParts, newPart, newElementss, newBound, newNamed, newComponent, newComponents, newTag, newBit, newFrom, newSymbol, newGlobal,
    newNameds, newTys, newNumber, newItem, newTys_append, newNameds_append, newComponents_append, newParts_append, newUnion_append, newElementss_append, singleElementConstraint,
    List.map_append, List.map_cons, List.map_nil, Option.map_some, Option.map_none]
  have e0 : ∀ (p : Pointers R D) (d : Nat → SymType R D) (v : SymType R D), action 241 p d v = { v with intersections := (d 1).intersections ++ [(d 3).intersectionElements] } := fun _ _ _ => rfl
  rw [e0, e0]
  exact congrArg (fun z => { newSym f g h v with intersections := z }) e

theorem newRule_242 : NewRule (R := R) (D := D) f g h 242 := by
  intro p p' _ d v
  have e0 : ∀ (p : Pointers R D) (d : Nat → SymType R D) (v : SymType R D), action 242 p d v = v := fun _ _ _ => rfl
  rw [e0, e0]

theorem newRule_243 (hf : Rewording f) : NewRule (R := R) (D := D) f g h 243 := by
  intro p p' hp d v
  have e : (fun (p : Pointers R D) (d : Nat → SymType R D) => (.mk (d 1).elements .nil : IntersectionElements R D)) p' (fun i => newSym f g h (d i)) = (fun z : IntersectionElements R D => newPart f g h z) ((fun (p : Pointers R D) (d : Nat → SymType R D) => (.mk (d 1).elements .nil : IntersectionElements R D)) p d) := by
    first
    | rfl
    | simp only [newSym, hf.empty, hf.generalized, hf.utc, hp.value3, hp.defined2, hp.copy, newModuleIdentifier, newDefinitive, newTy, newElement, newValue, newAssignment,
    newBody, newConstraint, newSpec, newElements, newUnion, newParts, newPart, newElementss, newBound, newNamed, newComponent, newComponents, newTag, newBit, newFrom, newSymbol, newGlobal,
    newNameds, newTys, newNumber, newItem, newTys_append, newNameds_append, newComponents_append, newParts_append, newUnion_append, newElementss_append, singleElementConstraint,
    List.map_append, List.map_cons, List.map_nil, Option.map_some, Option.map_none]
  have e0 : ∀ (p : Pointers R D) (d : Nat → SymType R D) (v : SymType R D), action 243 p d v = { v with intersectionElements := .mk (d 1).elements .nil } := fun _ _ _ => rfl
  rw [e0, e0]
  exact congrArg (fun z => { newSym f g h v with intersectionElements := z }) e

theorem newRule_244 (hf : Rewording f) : NewRule (R := R) (D := D) f g h 244 := by
  intro p p' hp d v
  have e : (fun (p : Pointers R D) (d : Nat → SymType R D) => (.mk (d 1).elements (d 2).exclusions : IntersectionElements R D)) p' (fun i => newSym f g h (d i)) = (fun z : IntersectionElements R D => newPart f g h z) ((fun (p : Pointers R D) (d : Nat → SymType R D) => (.mk (d 1).elements (d 2).exclusions : IntersectionElements R D)) p d) := by
    first
    | rfl
    | simp only [newSym, hf.empty, hf.generalized, hf.utc, hp.value3, hp.defined2, hp.copy, newModuleIdentifier, newDefinitive, newTy, newElement, newValue, newAssignment,
    newBody, newConstraint, newSpec, newElements, newUnion, newParts, newPart, newElementss, newBound, newNamed, newComponent, newComponents, newTag, newBit, newFrom, newSymbol, newGlobal,
    newNameds, newTys, newNumber, newItem, newTys_append, newNameds_append, newComponents_append, newParts_append, newUnion_append, newElementss_append, singleElementConstraint,
    List.map_append, List.map_cons, List.map_nil, Option.map_some, Option.map_none]
  have e0 : ∀ (p : Pointers R D) (d : Nat → SymType R D) (v : SymType R D), action 244 p d v = { v with intersectionElements := .mk (d 1).elements (d 2).exclusions } := fun _ _ _ => rfl
  rw [e0, e0]
  exact congrArg (fun z => { newSym f g h v with intersectionElements := z }) e

theorem newRule_245 : NewRule (R := R) (D := D) f g h 245 := by
  intro p p' _ d v
  have e0 : ∀ (p : Pointers R D) (d : Nat → SymType R D) (v : SymType R D), action 245 p d v = v := fun _ _ _ => rfl
  rw [e0, e0]

theorem newRule_246 (hf : Rewording f) : NewRule (R := R) (D := D) f g h 246 := by
  intro p p' hp d v
  have e : (fun (p : Pointers R D) (d : Nat → SymType R D) => ((d 2).elements : Elements R D)) p' (fun i => newSym f g h (d i)) = (fun z : Elements R D => newElements f g h z) ((fun (p : Pointers R D) (d : Nat → SymType R D) => ((d 2).elements : Elements R D)) p d) := by
    first
    | rfl
    | simp only [newSym, hf.empty, hf.generalized, hf.utc, hp.value3, hp.defined2, hp.copy, newModuleIdentifier, newDefinitive, newTy, newElement, newValue, newAssignment,
    newBody, newConstraint, newSpec, newElements, newUnion, newParts, newPart, newElementss, newBound, newNamed, newComponent, newComponents, newTag, newBit, newFrom, newSymbol, newGlobal,
    newNameds, newTys, newNumber, newItem, newTys_append, newNameds_append, newComponents_append, newParts_append, newUnion_append, newElementss_append, singleElementConstraint,
    List.map_append, List.map_cons, List.map_nil, Option.map_some, Option.map_none]
  have e0 : ∀ (p : Pointers R D) (d : Nat → SymType R D) (v : SymType R D), action 246 p d v = { v with exclusions := (d 2).elements } := fun _ _ _ => rfl
  rw [e0, e0]
  exact congrArg (fun z => { newSym f g h v with exclusions := z }) e

theorem newRule_247 : NewRule (R := R) (D := D) f g h 247 := by
  intro p p' _ d v
  have e0 : ∀ (p : Pointers R D) (d : Nat → SymType R D) (v : SymType R D), action 247 p d v = v := fun _ _ _ => rfl
  rw [e0, e0]

theorem newRule_248 : NewRule (R := R) (D := D) f g h 248 := by
  intro p p' _ d v
  have e0 : ∀ (p : Pointers R D) (d : Nat → SymType R D) (v : SymType R D), action 248 p d v = v := fun _ _ _ => rfl
  rw [e0, e0]

theorem newRule_249 : NewRule (R := R) (D := D) f g h 249 := by
  intro p p' _ d v
  have e0 : ∀ (p : Pointers R D) (d : Nat → SymType R D) (v : SymType R D), action 249 p d v = v := fun _ _ _ => rfl
  rw [e0, e0]

theorem newRule_250 : NewRule (R := R) (D := D) f g h 250 := by
  intro p p' _ d v
  have e0 : ∀ (p : Pointers R D) (d : Nat → SymType R D) (v : SymType R D), action 250 p d v = v := fun _ _ _ => rfl
  rw [e0, e0]

theorem newRule_251 (hf : Rewording f) : NewRule (R := R) (D := D) f g h 251 := by
  intro p p' hp d v
  have e : (fun (p : Pointers R D) (d : Nat → SymType R D) => ((d 1).elements : Elements R D)) p' (fun i => newSym f g h (d i)) = (fun z : Elements R D => newElements f g h z) ((fun (p : Pointers R D) (d : Nat → SymType R D) => ((d 1).elements : Elements R D)) p d) := by
    first
    | rfl
    | simp only [newSym, hf.empty, hf.generalized, hf.utc, hp.value3, hp.defined2, hp.copy, newModuleIdentifier, newDefinitive, newTy, newElement, newValue, newAssignment,
    newBody, newConstraint, newSpec, newElements, newUnion, newParts, newPart, newElementss, newBound, newNamed, newComponent, newComponents, newTag, newBit, newFrom, newSymbol, newGlobal,
    newNameds, newTys, newNumber, newItem, newTys_append, newNameds_append, newComponents_append, newParts_append, newUnion_append, newElementss_append, singleElementConstraint,
    List.map_append, List.map_cons, List.map_nil, Option.map_some, Option.map_none]
  have e0 : ∀ (p : Pointers R D) (d : Nat → SymType R D) (v : SymType R D), action 251 p d v = { v with elements := (d 1).elements } := fun _ _ _ => rfl
  rw [e0, e0]
  exact congrArg (fun z => { newSym f g h v with elements := z }) e

theorem newRule_252 (hf : Rewording f) : NewRule (R := R) (D := D) f g h 252 := by
  intro p p' hp d v
  have e : (fun (p : Pointers R D) (d : Nat → SymType R D) => ((d 2).elementSetSpec : Elements R D)) p' (fun i => newSym f g h (d i)) = (fun z : Elements R D => newElements f g h z) ((fun (p : Pointers R D) (d : Nat → SymType R D) => ((d 2).elementSetSpec : Elements R D)) p d) := by
    first
    | rfl
    | simp only [newSym, hf.empty, hf.generalized, hf.utc, hp.value3, hp.defined2, hp.copy, newModuleIdentifier, newDefinitive, newTy, newElement, newValue, newAssignment,
    newBody, newConstraint, newSpec, newElements, newUnion, newParts, newPart, newElementss, newBound, newNamed, newComponent, newComponents, newTag, newBit, newFrom, newSymbol, newGlobal,
    newNameds, newTys, newNumber, newItem, newTys_append, newNameds_append, newComponents_append, newParts_append, newUnion_append, newElementss_append, singleElementConstraint,
    List.map_append, List.map_cons, List.map_nil, Option.map_some, Option.map_none]
  have e0 : ∀ (p : Pointers R D) (d : Nat → SymType R D) (v : SymType R D), action 252 p d v = { v with elements := (d 2).elementSetSpec } := fun _ _ _ => rfl
  rw [e0, e0]
  exact congrArg (fun z => { newSym f g h v with elements := z }) e

theorem newRule_253 : NewRule (R := R) (D := D) f g h 253 := by
  intro p p' _ d v
  have e0 : ∀ (p : Pointers R D) (d : Nat → SymType R D) (v : SymType R D), action 253 p d v = v := fun _ _ _ => rfl
  rw [e0, e0]

theorem newRule_254 : NewRule (R := R) (D := D) f g h 254 := by
  intro p p' _ d v
  have e0 : ∀ (p : Pointers R D) (d : Nat → SymType R D) (v : SymType R D), action 254 p d v = v := fun _ _ _ => rfl
  rw [e0, e0]

theorem newRule_255 : NewRule (R := R) (D := D) f g h 255 := by
  intro p p' _ d v
  have e0 : ∀ (p : Pointers R D) (d : Nat → SymType R D) (v : SymType R D), action 255 p d v = v := fun _ _ _ => rfl
  rw [e0, e0]

theorem newRule_256 : NewRule (R := R) (D := D) f g h 256 := by
  intro p p' _ d v
  have e0 : ∀ (p : Pointers R D) (d : Nat → SymType R D) (v : SymType R D), action 256 p d v = v := fun _ _ _ => rfl
  rw [e0, e0]

theorem newRule_257 : NewRule (R := R) (D := D) f g h 257 := by
  intro p p' _ d v
  have e0 : ∀ (p : Pointers R D) (d : Nat → SymType R D) (v : SymType R D), action 257 p d v = v := fun _ _ _ => rfl
  rw [e0, e0]

theorem newRule_258 (hf : Rewording f) : NewRule (R := R) (D := D) f g h 258 := by
  intro p p' hp d v
  have e : (fun (p : Pointers R D) (d : Nat → SymType R D) => (.singleValue (d 1).value : Elements R D)) p' (fun i => newSym f g h (d i)) = (fun z : Elements R D => newElements f g h z) ((fun (p : Pointers R D) (d : Nat → SymType R D) => (.singleValue (d 1).value : Elements R D)) p d) := by
    first
    | rfl
    | simp only [newSym, hf.empty, hf.generalized, hf.utc, hp.value3, hp.defined2, hp.copy, newModuleIdentifier, newDefinitive, newTy, newElement, newValue, newAssignment,
    newBody, newConstraint, newSpec, newElements, newUnion, newParts, newPart, newElementss, newBound, newNamed, newComponent, newComponents, newTag, newBit, newFrom, newSymbol, newGlobal,
    newNameds, newTys, newNumber, newItem, newTys_append, newNameds_append, newComponents_append, newParts_append, newUnion_append, newElementss_append, singleElementConstraint,
    List.map_append, List.map_cons, List.map_nil, Option.map_some, Option.map_none]
  have e0 : ∀ (p : Pointers R D) (d : Nat → SymType R D) (v : SymType R D), action 258 p d v = { v with elements := .singleValue (d 1).value } := fun _ _ _ => rfl
  rw [e0, e0]
  exact congrArg (fun z => { newSym f g h v with elements := z }) e

theorem newRule_259 (hf : Rewording f) : NewRule (R := R) (D := D) f g h 259 := by
  intro p p' hp d v
  have e : (fun (p : Pointers R D) (d : Nat → SymType R D) => (.valueRange (d 1).rangeEndpoint (d 3).rangeEndpoint : Elements R D)) p' (fun i => newSym f g h (d i)) = (fun z : Elements R D => newElements f g h z) ((fun (p : Pointers R D) (d : Nat → SymType R D) => (.valueRange (d 1).rangeEndpoint (d 3).rangeEndpoint : Elements R D)) p d) := by
    first
    | rfl
    | simp only [newSym, hf.empty, hf.generalized, hf.utc, hp.value3, hp.defined2, hp.copy, newModuleIdentifier, newDefinitive, newTy, newElement, newValue, newAssignment,
    newBody, newConstraint, newSpec, newElements, newUnion, newParts, newPart, newElementss, newBound, newNamed, newComponent, newComponents, newTag, newBit, newFrom, newSymbol, newGlobal,
    newNameds, newTys, newNumber, newItem, newTys_append, newNameds_append, newComponents_append, newParts_append, newUnion_append, newElementss_append, singleElementConstraint,
    List.map_append, List.map_cons, List.map_nil, Option.map_some, Option.map_none]
  have e0 : ∀ (p : Pointers R D) (d : Nat → SymType R D) (v : SymType R D), action 259 p d v = { v with elements := .valueRange (d 1).rangeEndpoint (d 3).rangeEndpoint } := fun _ _ _ => rfl
  rw [e0, e0]
  exact congrArg (fun z => { newSym f g h v with elements := z }) e

theorem newRule_260 (hf : Rewording f) : NewRule (R := R) (D := D) f g h 260 := by
  intro p p' hp d v
  have e : (fun (p : Pointers R D) (d : Nat → SymType R D) => ({ value := (d 1).value } : RangeEndpoint R)) p' (fun i => newSym f g h (d i)) = (fun z : RangeEndpoint R => newBound f g z) ((fun (p : Pointers R D) (d : Nat → SymType R D) => ({ value := (d 1).value } : RangeEndpoint R)) p d) := by
    first
    | rfl
    | simp only [newSym, hf.empty, hf.generalized, hf.utc, hp.value3, hp.defined2, hp.copy, newModuleIdentifier, newDefinitive, newTy, newElement, newValue, newAssignment,
    newBody, newConstraint, newSpec, newElements, newUnion, newParts, newPart, newElementss, newBound, newNamed, newComponent, newComponents, newTag, newBit, newFrom, newSymbol, newGlobal,
    newNameds, newTys, newNumber, newItem, newTys_append, newNameds_append, newComponents_append, newParts_append, newUnion_append, newElementss_append, singleElementConstraint,
    List.map_append, List.map_cons, List.map_nil, Option.map_some, Option.map_none]
  have e0 : ∀ (p : Pointers R D) (d : Nat → SymType R D) (v : SymType R D), action 260 p d v = { v with rangeEndpoint := { value := (d 1).value } } := fun _ _ _ => rfl
  rw [e0, e0]
  exact congrArg (fun z => { newSym f g h v with rangeEndpoint := z }) e

theorem newRule_261 (hf : Rewording f) : NewRule (R := R) (D := D) f g h 261 := by
  intro p p' hp d v
  have e : (fun (p : Pointers R D) (d : Nat → SymType R D) => ({ value := (d 1).value, isOpen := true } : RangeEndpoint R)) p' (fun i => newSym f g h (d i)) = (fun z : RangeEndpoint R => newBound f g z) ((fun (p : Pointers R D) (d : Nat → SymType R D) => ({ value := (d 1).value, isOpen := true } : RangeEndpoint R)) p d) := by
    first
    | rfl
    | simp only [newSym, hf.empty, hf.generalized, hf.utc, hp.value3, hp.defined2, hp.copy, newModuleIdentifier, newDefinitive, newTy, newElement, newValue, newAssignment,
    newBody, newConstraint, newSpec, newElements, newUnion, newParts, newPart, newElementss, newBound, newNamed, newComponent, newComponents, newTag, newBit, newFrom, newSymbol, newGlobal,
    newNameds, newTys, newNumber, newItem, newTys_append, newNameds_append, newComponents_append, newParts_append, newUnion_append, newElementss_append, singleElementConstraint,
    List.map_append, List.map_cons, List.map_nil, Option.map_some, Option.map_none]
  have e0 : ∀ (p : Pointers R D) (d : Nat → SymType R D) (v : SymType R D), action 261 p d v = { v with rangeEndpoint := { value := (d 1).value, isOpen := true } } := fun _ _ _ => rfl
  rw [e0, e0]
  exact congrArg (fun z => { newSym f g h v with rangeEndpoint := z }) e

theorem newRule_262 (hf : Rewording f) : NewRule (R := R) (D := D) f g h 262 := by
  intro p p' hp d v
  have e : (fun (p : Pointers R D) (d : Nat → SymType R D) => ({ value := (d 1).value } : RangeEndpoint R)) p' (fun i => newSym f g h (d i)) = (fun z : RangeEndpoint R => newBound f g z) ((fun (p : Pointers R D) (d : Nat → SymType R D) => ({ value := (d 1).value } : RangeEndpoint R)) p d) := by
    first
    | rfl
    | simp only [newSym, hf.empty, hf.generalized, hf.utc, hp.value3, hp.defined2, hp.copy, newModuleIdentifier, newDefinitive, newTy, newElement, newValue, newAssignment,
    newBody, newConstraint, newSpec, newElements, newUnion, newParts, newPart, newElementss, newBound, newNamed, newComponent, newComponents, newTag, newBit, newFrom, newSymbol, newGlobal,
    newNameds, newTys, newNumber, newItem, newTys_append, newNameds_append, newComponents_append, newParts_append, newUnion_append, newElementss_append, singleElementConstraint,
    List.map_append, List.map_cons, List.map_nil, Option.map_some, Option.map_none]
  have e0 : ∀ (p : Pointers R D) (d : Nat → SymType R D) (v : SymType R D), action 262 p d v = { v with rangeEndpoint := { value := (d 1).value } } := fun _ _ _ => rfl
  rw [e0, e0]
  exact congrArg (fun z => { newSym f g h v with rangeEndpoint := z }) e

theorem newRule_263 (hf : Rewording f) : NewRule (R := R) (D := D) f g h 263 := by
  intro p p' hp d v
  have e : (fun (p : Pointers R D) (d : Nat → SymType R D) => ({ value := (d 2).value, isOpen := true } : RangeEndpoint R)) p' (fun i => newSym f g h (d i)) = (fun z : RangeEndpoint R => newBound f g z) ((fun (p : Pointers R D) (d : Nat → SymType R D) => ({ value := (d 2).value, isOpen := true } : RangeEndpoint R)) p d) := by
    first
    | rfl
    | simp only [newSym, hf.empty, hf.generalized, hf.utc, hp.value3, hp.defined2, hp.copy, newModuleIdentifier, newDefinitive, newTy, newElement, newValue, newAssignment,
    newBody, newConstraint, newSpec, newElements, newUnion, newParts, newPart, newElementss, newBound, newNamed, newComponent, newComponents, newTag, newBit, newFrom, newSymbol, newGlobal,
    newNameds, newTys, newNumber, newItem, newTys_append, newNameds_append, newComponents_append, newParts_append, newUnion_append, newElementss_append, singleElementConstraint,
    List.map_append, List.map_cons, List.map_nil, Option.map_some, Option.map_none]
  have e0 : ∀ (p : Pointers R D) (d : Nat → SymType R D) (v : SymType R D), action 263 p d v = { v with rangeEndpoint := { value := (d 2).value, isOpen := true } } := fun _ _ _ => rfl
  rw [e0, e0]
  exact congrArg (fun z => { newSym f g h v with rangeEndpoint := z }) e

theorem newRule_264 : NewRule (R := R) (D := D) f g h 264 := by
  intro p p' _ d v
  have e0 : ∀ (p : Pointers R D) (d : Nat → SymType R D) (v : SymType R D), action 264 p d v = v := fun _ _ _ => rfl
  rw [e0, e0]

theorem newRule_265 (hf : Rewording f) : NewRule (R := R) (D := D) f g h 265 := by
  intro p p' hp d v
  have e : (fun (p : Pointers R D) (d : Nat → SymType R D) => (.nil : Value R)) p' (fun i => newSym f g h (d i)) = (fun z : Value R => newValue f g z) ((fun (p : Pointers R D) (d : Nat → SymType R D) => (.nil : Value R)) p d) := by
    first
    | rfl
    | simp only [newSym, hf.empty, hf.generalized, hf.utc, hp.value3, hp.defined2, hp.copy, newModuleIdentifier, newDefinitive, newTy, newElement, newValue, newAssignment,
    newBody, newConstraint, newSpec, newElements, newUnion, newParts, newPart, newElementss, newBound, newNamed, newComponent, newComponents, newTag, newBit, newFrom, newSymbol, newGlobal,
    newNameds, newTys, newNumber, newItem, newTys_append, newNameds_append, newComponents_append, newParts_append, newUnion_append, newElementss_append, singleElementConstraint,
    List.map_append, List.map_cons, List.map_nil, Option.map_some, Option.map_none]
  have e0 : ∀ (p : Pointers R D) (d : Nat → SymType R D) (v : SymType R D), action 265 p d v = { v with value := .nil } := fun _ _ _ => rfl
  rw [e0, e0]
  exact congrArg (fun z => { newSym f g h v with value := z }) e

theorem newRule_266 : NewRule (R := R) (D := D) f g h 266 := by
  intro p p' _ d v
  have e0 : ∀ (p : Pointers R D) (d : Nat → SymType R D) (v : SymType R D), action 266 p d v = v := fun _ _ _ => rfl
  rw [e0, e0]

theorem newRule_267 (hf : Rewording f) : NewRule (R := R) (D := D) f g h 267 := by
  intro p p' hp d v
  have e : (fun (p : Pointers R D) (d : Nat → SymType R D) => (.nil : Value R)) p' (fun i => newSym f g h (d i)) = (fun z : Value R => newValue f g z) ((fun (p : Pointers R D) (d : Nat → SymType R D) => (.nil : Value R)) p d) := by
    first
    | rfl
    | simp only [newSym, hf.empty, hf.generalized, hf.utc, hp.value3, hp.defined2, hp.copy, newModuleIdentifier, newDefinitive, newTy, newElement, newValue, newAssignment,
    newBody, newConstraint, newSpec, newElements, newUnion, newParts, newPart, newElementss, newBound, newNamed, newComponent, newComponents, newTag, newBit, newFrom, newSymbol, newGlobal,
    newNameds, newTys, newNumber, newItem, newTys_append, newNameds_append, newComponents_append, newParts_append, newUnion_append, newElementss_append, singleElementConstraint,
    List.map_append, List.map_cons, List.map_nil, Option.map_some, Option.map_none]
  have e0 : ∀ (p : Pointers R D) (d : Nat → SymType R D) (v : SymType R D), action 267 p d v = { v with value := .nil } := fun _ _ _ => rfl
  rw [e0, e0]
  exact congrArg (fun z => { newSym f g h v with value := z }) e

theorem newRule_268 (hf : Rewording f) : NewRule (R := R) (D := D) f g h 268 := by
  intro p p' hp d v
  have e : (fun (p : Pointers R D) (d : Nat → SymType R D) => (.size (d 2).constraint : Elements R D)) p' (fun i => newSym f g h (d i)) = (fun z : Elements R D => newElements f g h z) ((fun (p : Pointers R D) (d : Nat → SymType R D) => (.size (d 2).constraint : Elements R D)) p d) := by
    first
    | rfl
    | simp only [newSym, hf.empty, hf.generalized, hf.utc, hp.value3, hp.defined2, hp.copy, newModuleIdentifier, newDefinitive, newTy, newElement, newValue, newAssignment,
    newBody, newConstraint, newSpec, newElements, newUnion, newParts, newPart, newElementss, newBound, newNamed, newComponent, newComponents, newTag, newBit, newFrom, newSymbol, newGlobal,
    newNameds, newTys, newNumber, newItem, newTys_append, newNameds_append, newComponents_append, newParts_append, newUnion_append, newElementss_append, singleElementConstraint,
    List.map_append, List.map_cons, List.map_nil, Option.map_some, Option.map_none]
  have e0 : ∀ (p : Pointers R D) (d : Nat → SymType R D) (v : SymType R D), action 268 p d v = { v with elements := .size (d 2).constraint } := fun _ _ _ => rfl
  rw [e0, e0]
  exact congrArg (fun z => { newSym f g h v with elements := z }) e

theorem newRule_269 (hf : Rewording f) : NewRule (R := R) (D := D) f g h 269 := by
  intro p p' hp d v
  have e : (fun (p : Pointers R D) (d : Nat → SymType R D) => (.typeConstraint (d 1).type : Elements R D)) p' (fun i => newSym f g h (d i)) = (fun z : Elements R D => newElements f g h z) ((fun (p : Pointers R D) (d : Nat → SymType R D) => (.typeConstraint (d 1).type : Elements R D)) p d) := by
    first
    | rfl
    | simp only [newSym, hf.empty, hf.generalized, hf.utc, hp.value3, hp.defined2, hp.copy, newModuleIdentifier, newDefinitive, newTy, newElement, newValue, newAssignment,
    newBody, newConstraint, newSpec, newElements, newUnion, newParts, newPart, newElementss, newBound, newNamed, newComponent, newComponents, newTag, newBit, newFrom, newSymbol, newGlobal,
    newNameds, newTys, newNumber, newItem, newTys_append, newNameds_append, newComponents_append, newParts_append, newUnion_append, newElementss_append, singleElementConstraint,
    List.map_append, List.map_cons, List.map_nil, Option.map_some, Option.map_none]
  have e0 : ∀ (p : Pointers R D) (d : Nat → SymType R D) (v : SymType R D), action 269 p d v = { v with elements := .typeConstraint (d 1).type } := fun _ _ _ => rfl
  rw [e0, e0]
  exact congrArg (fun z => { newSym f g h v with elements := z }) e

theorem newRule_270 (hf : Rewording f) : NewRule (R := R) (D := D) f g h 270 := by
  intro p p' hp d v
  have e : (fun (p : Pointers R D) (d : Nat → SymType R D) => (.inner : Elements R D)) p' (fun i => newSym f g h (d i)) = (fun z : Elements R D => newElements f g h z) ((fun (p : Pointers R D) (d : Nat → SymType R D) => (.inner : Elements R D)) p d) := by
    first
    | rfl
    | simp only [newSym, hf.empty, hf.generalized, hf.utc, hp.value3, hp.defined2, hp.copy, newModuleIdentifier, newDefinitive, newTy, newElement, newValue, newAssignment,
    newBody, newConstraint, newSpec, newElements, newUnion, newParts, newPart, newElementss, newBound, newNamed, newComponent, newComponents, newTag, newBit, newFrom, newSymbol, newGlobal,
    newNameds, newTys, newNumber, newItem, newTys_append, newNameds_append, newComponents_append, newParts_append, newUnion_append, newElementss_append, singleElementConstraint,
    List.map_append, List.map_cons, List.map_nil, Option.map_some, Option.map_none]
  have e0 : ∀ (p : Pointers R D) (d : Nat → SymType R D) (v : SymType R D), action 270 p d v = { v with elements := .inner } := fun _ _ _ => rfl
  rw [e0, e0]
  exact congrArg (fun z => { newSym f g h v with elements := z }) e

theorem newRule_271 (hf : Rewording f) : NewRule (R := R) (D := D) f g h 271 := by
  intro p p' hp d v
  have e : (fun (p : Pointers R D) (d : Nat → SymType R D) => (.inner : Elements R D)) p' (fun i => newSym f g h (d i)) = (fun z : Elements R D => newElements f g h z) ((fun (p : Pointers R D) (d : Nat → SymType R D) => (.inner : Elements R D)) p d) := by
    first
    | rfl
    | simp only [newSym, hf.empty, hf.generalized, hf.utc, hp.value3, hp.defined2, hp.copy, newModuleIdentifier, newDefinitive, newTy, newElement, newValue, newAssignment,
    newBody, newConstraint, newSpec, newElements, newUnion, newParts, newPart, newElementss, newBound, newNamed, newComponent, newComponents, newTag, newBit, newFrom, newSymbol, newGlobal,
    newNameds, newTys, newNumber, newItem, newTys_append, newNameds_append, newComponents_append, newParts_append, newUnion_append, newElementss_append, singleElementConstraint,
    List.map_append, List.map_cons, List.map_nil, Option.map_some, Option.map_none]
  have e0 : ∀ (p : Pointers R D) (d : Nat → SymType R D) (v : SymType R D), action 271 p d v = { v with elements := .inner } := fun _ _ _ => rfl
  rw [e0, e0]
  exact congrArg (fun z => { newSym f g h v with elements := z }) e

theorem newRule_272 : NewRule (R := R) (D := D) f g h 272 := by
  intro p p' _ d v
  have e0 : ∀ (p : Pointers R D) (d : Nat → SymType R D) (v : SymType R D), action 272 p d v = v := fun _ _ _ => rfl
  rw [e0, e0]

theorem newRule_273 : NewRule (R := R) (D := D) f g h 273 := by
  intro p p' _ d v
  have e0 : ∀ (p : Pointers R D) (d : Nat → SymType R D) (v : SymType R D), action 273 p d v = v := fun _ _ _ => rfl
  rw [e0, e0]

theorem newRule_274 : NewRule (R := R) (D := D) f g h 274 := by
  intro p p' _ d v
  have e0 : ∀ (p : Pointers R D) (d : Nat → SymType R D) (v : SymType R D), action 274 p d v = v := fun _ _ _ => rfl
  rw [e0, e0]

theorem newRule_275 : NewRule (R := R) (D := D) f g h 275 := by
  intro p p' _ d v
  have e0 : ∀ (p : Pointers R D) (d : Nat → SymType R D) (v : SymType R D), action 275 p d v = v := fun _ _ _ => rfl
  rw [e0, e0]

theorem newRule_276 : NewRule (R := R) (D := D) f g h 276 := by
  intro p p' _ d v
  have e0 : ∀ (p : Pointers R D) (d : Nat → SymType R D) (v : SymType R D), action 276 p d v = v := fun _ _ _ => rfl
  rw [e0, e0]

theorem newRule_277 : NewRule (R := R) (D := D) f g h 277 := by
  intro p p' _ d v
  have e0 : ∀ (p : Pointers R D) (d : Nat → SymType R D) (v : SymType R D), action 277 p d v = v := fun _ _ _ => rfl
  rw [e0, e0]

theorem newRule_278 : NewRule (R := R) (D := D) f g h 278 := by
  intro p p' _ d v
  have e0 : ∀ (p : Pointers R D) (d : Nat → SymType R D) (v : SymType R D), action 278 p d v = v := fun _ _ _ => rfl
  rw [e0, e0]

theorem newRule_279 : NewRule (R := R) (D := D) f g h 279 := by
  intro p p' _ d v
  have e0 : ∀ (p : Pointers R D) (d : Nat → SymType R D) (v : SymType R D), action 279 p d v = v := fun _ _ _ => rfl
  rw [e0, e0]

theorem newRule_280 : NewRule (R := R) (D := D) f g h 280 := by
  intro p p' _ d v
  have e0 : ∀ (p : Pointers R D) (d : Nat → SymType R D) (v : SymType R D), action 280 p d v = v := fun _ _ _ => rfl
  rw [e0, e0]

theorem newRule_281 : NewRule (R := R) (D := D) f g h 281 := by
  intro p p' _ d v
  have e0 : ∀ (p : Pointers R D) (d : Nat → SymType R D) (v : SymType R D), action 281 p d v = v := fun _ _ _ => rfl
  rw [e0, e0]

theorem newRule_282 : NewRule (R := R) (D := D) f g h 282 := by
  intro p p' _ d v
  have e0 : ∀ (p : Pointers R D) (d : Nat → SymType R D) (v : SymType R D), action 282 p d v = v := fun _ _ _ => rfl
  rw [e0, e0]

theorem newRule_283 : NewRule (R := R) (D := D) f g h 283 := by
  intro p p' _ d v
  have e0 : ∀ (p : Pointers R D) (d : Nat → SymType R D) (v : SymType R D), action 283 p d v = v := fun _ _ _ => rfl
  rw [e0, e0]

theorem newRule_284 : NewRule (R := R) (D := D) f g h 284 := by
  intro p p' _ d v
  have e0 : ∀ (p : Pointers R D) (d : Nat → SymType R D) (v : SymType R D), action 284 p d v = v := fun _ _ _ => rfl
  rw [e0, e0]

theorem newRule_285 : NewRule (R := R) (D := D) f g h 285 := by
  intro p p' _ d v
  have e0 : ∀ (p : Pointers R D) (d : Nat → SymType R D) (v : SymType R D), action 285 p d v = v := fun _ _ _ => rfl
  rw [e0, e0]

theorem newRule_286 : NewRule (R := R) (D := D) f g h 286 := by
  intro p p' _ d v
  have e0 : ∀ (p : Pointers R D) (d : Nat → SymType R D) (v : SymType R D), action 286 p d v = v := fun _ _ _ => rfl
  rw [e0, e0]

theorem newRule_287 : NewRule (R := R) (D := D) f g h 287 := by
  intro p p' _ d v
  have e0 : ∀ (p : Pointers R D) (d : Nat → SymType R D) (v : SymType R D), action 287 p d v = v := fun _ _ _ => rfl
  rw [e0, e0]

theorem newRule_288 : NewRule (R := R) (D := D) f g h 288 := by
  intro p p' _ d v
  have e0 : ∀ (p : Pointers R D) (d : Nat → SymType R D) (v : SymType R D), action 288 p d v = v := fun _ _ _ => rfl
  rw [e0, e0]

theorem newRule_289 : NewRule (R := R) (D := D) f g h 289 := by
  intro p p' _ d v
  have e0 : ∀ (p : Pointers R D) (d : Nat → SymType R D) (v : SymType R D), action 289 p d v = v := fun _ _ _ => rfl
  rw [e0, e0]

theorem newRule_290 : NewRule (R := R) (D := D) f g h 290 := by
  intro p p' _ d v
  have e0 : ∀ (p : Pointers R D) (d : Nat → SymType R D) (v : SymType R D), action 290 p d v = v := fun _ _ _ => rfl
  rw [e0, e0]

theorem newRule_291 : NewRule (R := R) (D := D) f g h 291 := by
  intro p p' _ d v
  have e0 : ∀ (p : Pointers R D) (d : Nat → SymType R D) (v : SymType R D), action 291 p d v = v := fun _ _ _ => rfl
  rw [e0, e0]

/-- An action does the same with the new names. -/
theorem action_new (hf : Rewording f) (n : Nat) (h1 : 1 ≤ n) (h2 : n ≤ 291) : NewRule (R := R) (D := D) f g h n :=
  match n, h1, h2 with
  | 1, _, _ => newRule_1
  | 2, _, _ => newRule_2 hf
  | 3, _, _ => newRule_3
  | 4, _, _ => newRule_4 hf
  | 5, _, _ => newRule_5
  | 6, _, _ => newRule_6
  | 7, _, _ => newRule_7 hf
  | 8, _, _ => newRule_8 hf
  | 9, _, _ => newRule_9 hf
  | 10, _, _ => newRule_10 hf
  | 11, _, _ => newRule_11 hf
  | 12, _, _ => newRule_12 hf
  | 13, _, _ => newRule_13 hf
  | 14, _, _ => newRule_14 hf
  | 15, _, _ => newRule_15 hf
  | 16, _, _ => newRule_16 hf
  | 17, _, _ => newRule_17 hf
  | 18, _, _ => newRule_18 hf
  | 19, _, _ => newRule_19 hf
  | 20, _, _ => newRule_20 hf
  | 21, _, _ => newRule_21 hf
  | 22, _, _ => newRule_22 hf
  | 23, _, _ => newRule_23 hf
  | 24, _, _ => newRule_24 hf
  | 25, _, _ => newRule_25
  | 26, _, _ => newRule_26
  | 27, _, _ => newRule_27
  | 28, _, _ => newRule_28
  | 29, _, _ => newRule_29
  | 30, _, _ => newRule_30 hf
  | 31, _, _ => newRule_31 hf
  | 32, _, _ => newRule_32 hf
  | 33, _, _ => newRule_33 hf
  | 34, _, _ => newRule_34 hf
  | 35, _, _ => newRule_35 hf
  | 36, _, _ => newRule_36 hf
  | 37, _, _ => newRule_37 hf
  | 38, _, _ => newRule_38 hf
  | 39, _, _ => newRule_39 hf
  | 40, _, _ => newRule_40 hf
  | 41, _, _ => newRule_41 hf
  | 42, _, _ => newRule_42 hf
  | 43, _, _ => newRule_43
  | 44, _, _ => newRule_44 hf
  | 45, _, _ => newRule_45 hf
  | 46, _, _ => newRule_46 hf
  | 47, _, _ => newRule_47 hf
  | 48, _, _ => newRule_48 hf
  | 49, _, _ => newRule_49
  | 50, _, _ => newRule_50
  | 51, _, _ => newRule_51 hf
  | 52, _, _ => newRule_52 hf
  | 53, _, _ => newRule_53 hf
  | 54, _, _ => newRule_54 hf
  | 55, _, _ => newRule_55 hf
  | 56, _, _ => newRule_56
  | 57, _, _ => newRule_57
  | 58, _, _ => newRule_58
  | 59, _, _ => newRule_59
  | 60, _, _ => newRule_60
  | 61, _, _ => newRule_61
  | 62, _, _ => newRule_62
  | 63, _, _ => newRule_63
  | 64, _, _ => newRule_64
  | 65, _, _ => newRule_65
  | 66, _, _ => newRule_66
  | 67, _, _ => newRule_67
  | 68, _, _ => newRule_68
  | 69, _, _ => newRule_69
  | 70, _, _ => newRule_70
  | 71, _, _ => newRule_71
  | 72, _, _ => newRule_72
  | 73, _, _ => newRule_73
  | 74, _, _ => newRule_74
  | 75, _, _ => newRule_75
  | 76, _, _ => newRule_76
  | 77, _, _ => newRule_77 hf
  | 78, _, _ => newRule_78
  | 79, _, _ => newRule_79
  | 80, _, _ => newRule_80
  | 81, _, _ => newRule_81 hf
  | 82, _, _ => newRule_82
  | 83, _, _ => newRule_83 hf
  | 84, _, _ => newRule_84 hf
  | 85, _, _ => newRule_85 hf
  | 86, _, _ => newRule_86 hf
  | 87, _, _ => newRule_87 hf
  | 88, _, _ => newRule_88 hf
  | 89, _, _ => newRule_89 hf
  | 90, _, _ => newRule_90 hf
  | 91, _, _ => newRule_91 hf
  | 92, _, _ => newRule_92 hf
  | 93, _, _ => newRule_93 hf
  | 94, _, _ => newRule_94 hf
  | 95, _, _ => newRule_95 hf
  | 96, _, _ => newRule_96 hf
  | 97, _, _ => newRule_97 hf
  | 98, _, _ => newRule_98 hf
  | 99, _, _ => newRule_99 hf
  | 100, _, _ => newRule_100
  | 101, _, _ => newRule_101
  | 102, _, _ => newRule_102 hf
  | 103, _, _ => newRule_103 hf
  | 104, _, _ => newRule_104 hf
  | 105, _, _ => newRule_105 hf
  | 106, _, _ => newRule_106 hf
  | 107, _, _ => newRule_107
  | 108, _, _ => newRule_108
  | 109, _, _ => newRule_109 hf
  | 110, _, _ => newRule_110 hf
  | 111, _, _ => newRule_111 hf
  | 112, _, _ => newRule_112 hf
  | 113, _, _ => newRule_113 hf
  | 114, _, _ => newRule_114 hf
  | 115, _, _ => newRule_115 hf
  | 116, _, _ => newRule_116 hf
  | 117, _, _ => newRule_117
  | 118, _, _ => newRule_118 hf
  | 119, _, _ => newRule_119 hf
  | 120, _, _ => newRule_120 hf
  | 121, _, _ => newRule_121 hf
  | 122, _, _ => newRule_122 hf
  | 123, _, _ => newRule_123 hf
  | 124, _, _ => newRule_124 hf
  | 125, _, _ => newRule_125 hf
  | 126, _, _ => newRule_126 hf
  | 127, _, _ => newRule_127 hf
  | 128, _, _ => newRule_128 hf
  | 129, _, _ => newRule_129 hf
  | 130, _, _ => newRule_130
  | 131, _, _ => newRule_131
  | 132, _, _ => newRule_132
  | 133, _, _ => newRule_133
  | 134, _, _ => newRule_134 hf
  | 135, _, _ => newRule_135 hf
  | 136, _, _ => newRule_136 hf
  | 137, _, _ => newRule_137
  | 138, _, _ => newRule_138
  | 139, _, _ => newRule_139 hf
  | 140, _, _ => newRule_140 hf
  | 141, _, _ => newRule_141 hf
  | 142, _, _ => newRule_142 hf
  | 143, _, _ => newRule_143 hf
  | 144, _, _ => newRule_144 hf
  | 145, _, _ => newRule_145
  | 146, _, _ => newRule_146
  | 147, _, _ => newRule_147
  | 148, _, _ => newRule_148 hf
  | 149, _, _ => newRule_149 hf
  | 150, _, _ => newRule_150 hf
  | 151, _, _ => newRule_151 hf
  | 152, _, _ => newRule_152 hf
  | 153, _, _ => newRule_153 hf
  | 154, _, _ => newRule_154 hf
  | 155, _, _ => newRule_155 hf
  | 156, _, _ => newRule_156 hf
  | 157, _, _ => newRule_157 hf
  | 158, _, _ => newRule_158 hf
  | 159, _, _ => newRule_159 hf
  | 160, _, _ => newRule_160 hf
  | 161, _, _ => newRule_161 hf
  | 162, _, _ => newRule_162 hf
  | 163, _, _ => newRule_163 hf
  | 164, _, _ => newRule_164 hf
  | 165, _, _ => newRule_165
  | 166, _, _ => newRule_166 hf
  | 167, _, _ => newRule_167 hf
  | 168, _, _ => newRule_168 hf
  | 169, _, _ => newRule_169 hf
  | 170, _, _ => newRule_170 hf
  | 171, _, _ => newRule_171
  | 172, _, _ => newRule_172 hf
  | 173, _, _ => newRule_173 hf
  | 174, _, _ => newRule_174 hf
  | 175, _, _ => newRule_175 hf
  | 176, _, _ => newRule_176 hf
  | 177, _, _ => newRule_177 hf
  | 178, _, _ => newRule_178 hf
  | 179, _, _ => newRule_179 hf
  | 180, _, _ => newRule_180 hf
  | 181, _, _ => newRule_181 hf
  | 182, _, _ => newRule_182 hf
  | 183, _, _ => newRule_183 hf
  | 184, _, _ => newRule_184 hf
  | 185, _, _ => newRule_185 hf
  | 186, _, _ => newRule_186 hf
  | 187, _, _ => newRule_187 hf
  | 188, _, _ => newRule_188 hf
  | 189, _, _ => newRule_189 hf
  | 190, _, _ => newRule_190 hf
  | 191, _, _ => newRule_191 hf
  | 192, _, _ => newRule_192
  | 193, _, _ => newRule_193
  | 194, _, _ => newRule_194 hf
  | 195, _, _ => newRule_195 hf
  | 196, _, _ => newRule_196 hf
  | 197, _, _ => newRule_197 hf
  | 198, _, _ => newRule_198
  | 199, _, _ => newRule_199
  | 200, _, _ => newRule_200
  | 201, _, _ => newRule_201 hf
  | 202, _, _ => newRule_202 hf
  | 203, _, _ => newRule_203 hf
  | 204, _, _ => newRule_204 hf
  | 205, _, _ => newRule_205 hf
  | 206, _, _ => newRule_206 hf
  | 207, _, _ => newRule_207 hf
  | 208, _, _ => newRule_208 hf
  | 209, _, _ => newRule_209 hf
  | 210, _, _ => newRule_210 hf
  | 211, _, _ => newRule_211 hf
  | 212, _, _ => newRule_212 hf
  | 213, _, _ => newRule_213 hf
  | 214, _, _ => newRule_214 hf
  | 215, _, _ => newRule_215 hf
  | 216, _, _ => newRule_216 hf
  | 217, _, _ => newRule_217 hf
  | 218, _, _ => newRule_218
  | 219, _, _ => newRule_219 hf
  | 220, _, _ => newRule_220 hf
  | 221, _, _ => newRule_221 hf
  | 222, _, _ => newRule_222 hf
  | 223, _, _ => newRule_223 hf
  | 224, _, _ => newRule_224 hf
  | 225, _, _ => newRule_225 hf
  | 226, _, _ => newRule_226 hf
  | 227, _, _ => newRule_227 hf
  | 228, _, _ => newRule_228 hf
  | 229, _, _ => newRule_229
  | 230, _, _ => newRule_230
  | 231, _, _ => newRule_231 hf
  | 232, _, _ => newRule_232 hf
  | 233, _, _ => newRule_233 hf
  | 234, _, _ => newRule_234
  | 235, _, _ => newRule_235 hf
  | 236, _, _ => newRule_236 hf
  | 237, _, _ => newRule_237 hf
  | 238, _, _ => newRule_238 hf
  | 239, _, _ => newRule_239
  | 240, _, _ => newRule_240 hf
  | 241, _, _ => newRule_241 hf
  | 242, _, _ => newRule_242
  | 243, _, _ => newRule_243 hf
  | 244, _, _ => newRule_244 hf
  | 245, _, _ => newRule_245
  | 246, _, _ => newRule_246 hf
  | 247, _, _ => newRule_247
  | 248, _, _ => newRule_248
  | 249, _, _ => newRule_249
  | 250, _, _ => newRule_250
  | 251, _, _ => newRule_251 hf
  | 252, _, _ => newRule_252 hf
  | 253, _, _ => newRule_253
  | 254, _, _ => newRule_254
  | 255, _, _ => newRule_255
  | 256, _, _ => newRule_256
  | 257, _, _ => newRule_257
  | 258, _, _ => newRule_258 hf
  | 259, _, _ => newRule_259 hf
  | 260, _, _ => newRule_260 hf
  | 261, _, _ => newRule_261 hf
  | 262, _, _ => newRule_262 hf
  | 263, _, _ => newRule_263 hf
  | 264, _, _ => newRule_264
  | 265, _, _ => newRule_265 hf
  | 266, _, _ => newRule_266
  | 267, _, _ => newRule_267 hf
  | 268, _, _ => newRule_268 hf
  | 269, _, _ => newRule_269 hf
  | 270, _, _ => newRule_270 hf
  | 271, _, _ => newRule_271 hf
  | 272, _, _ => newRule_272
  | 273, _, _ => newRule_273
  | 274, _, _ => newRule_274
  | 275, _, _ => newRule_275
  | 276, _, _ => newRule_276
  | 277, _, _ => newRule_277
  | 278, _, _ => newRule_278
  | 279, _, _ => newRule_279
  | 280, _, _ => newRule_280
  | 281, _, _ => newRule_281
  | 282, _, _ => newRule_282
  | 283, _, _ => newRule_283
  | 284, _, _ => newRule_284
  | 285, _, _ => newRule_285
  | 286, _, _ => newRule_286
  | 287, _, _ => newRule_287
  | 288, _, _ => newRule_288
  | 289, _, _ => newRule_289
  | 290, _, _ => newRule_290
  | 291, _, _ => newRule_291
  | n + 292, _, h => absurd h (by omega)

end

end Asn1go.LR
