import Verif.Model.Actions
import Verif.Spec.Grammar
import Verif.Proofs.LR.MapLemmas

/-! Generated by /verif/tools/gen_agree.py.  Each grammar symbol has one field of `yySymType` that carries its value
(the `%type` declarations of /repo/asn1.y:206-319).  The actions only read these fields of their right-hand side, so they
respect agreement on them. -/

namespace Asn1go.LR

open Asn1go Spec

set_option linter.unusedSimpArgs false
set_option linter.unusedVariables false

/-- The fields that carry values. -/
inductive Fld
  | none
  | alternativeTypeList
  | assignment
  | assignmentList
  | choiceType
  | cls
  | componentType
  | componentTypeList
  | componentTypeLists
  | constraint
  | constraintSpec
  | definedValue
  | definitiveIdentifier
  | definitiveObjIdComponent
  | definitiveObjIdComponentList
  | elementSetSpec
  | elements
  | enumeratedType
  | enumeration
  | enumerationItem
  | exclusions
  | extensionAdditionAlternative
  | extensionAdditionAlternativesList
  | extensionAdditions
  | extensionDefault
  | globalModuleReference
  | imports
  | intersectionElements
  | intersections
  | moduleBody
  | moduleIdentifier
  | name
  | namedBit
  | namedBitList
  | namedNumber
  | namedNumberList
  | namedType
  | number
  | objectIdElement
  | objectIdentifierValue
  | rangeEndpoint
  | real
  | subtypeConstraint
  | symbol
  | symbolList
  | symbolsFromModule
  | tag
  | tagDefault
  | type
  | typeReference
  | unions
  | value
  | valueReference
  deriving DecidableEq

/-- asn1.y:206-319: field of a nonterminal. -/
def ntField : List (Nat × Fld) := [
  (1, .real), (2, .number), (3, .name), (4, .typeReference), (5, .name),
  (6, .extensionDefault), (7, .tagDefault), (8, .moduleIdentifier), (9, .definitiveObjIdComponent), (10, .number),
  (11, .definitiveObjIdComponentList), (12, .definitiveObjIdComponent), (13, .definitiveIdentifier), (14, .name), (15, .definedValue),
  (16, .type), (17, .type), (18, .type), (19, .type), (20, .type),
  (21, .type), (22, .type), (23, .type), (24, .namedType), (25, .objectIdElement),
  (26, .objectIdElement), (27, .objectIdElement), (28, .objectIdentifierValue), (29, .objectIdentifierValue), (30, .value),
  (31, .value), (32, .value), (33, .type), (34, .value), (35, .value),
  (36, .value), (37, .value), (38, .number), (39, .number), (40, .assignment),
  (41, .assignment), (42, .assignment), (43, .assignmentList), (44, .moduleBody), (45, .valueReference),
  (46, .type), (47, .type), (48, .constraint), (49, .constraintSpec), (50, .subtypeConstraint),
  (51, .subtypeConstraint), (52, .subtypeConstraint), (53, .elementSetSpec), (54, .elementSetSpec), (55, .unions),
  (56, .unions), (57, .intersections), (58, .intersections), (59, .intersectionElements), (60, .exclusions),
  (61, .elements), (62, .elements), (63, .elements), (64, .elements), (65, .elements),
  (66, .elements), (67, .elements), (68, .elements), (69, .rangeEndpoint), (70, .rangeEndpoint),
  (71, .value), (72, .value), (73, .type), (74, .type), (75, .type),
  (76, .type), (77, .type), (78, .type), (79, .type), (80, .type),
  (81, .type), (82, .componentType), (83, .componentTypeList), (84, .componentTypeList), (85, .componentTypeLists),
  (86, .type), (87, .tag), (88, .value), (89, .cls), (90, .type),
  (91, .type), (92, .type), (93, .namedBitList), (94, .namedBit), (95, .imports),
  (96, .imports), (97, .imports), (98, .symbolsFromModule), (99, .symbolList), (100, .symbol),
  (101, .symbol), (102, .value), (103, .globalModuleReference), (104, .type), (105, .choiceType),
  (106, .alternativeTypeList), (107, .alternativeTypeList), (108, .extensionAdditionAlternative), (109, .extensionAdditionAlternativesList), (110, .extensionAdditionAlternativesList),
  (111, .extensionAdditions), (112, .extensionAdditions), (113, .extensionAdditions), (114, .namedNumber), (115, .namedNumberList),
  (116, .enumeratedType), (117, .enumeration), (118, .enumeration), (119, .enumeration), (120, .enumerationItem)]

/-- asn1.y:206-319: field of a symbol. -/
def fieldOf : Sym → Fld
  | .t c => if c = Tok.TYPEORMODULEREFERENCE ∨ c = Tok.VALUEIDENTIFIER then .name else if c = Tok.NUMBER then .number else .none
  | .n k => (ntField.lookup k).getD .none

variable {R R' D D' : Type}

/-- Two symbol values agree on a field, up to what is behind pointers. -/
def agree (f : R → R') (g : D → D') : Fld → SymType R D → SymType R' D' → Prop
  | .none, _, _ => True
  | .alternativeTypeList, a, b => NamedType.mapList f g a.alternativeTypeList = b.alternativeTypeList
  | .assignment, a, b => a.assignment.map f g = b.assignment
  | .assignmentList, a, b => a.assignmentList.map (Assignment.map f g) = b.assignmentList
  | .choiceType, a, b => (NamedType.mapList f g a.choiceType.1, Ty.mapList f g a.choiceType.2) = b.choiceType
  | .cls, a, b => a.cls = b.cls
  | .componentType, a, b => a.componentType.map f g = b.componentType
  | .componentTypeList, a, b => ComponentType.mapList f g a.componentTypeList = b.componentTypeList
  | .componentTypeLists, a, b => a.componentTypeLists.map f g = b.componentTypeLists
  | .constraint, a, b => a.constraint.map f g = b.constraint
  | .constraintSpec, a, b => a.constraintSpec.map f g = b.constraintSpec
  | .definedValue, a, b => a.definedValue = b.definedValue
  | .definitiveIdentifier, a, b => a.definitiveIdentifier = b.definitiveIdentifier
  | .definitiveObjIdComponent, a, b => a.definitiveObjIdComponent = b.definitiveObjIdComponent
  | .definitiveObjIdComponentList, a, b => a.definitiveObjIdComponentList = b.definitiveObjIdComponentList
  | .elementSetSpec, a, b => a.elementSetSpec.map f g = b.elementSetSpec
  | .elements, a, b => a.elements.map f g = b.elements
  | .enumeratedType, a, b => a.enumeratedType = b.enumeratedType
  | .enumeration, a, b => a.enumeration = b.enumeration
  | .enumerationItem, a, b => a.enumerationItem = b.enumerationItem
  | .exclusions, a, b => a.exclusions.map f g = b.exclusions
  | .extensionAdditionAlternative, a, b => a.extensionAdditionAlternative.map f g = b.extensionAdditionAlternative
  | .extensionAdditionAlternativesList, a, b => Ty.mapList f g a.extensionAdditionAlternativesList = b.extensionAdditionAlternativesList
  | .extensionAdditions, a, b => ComponentType.mapList f g a.extensionAdditions = b.extensionAdditions
  | .extensionDefault, a, b => a.extensionDefault = b.extensionDefault
  | .globalModuleReference, a, b => a.globalModuleReference.map f = b.globalModuleReference
  | .imports, a, b => a.imports.map (SymbolsFromModule.map f) = b.imports
  | .intersectionElements, a, b => a.intersectionElements.map f g = b.intersectionElements
  | .intersections, a, b => IntersectionElements.mapList f g a.intersections = b.intersections
  | .moduleBody, a, b => a.moduleBody.map f g = b.moduleBody
  | .moduleIdentifier, a, b => a.moduleIdentifier = b.moduleIdentifier
  | .name, a, b => a.name = b.name
  | .namedBit, a, b => a.namedBit.map f = b.namedBit
  | .namedBitList, a, b => a.namedBitList.map (NamedBit.map f) = b.namedBitList
  | .namedNumber, a, b => a.namedNumber = b.namedNumber
  | .namedNumberList, a, b => a.namedNumberList = b.namedNumberList
  | .namedType, a, b => a.namedType.map f g = b.namedType
  | .number, a, b => a.number = b.number
  | .objectIdElement, a, b => a.objectIdElement.map f = b.objectIdElement
  | .objectIdentifierValue, a, b => a.objectIdentifierValue.map (ObjectIdElement.map f) = b.objectIdentifierValue
  | .rangeEndpoint, a, b => a.rangeEndpoint.map f = b.rangeEndpoint
  | .real, a, b => a.real = b.real
  | .subtypeConstraint, a, b => Elements.mapList f g a.subtypeConstraint = b.subtypeConstraint
  | .symbol, a, b => a.symbol = b.symbol
  | .symbolList, a, b => a.symbolList = b.symbolList
  | .symbolsFromModule, a, b => a.symbolsFromModule.map f = b.symbolsFromModule
  | .tag, a, b => a.tag.map f = b.tag
  | .tagDefault, a, b => a.tagDefault = b.tagDefault
  | .type, a, b => a.type.map f g = b.type
  | .typeReference, a, b => a.typeReference = b.typeReference
  | .unions, a, b => IntersectionElements.mapListList f g a.unions = b.unions
  | .value, a, b => a.value.map f = b.value
  | .valueReference, a, b => a.valueReference = b.valueReference

/-- Pointers agree. -/
structure PtrAgree (f : R → R') (g : D → D') (p : Pointers R D) (p' : Pointers R' D') : Prop where
  value3 : g p.value3 = p'.value3
  defined2 : f p.defined2 = p'.defined2
  copy : ∀ d, f (p.copy d) = p'.copy d

/-- The action of rule `r` respects agreement. -/
def RuleAgree (f : R → R') (g : D → D') (r : Nat) : Prop :=
  ∀ lhs rhs, rules[r - 1]? = some (lhs, rhs) → ∀ (p : Pointers R D) (p' : Pointers R' D') (d : Nat → SymType R D) (d' : Nat → SymType R' D')
    (v : SymType R D) (v' : SymType R' D'), (r = 152 → g p.value3 = p'.value3) → (r = 188 → f p.defined2 = p'.defined2) →
    (∀ x, f (p.copy x) = p'.copy x) →
    (∀ i X, rhs[i]? = some X → agree f g (fieldOf X) (d (i + 1)) (d' (i + 1))) → (rhs ≠ [] → v = d 1 ∧ v' = d' 1) →
    agree f g (fieldOf (.n lhs)) (action r p d v) (action r p' d' v')

variable (f : R → R') (g : D → D')

theorem ruleAgree_1 : RuleAgree f g 1 := by
  intro lhs rhs h p p' d d' v v' hp3 hp2 hpc hk hv
  cases h; exact True.intro

theorem ruleAgree_2 : RuleAgree f g 2 := by
  intro lhs rhs h p p' d d' v v' hp3 hp2 hpc hk hv
  cases h
  have h1 : (d 1).name = (d' 1).name := hk 0 _ rfl
  show (action 2 p d v).typeReference = (action 2 p' d' v').typeReference
  have e1 : (action 2 p d v).typeReference = ((d 1).name) := rfl
  have e2 : (action 2 p' d' v').typeReference = ((d' 1).name) := rfl
  rw [e1, e2] <;> simp only [← h1, Ty.map, NamedType.map, ComponentType.map, Constraint.map, ConstraintSpec.map, IntersectionElements.map, Elements.map, Value.map, Tag.map, NamedBit.map, RangeEndpoint.map, GlobalModuleReference.map, SymbolsFromModule.map, Assignment.map, ModuleBody.map, ComponentTypeLists.map, ObjectIdElement.map, Ty.mapList_eq, NamedType.mapList_eq, ComponentType.mapList_eq, Elements.mapList_eq, IntersectionElements.mapList_eq, IntersectionElements.mapListList_eq, singleElementConstraint_map, List.map_append, List.map_cons, List.map_nil, Option.map_some, Option.map_none]

theorem ruleAgree_3 : RuleAgree f g 3 := by
  intro lhs rhs h p p' d d' v v' hp3 hp2 hpc hk hv
  cases h
  obtain ⟨rfl, rfl⟩ := hv (by simp)
  have h1 : (d 1).name = (d' 1).name := hk 0 _ rfl
  exact h1

theorem ruleAgree_4 : RuleAgree f g 4 := by
  intro lhs rhs h p p' d d' v v' hp3 hp2 hpc hk hv
  cases h
  have h1 : (d 1).name = (d' 1).name := hk 0 _ rfl
  show (action 4 p d v).valueReference = (action 4 p' d' v').valueReference
  have e1 : (action 4 p d v).valueReference = ((d 1).name) := rfl
  have e2 : (action 4 p' d' v').valueReference = ((d' 1).name) := rfl
  rw [e1, e2] <;> simp only [← h1, Ty.map, NamedType.map, ComponentType.map, Constraint.map, ConstraintSpec.map, IntersectionElements.map, Elements.map, Value.map, Tag.map, NamedBit.map, RangeEndpoint.map, GlobalModuleReference.map, SymbolsFromModule.map, Assignment.map, ModuleBody.map, ComponentTypeLists.map, ObjectIdElement.map, Ty.mapList_eq, NamedType.mapList_eq, ComponentType.mapList_eq, Elements.mapList_eq, IntersectionElements.mapList_eq, IntersectionElements.mapListList_eq, singleElementConstraint_map, List.map_append, List.map_cons, List.map_nil, Option.map_some, Option.map_none]

theorem ruleAgree_5 : RuleAgree f g 5 := by
  intro lhs rhs h p p' d d' v v' hp3 hp2 hpc hk hv
  cases h
  obtain ⟨rfl, rfl⟩ := hv (by simp)
  have h1 : (d 1).number = (d' 1).number := hk 0 _ rfl
  exact h1

theorem ruleAgree_6 : RuleAgree f g 6 := by
  intro lhs rhs h p p' d d' v v' hp3 hp2 hpc hk hv
  cases h
  obtain ⟨rfl, rfl⟩ := hv (by simp)
  have h1 : (d 1).name = (d' 1).name := hk 0 _ rfl
  exact h1

theorem ruleAgree_7 : RuleAgree f g 7 := by
  intro lhs rhs h p p' d d' v v' hp3 hp2 hpc hk hv
  cases h
  have h1 : (d 1).name = (d' 1).name := hk 0 _ rfl
  have h2 : (d 2).definitiveIdentifier = (d' 2).definitiveIdentifier := hk 1 _ rfl
  show (action 7 p d v).moduleIdentifier = (action 7 p' d' v').moduleIdentifier
  have e1 : (action 7 p d v).moduleIdentifier = ({ reference := (d 1).name, definitiveIdentifier := (d 2).definitiveIdentifier }) := rfl
  have e2 : (action 7 p' d' v').moduleIdentifier = ({ reference := (d' 1).name, definitiveIdentifier := (d' 2).definitiveIdentifier }) := rfl
  rw [e1, e2] <;> simp only [← h1, ← h2, Ty.map, NamedType.map, ComponentType.map, Constraint.map, ConstraintSpec.map, IntersectionElements.map, Elements.map, Value.map, Tag.map, NamedBit.map, RangeEndpoint.map, GlobalModuleReference.map, SymbolsFromModule.map, Assignment.map, ModuleBody.map, ComponentTypeLists.map, ObjectIdElement.map, Ty.mapList_eq, NamedType.mapList_eq, ComponentType.mapList_eq, Elements.mapList_eq, IntersectionElements.mapList_eq, IntersectionElements.mapListList_eq, singleElementConstraint_map, List.map_append, List.map_cons, List.map_nil, Option.map_some, Option.map_none]

theorem ruleAgree_8 : RuleAgree f g 8 := by
  intro lhs rhs h p p' d d' v v' hp3 hp2 hpc hk hv
  cases h
  have h2 : (d 2).definitiveObjIdComponentList = (d' 2).definitiveObjIdComponentList := hk 1 _ rfl
  show (action 8 p d v).definitiveIdentifier = (action 8 p' d' v').definitiveIdentifier
  have e1 : (action 8 p d v).definitiveIdentifier = ((d 2).definitiveObjIdComponentList) := rfl
  have e2 : (action 8 p' d' v').definitiveIdentifier = ((d' 2).definitiveObjIdComponentList) := rfl
  rw [e1, e2] <;> simp only [← h2, Ty.map, NamedType.map, ComponentType.map, Constraint.map, ConstraintSpec.map, IntersectionElements.map, Elements.map, Value.map, Tag.map, NamedBit.map, RangeEndpoint.map, GlobalModuleReference.map, SymbolsFromModule.map, Assignment.map, ModuleBody.map, ComponentTypeLists.map, ObjectIdElement.map, Ty.mapList_eq, NamedType.mapList_eq, ComponentType.mapList_eq, Elements.mapList_eq, IntersectionElements.mapList_eq, IntersectionElements.mapListList_eq, singleElementConstraint_map, List.map_append, List.map_cons, List.map_nil, Option.map_some, Option.map_none]

theorem ruleAgree_9 : RuleAgree f g 9 := by
  intro lhs rhs h p p' d d' v v' hp3 hp2 hpc hk hv
  cases h
  show (action 9 p d v).definitiveIdentifier = (action 9 p' d' v').definitiveIdentifier
  have e1 : (action 9 p d v).definitiveIdentifier = ([]) := rfl
  have e2 : (action 9 p' d' v').definitiveIdentifier = ([]) := rfl
  rw [e1, e2] <;> simp only [Ty.map, NamedType.map, ComponentType.map, Constraint.map, ConstraintSpec.map, IntersectionElements.map, Elements.map, Value.map, Tag.map, NamedBit.map, RangeEndpoint.map, GlobalModuleReference.map, SymbolsFromModule.map, Assignment.map, ModuleBody.map, ComponentTypeLists.map, ObjectIdElement.map, Ty.mapList_eq, NamedType.mapList_eq, ComponentType.mapList_eq, Elements.mapList_eq, IntersectionElements.mapList_eq, IntersectionElements.mapListList_eq, singleElementConstraint_map, List.map_append, List.map_cons, List.map_nil, Option.map_some, Option.map_none]

theorem ruleAgree_10 : RuleAgree f g 10 := by
  intro lhs rhs h p p' d d' v v' hp3 hp2 hpc hk hv
  cases h
  have h1 : (d 1).definitiveObjIdComponent = (d' 1).definitiveObjIdComponent := hk 0 _ rfl
  show (action 10 p d v).definitiveObjIdComponentList = (action 10 p' d' v').definitiveObjIdComponentList
  have e1 : (action 10 p d v).definitiveObjIdComponentList = ([(d 1).definitiveObjIdComponent]) := rfl
  have e2 : (action 10 p' d' v').definitiveObjIdComponentList = ([(d' 1).definitiveObjIdComponent]) := rfl
  rw [e1, e2] <;> simp only [← h1, Ty.map, NamedType.map, ComponentType.map, Constraint.map, ConstraintSpec.map, IntersectionElements.map, Elements.map, Value.map, Tag.map, NamedBit.map, RangeEndpoint.map, GlobalModuleReference.map, SymbolsFromModule.map, Assignment.map, ModuleBody.map, ComponentTypeLists.map, ObjectIdElement.map, Ty.mapList_eq, NamedType.mapList_eq, ComponentType.mapList_eq, Elements.mapList_eq, IntersectionElements.mapList_eq, IntersectionElements.mapListList_eq, singleElementConstraint_map, List.map_append, List.map_cons, List.map_nil, Option.map_some, Option.map_none]

theorem ruleAgree_11 : RuleAgree f g 11 := by
  intro lhs rhs h p p' d d' v v' hp3 hp2 hpc hk hv
  cases h
  have h1 : (d 1).definitiveObjIdComponent = (d' 1).definitiveObjIdComponent := hk 0 _ rfl
  have h2 : (d 2).definitiveObjIdComponentList = (d' 2).definitiveObjIdComponentList := hk 1 _ rfl
  show (action 11 p d v).definitiveObjIdComponentList = (action 11 p' d' v').definitiveObjIdComponentList
  have e1 : (action 11 p d v).definitiveObjIdComponentList = ((d 1).definitiveObjIdComponent :: (d 2).definitiveObjIdComponentList) := rfl
  have e2 : (action 11 p' d' v').definitiveObjIdComponentList = ((d' 1).definitiveObjIdComponent :: (d' 2).definitiveObjIdComponentList) := rfl
  rw [e1, e2] <;> simp only [← h1, ← h2, Ty.map, NamedType.map, ComponentType.map, Constraint.map, ConstraintSpec.map, IntersectionElements.map, Elements.map, Value.map, Tag.map, NamedBit.map, RangeEndpoint.map, GlobalModuleReference.map, SymbolsFromModule.map, Assignment.map, ModuleBody.map, ComponentTypeLists.map, ObjectIdElement.map, Ty.mapList_eq, NamedType.mapList_eq, ComponentType.mapList_eq, Elements.mapList_eq, IntersectionElements.mapList_eq, IntersectionElements.mapListList_eq, singleElementConstraint_map, List.map_append, List.map_cons, List.map_nil, Option.map_some, Option.map_none]

theorem ruleAgree_12 : RuleAgree f g 12 := by
  intro lhs rhs h p p' d d' v v' hp3 hp2 hpc hk hv
  cases h
  have h1 : (d 1).name = (d' 1).name := hk 0 _ rfl
  show (action 12 p d v).definitiveObjIdComponent = (action 12 p' d' v').definitiveObjIdComponent
  have e1 : (action 12 p d v).definitiveObjIdComponent = ({ name := (d 1).name }) := rfl
  have e2 : (action 12 p' d' v').definitiveObjIdComponent = ({ name := (d' 1).name }) := rfl
  rw [e1, e2] <;> simp only [← h1, Ty.map, NamedType.map, ComponentType.map, Constraint.map, ConstraintSpec.map, IntersectionElements.map, Elements.map, Value.map, Tag.map, NamedBit.map, RangeEndpoint.map, GlobalModuleReference.map, SymbolsFromModule.map, Assignment.map, ModuleBody.map, ComponentTypeLists.map, ObjectIdElement.map, Ty.mapList_eq, NamedType.mapList_eq, ComponentType.mapList_eq, Elements.mapList_eq, IntersectionElements.mapList_eq, IntersectionElements.mapListList_eq, singleElementConstraint_map, List.map_append, List.map_cons, List.map_nil, Option.map_some, Option.map_none]

theorem ruleAgree_13 : RuleAgree f g 13 := by
  intro lhs rhs h p p' d d' v v' hp3 hp2 hpc hk hv
  cases h
  have h1 : (d 1).number = (d' 1).number := hk 0 _ rfl
  show (action 13 p d v).definitiveObjIdComponent = (action 13 p' d' v').definitiveObjIdComponent
  have e1 : (action 13 p d v).definitiveObjIdComponent = ({ id := (d 1).number }) := rfl
  have e2 : (action 13 p' d' v').definitiveObjIdComponent = ({ id := (d' 1).number }) := rfl
  rw [e1, e2] <;> simp only [← h1, Ty.map, NamedType.map, ComponentType.map, Constraint.map, ConstraintSpec.map, IntersectionElements.map, Elements.map, Value.map, Tag.map, NamedBit.map, RangeEndpoint.map, GlobalModuleReference.map, SymbolsFromModule.map, Assignment.map, ModuleBody.map, ComponentTypeLists.map, ObjectIdElement.map, Ty.mapList_eq, NamedType.mapList_eq, ComponentType.mapList_eq, Elements.mapList_eq, IntersectionElements.mapList_eq, IntersectionElements.mapListList_eq, singleElementConstraint_map, List.map_append, List.map_cons, List.map_nil, Option.map_some, Option.map_none]

theorem ruleAgree_14 : RuleAgree f g 14 := by
  intro lhs rhs h p p' d d' v v' hp3 hp2 hpc hk hv
  cases h
  have h1 : (d 1).definitiveObjIdComponent = (d' 1).definitiveObjIdComponent := hk 0 _ rfl
  show (action 14 p d v).definitiveObjIdComponent = (action 14 p' d' v').definitiveObjIdComponent
  have e1 : (action 14 p d v).definitiveObjIdComponent = ((d 1).definitiveObjIdComponent) := rfl
  have e2 : (action 14 p' d' v').definitiveObjIdComponent = ((d' 1).definitiveObjIdComponent) := rfl
  rw [e1, e2] <;> simp only [← h1, Ty.map, NamedType.map, ComponentType.map, Constraint.map, ConstraintSpec.map, IntersectionElements.map, Elements.map, Value.map, Tag.map, NamedBit.map, RangeEndpoint.map, GlobalModuleReference.map, SymbolsFromModule.map, Assignment.map, ModuleBody.map, ComponentTypeLists.map, ObjectIdElement.map, Ty.mapList_eq, NamedType.mapList_eq, ComponentType.mapList_eq, Elements.mapList_eq, IntersectionElements.mapList_eq, IntersectionElements.mapListList_eq, singleElementConstraint_map, List.map_append, List.map_cons, List.map_nil, Option.map_some, Option.map_none]

theorem ruleAgree_15 : RuleAgree f g 15 := by
  intro lhs rhs h p p' d d' v v' hp3 hp2 hpc hk hv
  cases h
  have h1 : (d 1).number = (d' 1).number := hk 0 _ rfl
  show (action 15 p d v).number = (action 15 p' d' v').number
  have e1 : (action 15 p d v).number = ((d 1).number) := rfl
  have e2 : (action 15 p' d' v').number = ((d' 1).number) := rfl
  rw [e1, e2] <;> simp only [← h1, Ty.map, NamedType.map, ComponentType.map, Constraint.map, ConstraintSpec.map, IntersectionElements.map, Elements.map, Value.map, Tag.map, NamedBit.map, RangeEndpoint.map, GlobalModuleReference.map, SymbolsFromModule.map, Assignment.map, ModuleBody.map, ComponentTypeLists.map, ObjectIdElement.map, Ty.mapList_eq, NamedType.mapList_eq, ComponentType.mapList_eq, Elements.mapList_eq, IntersectionElements.mapList_eq, IntersectionElements.mapListList_eq, singleElementConstraint_map, List.map_append, List.map_cons, List.map_nil, Option.map_some, Option.map_none]

theorem ruleAgree_16 : RuleAgree f g 16 := by
  intro lhs rhs h p p' d d' v v' hp3 hp2 hpc hk hv
  cases h
  have h1 : (d 1).name = (d' 1).name := hk 0 _ rfl
  have h3 : (d 3).number = (d' 3).number := hk 2 _ rfl
  show (action 16 p d v).definitiveObjIdComponent = (action 16 p' d' v').definitiveObjIdComponent
  have e1 : (action 16 p d v).definitiveObjIdComponent = ({ name := (d 1).name, id := (d 3).number }) := rfl
  have e2 : (action 16 p' d' v').definitiveObjIdComponent = ({ name := (d' 1).name, id := (d' 3).number }) := rfl
  rw [e1, e2] <;> simp only [← h1, ← h3, Ty.map, NamedType.map, ComponentType.map, Constraint.map, ConstraintSpec.map, IntersectionElements.map, Elements.map, Value.map, Tag.map, NamedBit.map, RangeEndpoint.map, GlobalModuleReference.map, SymbolsFromModule.map, Assignment.map, ModuleBody.map, ComponentTypeLists.map, ObjectIdElement.map, Ty.mapList_eq, NamedType.mapList_eq, ComponentType.mapList_eq, Elements.mapList_eq, IntersectionElements.mapList_eq, IntersectionElements.mapListList_eq, singleElementConstraint_map, List.map_append, List.map_cons, List.map_nil, Option.map_some, Option.map_none]

theorem ruleAgree_17 : RuleAgree f g 17 := by
  intro lhs rhs h p p' d d' v v' hp3 hp2 hpc hk hv
  cases h
  show (action 17 p d v).tagDefault = (action 17 p' d' v').tagDefault
  have e1 : (action 17 p d v).tagDefault = (TAGS_EXPLICIT) := rfl
  have e2 : (action 17 p' d' v').tagDefault = (TAGS_EXPLICIT) := rfl
  rw [e1, e2] <;> simp only [Ty.map, NamedType.map, ComponentType.map, Constraint.map, ConstraintSpec.map, IntersectionElements.map, Elements.map, Value.map, Tag.map, NamedBit.map, RangeEndpoint.map, GlobalModuleReference.map, SymbolsFromModule.map, Assignment.map, ModuleBody.map, ComponentTypeLists.map, ObjectIdElement.map, Ty.mapList_eq, NamedType.mapList_eq, ComponentType.mapList_eq, Elements.mapList_eq, IntersectionElements.mapList_eq, IntersectionElements.mapListList_eq, singleElementConstraint_map, List.map_append, List.map_cons, List.map_nil, Option.map_some, Option.map_none]

theorem ruleAgree_18 : RuleAgree f g 18 := by
  intro lhs rhs h p p' d d' v v' hp3 hp2 hpc hk hv
  cases h
  show (action 18 p d v).tagDefault = (action 18 p' d' v').tagDefault
  have e1 : (action 18 p d v).tagDefault = (TAGS_IMPLICIT) := rfl
  have e2 : (action 18 p' d' v').tagDefault = (TAGS_IMPLICIT) := rfl
  rw [e1, e2] <;> simp only [Ty.map, NamedType.map, ComponentType.map, Constraint.map, ConstraintSpec.map, IntersectionElements.map, Elements.map, Value.map, Tag.map, NamedBit.map, RangeEndpoint.map, GlobalModuleReference.map, SymbolsFromModule.map, Assignment.map, ModuleBody.map, ComponentTypeLists.map, ObjectIdElement.map, Ty.mapList_eq, NamedType.mapList_eq, ComponentType.mapList_eq, Elements.mapList_eq, IntersectionElements.mapList_eq, IntersectionElements.mapListList_eq, singleElementConstraint_map, List.map_append, List.map_cons, List.map_nil, Option.map_some, Option.map_none]

theorem ruleAgree_19 : RuleAgree f g 19 := by
  intro lhs rhs h p p' d d' v v' hp3 hp2 hpc hk hv
  cases h
  show (action 19 p d v).tagDefault = (action 19 p' d' v').tagDefault
  have e1 : (action 19 p d v).tagDefault = (TAGS_AUTOMATIC) := rfl
  have e2 : (action 19 p' d' v').tagDefault = (TAGS_AUTOMATIC) := rfl
  rw [e1, e2] <;> simp only [Ty.map, NamedType.map, ComponentType.map, Constraint.map, ConstraintSpec.map, IntersectionElements.map, Elements.map, Value.map, Tag.map, NamedBit.map, RangeEndpoint.map, GlobalModuleReference.map, SymbolsFromModule.map, Assignment.map, ModuleBody.map, ComponentTypeLists.map, ObjectIdElement.map, Ty.mapList_eq, NamedType.mapList_eq, ComponentType.mapList_eq, Elements.mapList_eq, IntersectionElements.mapList_eq, IntersectionElements.mapListList_eq, singleElementConstraint_map, List.map_append, List.map_cons, List.map_nil, Option.map_some, Option.map_none]

theorem ruleAgree_20 : RuleAgree f g 20 := by
  intro lhs rhs h p p' d d' v v' hp3 hp2 hpc hk hv
  cases h
  show (action 20 p d v).tagDefault = (action 20 p' d' v').tagDefault
  have e1 : (action 20 p d v).tagDefault = (TAGS_EXPLICIT) := rfl
  have e2 : (action 20 p' d' v').tagDefault = (TAGS_EXPLICIT) := rfl
  rw [e1, e2] <;> simp only [Ty.map, NamedType.map, ComponentType.map, Constraint.map, ConstraintSpec.map, IntersectionElements.map, Elements.map, Value.map, Tag.map, NamedBit.map, RangeEndpoint.map, GlobalModuleReference.map, SymbolsFromModule.map, Assignment.map, ModuleBody.map, ComponentTypeLists.map, ObjectIdElement.map, Ty.mapList_eq, NamedType.mapList_eq, ComponentType.mapList_eq, Elements.mapList_eq, IntersectionElements.mapList_eq, IntersectionElements.mapListList_eq, singleElementConstraint_map, List.map_append, List.map_cons, List.map_nil, Option.map_some, Option.map_none]

theorem ruleAgree_21 : RuleAgree f g 21 := by
  intro lhs rhs h p p' d d' v v' hp3 hp2 hpc hk hv
  cases h
  show (action 21 p d v).extensionDefault = (action 21 p' d' v').extensionDefault
  have e1 : (action 21 p d v).extensionDefault = (true) := rfl
  have e2 : (action 21 p' d' v').extensionDefault = (true) := rfl
  rw [e1, e2] <;> simp only [Ty.map, NamedType.map, ComponentType.map, Constraint.map, ConstraintSpec.map, IntersectionElements.map, Elements.map, Value.map, Tag.map, NamedBit.map, RangeEndpoint.map, GlobalModuleReference.map, SymbolsFromModule.map, Assignment.map, ModuleBody.map, ComponentTypeLists.map, ObjectIdElement.map, Ty.mapList_eq, NamedType.mapList_eq, ComponentType.mapList_eq, Elements.mapList_eq, IntersectionElements.mapList_eq, IntersectionElements.mapListList_eq, singleElementConstraint_map, List.map_append, List.map_cons, List.map_nil, Option.map_some, Option.map_none]

theorem ruleAgree_22 : RuleAgree f g 22 := by
  intro lhs rhs h p p' d d' v v' hp3 hp2 hpc hk hv
  cases h
  show (action 22 p d v).extensionDefault = (action 22 p' d' v').extensionDefault
  have e1 : (action 22 p d v).extensionDefault = (false) := rfl
  have e2 : (action 22 p' d' v').extensionDefault = (false) := rfl
  rw [e1, e2] <;> simp only [Ty.map, NamedType.map, ComponentType.map, Constraint.map, ConstraintSpec.map, IntersectionElements.map, Elements.map, Value.map, Tag.map, NamedBit.map, RangeEndpoint.map, GlobalModuleReference.map, SymbolsFromModule.map, Assignment.map, ModuleBody.map, ComponentTypeLists.map, ObjectIdElement.map, Ty.mapList_eq, NamedType.mapList_eq, ComponentType.mapList_eq, Elements.mapList_eq, IntersectionElements.mapList_eq, IntersectionElements.mapListList_eq, singleElementConstraint_map, List.map_append, List.map_cons, List.map_nil, Option.map_some, Option.map_none]

theorem ruleAgree_23 : RuleAgree f g 23 := by
  intro lhs rhs h p p' d d' v v' hp3 hp2 hpc hk hv
  cases h
  have h2 : (d 2).imports.map (SymbolsFromModule.map f) = (d' 2).imports := hk 1 _ rfl
  have h3 : (d 3).assignmentList.map (Assignment.map f g) = (d' 3).assignmentList := hk 2 _ rfl
  show (action 23 p d v).moduleBody.map f g = (action 23 p' d' v').moduleBody
  have e1 : (action 23 p d v).moduleBody = ({ imports := (d 2).imports, assignmentList := (d 3).assignmentList }) := rfl
  have e2 : (action 23 p' d' v').moduleBody = ({ imports := (d' 2).imports, assignmentList := (d' 3).assignmentList }) := rfl
  rw [e1, e2] <;> simp only [← h2, ← h3, Ty.map, NamedType.map, ComponentType.map, Constraint.map, ConstraintSpec.map, IntersectionElements.map, Elements.map, Value.map, Tag.map, NamedBit.map, RangeEndpoint.map, GlobalModuleReference.map, SymbolsFromModule.map, Assignment.map, ModuleBody.map, ComponentTypeLists.map, ObjectIdElement.map, Ty.mapList_eq, NamedType.mapList_eq, ComponentType.mapList_eq, Elements.mapList_eq, IntersectionElements.mapList_eq, IntersectionElements.mapListList_eq, singleElementConstraint_map, List.map_append, List.map_cons, List.map_nil, Option.map_some, Option.map_none]

theorem ruleAgree_24 : RuleAgree f g 24 := by
  intro lhs rhs h p p' d d' v v' hp3 hp2 hpc hk hv
  cases h
  show (action 24 p d v).moduleBody.map f g = (action 24 p' d' v').moduleBody
  have e1 : (action 24 p d v).moduleBody = ({}) := rfl
  have e2 : (action 24 p' d' v').moduleBody = ({}) := rfl
  rw [e1, e2] <;> simp only [Ty.map, NamedType.map, ComponentType.map, Constraint.map, ConstraintSpec.map, IntersectionElements.map, Elements.map, Value.map, Tag.map, NamedBit.map, RangeEndpoint.map, GlobalModuleReference.map, SymbolsFromModule.map, Assignment.map, ModuleBody.map, ComponentTypeLists.map, ObjectIdElement.map, Ty.mapList_eq, NamedType.mapList_eq, ComponentType.mapList_eq, Elements.mapList_eq, IntersectionElements.mapList_eq, IntersectionElements.mapListList_eq, singleElementConstraint_map, List.map_append, List.map_cons, List.map_nil, Option.map_some, Option.map_none]

theorem ruleAgree_25 : RuleAgree f g 25 := by
  intro lhs rhs h p p' d d' v v' hp3 hp2 hpc hk hv
  cases h; exact True.intro

theorem ruleAgree_26 : RuleAgree f g 26 := by
  intro lhs rhs h p p' d d' v v' hp3 hp2 hpc hk hv
  cases h; exact True.intro

theorem ruleAgree_27 : RuleAgree f g 27 := by
  intro lhs rhs h p p' d d' v v' hp3 hp2 hpc hk hv
  cases h; exact True.intro

theorem ruleAgree_28 : RuleAgree f g 28 := by
  intro lhs rhs h p p' d d' v v' hp3 hp2 hpc hk hv
  cases h; exact True.intro

theorem ruleAgree_29 : RuleAgree f g 29 := by
  intro lhs rhs h p p' d d' v v' hp3 hp2 hpc hk hv
  cases h; exact True.intro

theorem ruleAgree_30 : RuleAgree f g 30 := by
  intro lhs rhs h p p' d d' v v' hp3 hp2 hpc hk hv
  cases h
  have h2 : (d 2).imports.map (SymbolsFromModule.map f) = (d' 2).imports := hk 1 _ rfl
  show (action 30 p d v).imports.map (SymbolsFromModule.map f) = (action 30 p' d' v').imports
  have e1 : (action 30 p d v).imports = ((d 2).imports) := rfl
  have e2 : (action 30 p' d' v').imports = ((d' 2).imports) := rfl
  rw [e1, e2] <;> simp only [← h2, Ty.map, NamedType.map, ComponentType.map, Constraint.map, ConstraintSpec.map, IntersectionElements.map, Elements.map, Value.map, Tag.map, NamedBit.map, RangeEndpoint.map, GlobalModuleReference.map, SymbolsFromModule.map, Assignment.map, ModuleBody.map, ComponentTypeLists.map, ObjectIdElement.map, Ty.mapList_eq, NamedType.mapList_eq, ComponentType.mapList_eq, Elements.mapList_eq, IntersectionElements.mapList_eq, IntersectionElements.mapListList_eq, singleElementConstraint_map, List.map_append, List.map_cons, List.map_nil, Option.map_some, Option.map_none]

theorem ruleAgree_31 : RuleAgree f g 31 := by
  intro lhs rhs h p p' d d' v v' hp3 hp2 hpc hk hv
  cases h
  show (action 31 p d v).imports.map (SymbolsFromModule.map f) = (action 31 p' d' v').imports
  have e1 : (action 31 p d v).imports = ([]) := rfl
  have e2 : (action 31 p' d' v').imports = ([]) := rfl
  rw [e1, e2] <;> simp only [Ty.map, NamedType.map, ComponentType.map, Constraint.map, ConstraintSpec.map, IntersectionElements.map, Elements.map, Value.map, Tag.map, NamedBit.map, RangeEndpoint.map, GlobalModuleReference.map, SymbolsFromModule.map, Assignment.map, ModuleBody.map, ComponentTypeLists.map, ObjectIdElement.map, Ty.mapList_eq, NamedType.mapList_eq, ComponentType.mapList_eq, Elements.mapList_eq, IntersectionElements.mapList_eq, IntersectionElements.mapListList_eq, singleElementConstraint_map, List.map_append, List.map_cons, List.map_nil, Option.map_some, Option.map_none]

theorem ruleAgree_32 : RuleAgree f g 32 := by
  intro lhs rhs h p p' d d' v v' hp3 hp2 hpc hk hv
  cases h
  have h1 : (d 1).imports.map (SymbolsFromModule.map f) = (d' 1).imports := hk 0 _ rfl
  show (action 32 p d v).imports.map (SymbolsFromModule.map f) = (action 32 p' d' v').imports
  have e1 : (action 32 p d v).imports = ((d 1).imports) := rfl
  have e2 : (action 32 p' d' v').imports = ((d' 1).imports) := rfl
  rw [e1, e2] <;> simp only [← h1, Ty.map, NamedType.map, ComponentType.map, Constraint.map, ConstraintSpec.map, IntersectionElements.map, Elements.map, Value.map, Tag.map, NamedBit.map, RangeEndpoint.map, GlobalModuleReference.map, SymbolsFromModule.map, Assignment.map, ModuleBody.map, ComponentTypeLists.map, ObjectIdElement.map, Ty.mapList_eq, NamedType.mapList_eq, ComponentType.mapList_eq, Elements.mapList_eq, IntersectionElements.mapList_eq, IntersectionElements.mapListList_eq, singleElementConstraint_map, List.map_append, List.map_cons, List.map_nil, Option.map_some, Option.map_none]

theorem ruleAgree_33 : RuleAgree f g 33 := by
  intro lhs rhs h p p' d d' v v' hp3 hp2 hpc hk hv
  cases h
  show (action 33 p d v).imports.map (SymbolsFromModule.map f) = (action 33 p' d' v').imports
  have e1 : (action 33 p d v).imports = ([]) := rfl
  have e2 : (action 33 p' d' v').imports = ([]) := rfl
  rw [e1, e2] <;> simp only [Ty.map, NamedType.map, ComponentType.map, Constraint.map, ConstraintSpec.map, IntersectionElements.map, Elements.map, Value.map, Tag.map, NamedBit.map, RangeEndpoint.map, GlobalModuleReference.map, SymbolsFromModule.map, Assignment.map, ModuleBody.map, ComponentTypeLists.map, ObjectIdElement.map, Ty.mapList_eq, NamedType.mapList_eq, ComponentType.mapList_eq, Elements.mapList_eq, IntersectionElements.mapList_eq, IntersectionElements.mapListList_eq, singleElementConstraint_map, List.map_append, List.map_cons, List.map_nil, Option.map_some, Option.map_none]

theorem ruleAgree_34 : RuleAgree f g 34 := by
  intro lhs rhs h p p' d d' v v' hp3 hp2 hpc hk hv
  cases h
  have h1 : (d 1).symbolsFromModule.map f = (d' 1).symbolsFromModule := hk 0 _ rfl
  show (action 34 p d v).imports.map (SymbolsFromModule.map f) = (action 34 p' d' v').imports
  have e1 : (action 34 p d v).imports = ([(d 1).symbolsFromModule]) := rfl
  have e2 : (action 34 p' d' v').imports = ([(d' 1).symbolsFromModule]) := rfl
  rw [e1, e2] <;> simp only [← h1, Ty.map, NamedType.map, ComponentType.map, Constraint.map, ConstraintSpec.map, IntersectionElements.map, Elements.map, Value.map, Tag.map, NamedBit.map, RangeEndpoint.map, GlobalModuleReference.map, SymbolsFromModule.map, Assignment.map, ModuleBody.map, ComponentTypeLists.map, ObjectIdElement.map, Ty.mapList_eq, NamedType.mapList_eq, ComponentType.mapList_eq, Elements.mapList_eq, IntersectionElements.mapList_eq, IntersectionElements.mapListList_eq, singleElementConstraint_map, List.map_append, List.map_cons, List.map_nil, Option.map_some, Option.map_none]

theorem ruleAgree_35 : RuleAgree f g 35 := by
  intro lhs rhs h p p' d d' v v' hp3 hp2 hpc hk hv
  cases h
  have h1 : (d 1).imports.map (SymbolsFromModule.map f) = (d' 1).imports := hk 0 _ rfl
  have h2 : (d 2).symbolsFromModule.map f = (d' 2).symbolsFromModule := hk 1 _ rfl
  show (action 35 p d v).imports.map (SymbolsFromModule.map f) = (action 35 p' d' v').imports
  have e1 : (action 35 p d v).imports = ((d 1).imports ++ [(d 2).symbolsFromModule]) := rfl
  have e2 : (action 35 p' d' v').imports = ((d' 1).imports ++ [(d' 2).symbolsFromModule]) := rfl
  rw [e1, e2] <;> simp only [← h1, ← h2, Ty.map, NamedType.map, ComponentType.map, Constraint.map, ConstraintSpec.map, IntersectionElements.map, Elements.map, Value.map, Tag.map, NamedBit.map, RangeEndpoint.map, GlobalModuleReference.map, SymbolsFromModule.map, Assignment.map, ModuleBody.map, ComponentTypeLists.map, ObjectIdElement.map, Ty.mapList_eq, NamedType.mapList_eq, ComponentType.mapList_eq, Elements.mapList_eq, IntersectionElements.mapList_eq, IntersectionElements.mapListList_eq, singleElementConstraint_map, List.map_append, List.map_cons, List.map_nil, Option.map_some, Option.map_none]

theorem ruleAgree_36 : RuleAgree f g 36 := by
  intro lhs rhs h p p' d d' v v' hp3 hp2 hpc hk hv
  cases h
  have h1 : (d 1).symbolList = (d' 1).symbolList := hk 0 _ rfl
  have h3 : (d 3).globalModuleReference.map f = (d' 3).globalModuleReference := hk 2 _ rfl
  show (action 36 p d v).symbolsFromModule.map f = (action 36 p' d' v').symbolsFromModule
  have e1 : (action 36 p d v).symbolsFromModule = (⟨(d 1).symbolList, (d 3).globalModuleReference⟩) := rfl
  have e2 : (action 36 p' d' v').symbolsFromModule = (⟨(d' 1).symbolList, (d' 3).globalModuleReference⟩) := rfl
  rw [e1, e2] <;> simp only [← h1, ← h3, Ty.map, NamedType.map, ComponentType.map, Constraint.map, ConstraintSpec.map, IntersectionElements.map, Elements.map, Value.map, Tag.map, NamedBit.map, RangeEndpoint.map, GlobalModuleReference.map, SymbolsFromModule.map, Assignment.map, ModuleBody.map, ComponentTypeLists.map, ObjectIdElement.map, Ty.mapList_eq, NamedType.mapList_eq, ComponentType.mapList_eq, Elements.mapList_eq, IntersectionElements.mapList_eq, IntersectionElements.mapListList_eq, singleElementConstraint_map, List.map_append, List.map_cons, List.map_nil, Option.map_some, Option.map_none]

theorem ruleAgree_37 : RuleAgree f g 37 := by
  intro lhs rhs h p p' d d' v v' hp3 hp2 hpc hk hv
  cases h
  have h1 : (d 1).name = (d' 1).name := hk 0 _ rfl
  have h2 : (d 2).value.map f = (d' 2).value := hk 1 _ rfl
  show (action 37 p d v).globalModuleReference.map f = (action 37 p' d' v').globalModuleReference
  have e1 : (action 37 p d v).globalModuleReference = (⟨(d 1).name, (d 2).value⟩) := rfl
  have e2 : (action 37 p' d' v').globalModuleReference = (⟨(d' 1).name, (d' 2).value⟩) := rfl
  rw [e1, e2] <;> simp only [← h1, ← h2, Ty.map, NamedType.map, ComponentType.map, Constraint.map, ConstraintSpec.map, IntersectionElements.map, Elements.map, Value.map, Tag.map, NamedBit.map, RangeEndpoint.map, GlobalModuleReference.map, SymbolsFromModule.map, Assignment.map, ModuleBody.map, ComponentTypeLists.map, ObjectIdElement.map, Ty.mapList_eq, NamedType.mapList_eq, ComponentType.mapList_eq, Elements.mapList_eq, IntersectionElements.mapList_eq, IntersectionElements.mapListList_eq, singleElementConstraint_map, List.map_append, List.map_cons, List.map_nil, Option.map_some, Option.map_none]

theorem ruleAgree_38 : RuleAgree f g 38 := by
  intro lhs rhs h p p' d d' v v' hp3 hp2 hpc hk hv
  cases h
  have h1 : (d 1).objectIdentifierValue.map (ObjectIdElement.map f) = (d' 1).objectIdentifierValue := hk 0 _ rfl
  show (action 38 p d v).value.map f = (action 38 p' d' v').value
  have e1 : (action 38 p d v).value = (.objectIdentifier (d 1).objectIdentifierValue) := rfl
  have e2 : (action 38 p' d' v').value = (.objectIdentifier (d' 1).objectIdentifierValue) := rfl
  rw [e1, e2] <;> simp only [← h1, Ty.map, NamedType.map, ComponentType.map, Constraint.map, ConstraintSpec.map, IntersectionElements.map, Elements.map, Value.map, Tag.map, NamedBit.map, RangeEndpoint.map, GlobalModuleReference.map, SymbolsFromModule.map, Assignment.map, ModuleBody.map, ComponentTypeLists.map, ObjectIdElement.map, Ty.mapList_eq, NamedType.mapList_eq, ComponentType.mapList_eq, Elements.mapList_eq, IntersectionElements.mapList_eq, IntersectionElements.mapListList_eq, singleElementConstraint_map, List.map_append, List.map_cons, List.map_nil, Option.map_some, Option.map_none]

theorem ruleAgree_39 : RuleAgree f g 39 := by
  intro lhs rhs h p p' d d' v v' hp3 hp2 hpc hk hv
  cases h
  have h1 : (d 1).definedValue = (d' 1).definedValue := hk 0 _ rfl
  show (action 39 p d v).value.map f = (action 39 p' d' v').value
  have e1 : (action 39 p d v).value = (.defined (d 1).definedValue) := rfl
  have e2 : (action 39 p' d' v').value = (.defined (d' 1).definedValue) := rfl
  rw [e1, e2] <;> simp only [← h1, Ty.map, NamedType.map, ComponentType.map, Constraint.map, ConstraintSpec.map, IntersectionElements.map, Elements.map, Value.map, Tag.map, NamedBit.map, RangeEndpoint.map, GlobalModuleReference.map, SymbolsFromModule.map, Assignment.map, ModuleBody.map, ComponentTypeLists.map, ObjectIdElement.map, Ty.mapList_eq, NamedType.mapList_eq, ComponentType.mapList_eq, Elements.mapList_eq, IntersectionElements.mapList_eq, IntersectionElements.mapListList_eq, singleElementConstraint_map, List.map_append, List.map_cons, List.map_nil, Option.map_some, Option.map_none]

theorem ruleAgree_40 : RuleAgree f g 40 := by
  intro lhs rhs h p p' d d' v v' hp3 hp2 hpc hk hv
  cases h
  show (action 40 p d v).value.map f = (action 40 p' d' v').value
  have e1 : (action 40 p d v).value = (.nil) := rfl
  have e2 : (action 40 p' d' v').value = (.nil) := rfl
  rw [e1, e2] <;> simp only [Ty.map, NamedType.map, ComponentType.map, Constraint.map, ConstraintSpec.map, IntersectionElements.map, Elements.map, Value.map, Tag.map, NamedBit.map, RangeEndpoint.map, GlobalModuleReference.map, SymbolsFromModule.map, Assignment.map, ModuleBody.map, ComponentTypeLists.map, ObjectIdElement.map, Ty.mapList_eq, NamedType.mapList_eq, ComponentType.mapList_eq, Elements.mapList_eq, IntersectionElements.mapList_eq, IntersectionElements.mapListList_eq, singleElementConstraint_map, List.map_append, List.map_cons, List.map_nil, Option.map_some, Option.map_none]

theorem ruleAgree_41 : RuleAgree f g 41 := by
  intro lhs rhs h p p' d d' v v' hp3 hp2 hpc hk hv
  cases h
  have h1 : (d 1).symbol = (d' 1).symbol := hk 0 _ rfl
  show (action 41 p d v).symbolList = (action 41 p' d' v').symbolList
  have e1 : (action 41 p d v).symbolList = ([(d 1).symbol]) := rfl
  have e2 : (action 41 p' d' v').symbolList = ([(d' 1).symbol]) := rfl
  rw [e1, e2] <;> simp only [← h1, Ty.map, NamedType.map, ComponentType.map, Constraint.map, ConstraintSpec.map, IntersectionElements.map, Elements.map, Value.map, Tag.map, NamedBit.map, RangeEndpoint.map, GlobalModuleReference.map, SymbolsFromModule.map, Assignment.map, ModuleBody.map, ComponentTypeLists.map, ObjectIdElement.map, Ty.mapList_eq, NamedType.mapList_eq, ComponentType.mapList_eq, Elements.mapList_eq, IntersectionElements.mapList_eq, IntersectionElements.mapListList_eq, singleElementConstraint_map, List.map_append, List.map_cons, List.map_nil, Option.map_some, Option.map_none]

theorem ruleAgree_42 : RuleAgree f g 42 := by
  intro lhs rhs h p p' d d' v v' hp3 hp2 hpc hk hv
  cases h
  have h1 : (d 1).symbolList = (d' 1).symbolList := hk 0 _ rfl
  have h3 : (d 3).symbol = (d' 3).symbol := hk 2 _ rfl
  show (action 42 p d v).symbolList = (action 42 p' d' v').symbolList
  have e1 : (action 42 p d v).symbolList = ((d 1).symbolList ++ [(d 3).symbol]) := rfl
  have e2 : (action 42 p' d' v').symbolList = ((d' 1).symbolList ++ [(d' 3).symbol]) := rfl
  rw [e1, e2] <;> simp only [← h1, ← h3, Ty.map, NamedType.map, ComponentType.map, Constraint.map, ConstraintSpec.map, IntersectionElements.map, Elements.map, Value.map, Tag.map, NamedBit.map, RangeEndpoint.map, GlobalModuleReference.map, SymbolsFromModule.map, Assignment.map, ModuleBody.map, ComponentTypeLists.map, ObjectIdElement.map, Ty.mapList_eq, NamedType.mapList_eq, ComponentType.mapList_eq, Elements.mapList_eq, IntersectionElements.mapList_eq, IntersectionElements.mapListList_eq, singleElementConstraint_map, List.map_append, List.map_cons, List.map_nil, Option.map_some, Option.map_none]

theorem ruleAgree_43 : RuleAgree f g 43 := by
  intro lhs rhs h p p' d d' v v' hp3 hp2 hpc hk hv
  cases h
  obtain ⟨rfl, rfl⟩ := hv (by simp)
  have h1 : (d 1).symbol = (d' 1).symbol := hk 0 _ rfl
  exact h1

theorem ruleAgree_44 : RuleAgree f g 44 := by
  intro lhs rhs h p p' d d' v v' hp3 hp2 hpc hk hv
  cases h
  have h1 : (d 1).typeReference = (d' 1).typeReference := hk 0 _ rfl
  show (action 44 p d v).symbol = (action 44 p' d' v').symbol
  have e1 : (action 44 p d v).symbol = (.typeReference (d 1).typeReference) := rfl
  have e2 : (action 44 p' d' v').symbol = (.typeReference (d' 1).typeReference) := rfl
  rw [e1, e2] <;> simp only [← h1, Ty.map, NamedType.map, ComponentType.map, Constraint.map, ConstraintSpec.map, IntersectionElements.map, Elements.map, Value.map, Tag.map, NamedBit.map, RangeEndpoint.map, GlobalModuleReference.map, SymbolsFromModule.map, Assignment.map, ModuleBody.map, ComponentTypeLists.map, ObjectIdElement.map, Ty.mapList_eq, NamedType.mapList_eq, ComponentType.mapList_eq, Elements.mapList_eq, IntersectionElements.mapList_eq, IntersectionElements.mapListList_eq, singleElementConstraint_map, List.map_append, List.map_cons, List.map_nil, Option.map_some, Option.map_none]

theorem ruleAgree_45 : RuleAgree f g 45 := by
  intro lhs rhs h p p' d d' v v' hp3 hp2 hpc hk hv
  cases h
  have h1 : (d 1).name = (d' 1).name := hk 0 _ rfl
  show (action 45 p d v).symbol = (action 45 p' d' v').symbol
  have e1 : (action 45 p d v).symbol = (.moduleReference (d 1).name) := rfl
  have e2 : (action 45 p' d' v').symbol = (.moduleReference (d' 1).name) := rfl
  rw [e1, e2] <;> simp only [← h1, Ty.map, NamedType.map, ComponentType.map, Constraint.map, ConstraintSpec.map, IntersectionElements.map, Elements.map, Value.map, Tag.map, NamedBit.map, RangeEndpoint.map, GlobalModuleReference.map, SymbolsFromModule.map, Assignment.map, ModuleBody.map, ComponentTypeLists.map, ObjectIdElement.map, Ty.mapList_eq, NamedType.mapList_eq, ComponentType.mapList_eq, Elements.mapList_eq, IntersectionElements.mapList_eq, IntersectionElements.mapListList_eq, singleElementConstraint_map, List.map_append, List.map_cons, List.map_nil, Option.map_some, Option.map_none]

theorem ruleAgree_46 : RuleAgree f g 46 := by
  intro lhs rhs h p p' d d' v v' hp3 hp2 hpc hk hv
  cases h
  have h1 : (d 1).valueReference = (d' 1).valueReference := hk 0 _ rfl
  show (action 46 p d v).symbol = (action 46 p' d' v').symbol
  have e1 : (action 46 p d v).symbol = (.valueReference (d 1).valueReference) := rfl
  have e2 : (action 46 p' d' v').symbol = (.valueReference (d' 1).valueReference) := rfl
  rw [e1, e2] <;> simp only [← h1, Ty.map, NamedType.map, ComponentType.map, Constraint.map, ConstraintSpec.map, IntersectionElements.map, Elements.map, Value.map, Tag.map, NamedBit.map, RangeEndpoint.map, GlobalModuleReference.map, SymbolsFromModule.map, Assignment.map, ModuleBody.map, ComponentTypeLists.map, ObjectIdElement.map, Ty.mapList_eq, NamedType.mapList_eq, ComponentType.mapList_eq, Elements.mapList_eq, IntersectionElements.mapList_eq, IntersectionElements.mapListList_eq, singleElementConstraint_map, List.map_append, List.map_cons, List.map_nil, Option.map_some, Option.map_none]

theorem ruleAgree_47 : RuleAgree f g 47 := by
  intro lhs rhs h p p' d d' v v' hp3 hp2 hpc hk hv
  cases h
  have h1 : (d 1).assignment.map f g = (d' 1).assignment := hk 0 _ rfl
  show (action 47 p d v).assignmentList.map (Assignment.map f g) = (action 47 p' d' v').assignmentList
  have e1 : (action 47 p d v).assignmentList = ([(d 1).assignment]) := rfl
  have e2 : (action 47 p' d' v').assignmentList = ([(d' 1).assignment]) := rfl
  rw [e1, e2] <;> simp only [← h1, Ty.map, NamedType.map, ComponentType.map, Constraint.map, ConstraintSpec.map, IntersectionElements.map, Elements.map, Value.map, Tag.map, NamedBit.map, RangeEndpoint.map, GlobalModuleReference.map, SymbolsFromModule.map, Assignment.map, ModuleBody.map, ComponentTypeLists.map, ObjectIdElement.map, Ty.mapList_eq, NamedType.mapList_eq, ComponentType.mapList_eq, Elements.mapList_eq, IntersectionElements.mapList_eq, IntersectionElements.mapListList_eq, singleElementConstraint_map, List.map_append, List.map_cons, List.map_nil, Option.map_some, Option.map_none]

theorem ruleAgree_48 : RuleAgree f g 48 := by
  intro lhs rhs h p p' d d' v v' hp3 hp2 hpc hk hv
  cases h
  have h1 : (d 1).assignmentList.map (Assignment.map f g) = (d' 1).assignmentList := hk 0 _ rfl
  have h2 : (d 2).assignment.map f g = (d' 2).assignment := hk 1 _ rfl
  show (action 48 p d v).assignmentList.map (Assignment.map f g) = (action 48 p' d' v').assignmentList
  have e1 : (action 48 p d v).assignmentList = ((d 1).assignmentList ++ [(d 2).assignment]) := rfl
  have e2 : (action 48 p' d' v').assignmentList = ((d' 1).assignmentList ++ [(d' 2).assignment]) := rfl
  rw [e1, e2] <;> simp only [← h1, ← h2, Ty.map, NamedType.map, ComponentType.map, Constraint.map, ConstraintSpec.map, IntersectionElements.map, Elements.map, Value.map, Tag.map, NamedBit.map, RangeEndpoint.map, GlobalModuleReference.map, SymbolsFromModule.map, Assignment.map, ModuleBody.map, ComponentTypeLists.map, ObjectIdElement.map, Ty.mapList_eq, NamedType.mapList_eq, ComponentType.mapList_eq, Elements.mapList_eq, IntersectionElements.mapList_eq, IntersectionElements.mapListList_eq, singleElementConstraint_map, List.map_append, List.map_cons, List.map_nil, Option.map_some, Option.map_none]

theorem ruleAgree_49 : RuleAgree f g 49 := by
  intro lhs rhs h p p' d d' v v' hp3 hp2 hpc hk hv
  cases h
  obtain ⟨rfl, rfl⟩ := hv (by simp)
  have h1 : (d 1).assignment.map f g = (d' 1).assignment := hk 0 _ rfl
  exact h1

theorem ruleAgree_50 : RuleAgree f g 50 := by
  intro lhs rhs h p p' d d' v v' hp3 hp2 hpc hk hv
  cases h
  obtain ⟨rfl, rfl⟩ := hv (by simp)
  have h1 : (d 1).assignment.map f g = (d' 1).assignment := hk 0 _ rfl
  exact h1

theorem ruleAgree_51 : RuleAgree f g 51 := by
  intro lhs rhs h p p' d d' v v' hp3 hp2 hpc hk hv
  cases h
  have h1 : (d 1).typeReference = (d' 1).typeReference := hk 0 _ rfl
  show (action 51 p d v).type.map f g = (action 51 p' d' v').type
  have e1 : (action 51 p d v).type = (.ref (d 1).typeReference) := rfl
  have e2 : (action 51 p' d' v').type = (.ref (d' 1).typeReference) := rfl
  rw [e1, e2] <;> simp only [← h1, Ty.map, NamedType.map, ComponentType.map, Constraint.map, ConstraintSpec.map, IntersectionElements.map, Elements.map, Value.map, Tag.map, NamedBit.map, RangeEndpoint.map, GlobalModuleReference.map, SymbolsFromModule.map, Assignment.map, ModuleBody.map, ComponentTypeLists.map, ObjectIdElement.map, Ty.mapList_eq, NamedType.mapList_eq, ComponentType.mapList_eq, Elements.mapList_eq, IntersectionElements.mapList_eq, IntersectionElements.mapListList_eq, singleElementConstraint_map, List.map_append, List.map_cons, List.map_nil, Option.map_some, Option.map_none]

theorem ruleAgree_52 : RuleAgree f g 52 := by
  intro lhs rhs h p p' d d' v v' hp3 hp2 hpc hk hv
  cases h
  have h1 : (d 1).name = (d' 1).name := hk 0 _ rfl
  have h3 : (d 3).valueReference = (d' 3).valueReference := hk 2 _ rfl
  show (action 52 p d v).definedValue = (action 52 p' d' v').definedValue
  have e1 : (action 52 p d v).definedValue = (⟨(d 1).name, (d 3).valueReference⟩) := rfl
  have e2 : (action 52 p' d' v').definedValue = (⟨(d' 1).name, (d' 3).valueReference⟩) := rfl
  rw [e1, e2] <;> simp only [← h1, ← h3, Ty.map, NamedType.map, ComponentType.map, Constraint.map, ConstraintSpec.map, IntersectionElements.map, Elements.map, Value.map, Tag.map, NamedBit.map, RangeEndpoint.map, GlobalModuleReference.map, SymbolsFromModule.map, Assignment.map, ModuleBody.map, ComponentTypeLists.map, ObjectIdElement.map, Ty.mapList_eq, NamedType.mapList_eq, ComponentType.mapList_eq, Elements.mapList_eq, IntersectionElements.mapList_eq, IntersectionElements.mapListList_eq, singleElementConstraint_map, List.map_append, List.map_cons, List.map_nil, Option.map_some, Option.map_none]

theorem ruleAgree_53 : RuleAgree f g 53 := by
  intro lhs rhs h p p' d d' v v' hp3 hp2 hpc hk hv
  cases h
  have h1 : (d 1).valueReference = (d' 1).valueReference := hk 0 _ rfl
  show (action 53 p d v).definedValue = (action 53 p' d' v').definedValue
  have e1 : (action 53 p d v).definedValue = ({ valueName := (d 1).valueReference }) := rfl
  have e2 : (action 53 p' d' v').definedValue = ({ valueName := (d' 1).valueReference }) := rfl
  rw [e1, e2] <;> simp only [← h1, Ty.map, NamedType.map, ComponentType.map, Constraint.map, ConstraintSpec.map, IntersectionElements.map, Elements.map, Value.map, Tag.map, NamedBit.map, RangeEndpoint.map, GlobalModuleReference.map, SymbolsFromModule.map, Assignment.map, ModuleBody.map, ComponentTypeLists.map, ObjectIdElement.map, Ty.mapList_eq, NamedType.mapList_eq, ComponentType.mapList_eq, Elements.mapList_eq, IntersectionElements.mapList_eq, IntersectionElements.mapListList_eq, singleElementConstraint_map, List.map_append, List.map_cons, List.map_nil, Option.map_some, Option.map_none]

theorem ruleAgree_54 : RuleAgree f g 54 := by
  intro lhs rhs h p p' d d' v v' hp3 hp2 hpc hk hv
  cases h
  have h1 : (d 1).typeReference = (d' 1).typeReference := hk 0 _ rfl
  have h3 : (d 3).type.map f g = (d' 3).type := hk 2 _ rfl
  show (action 54 p d v).assignment.map f g = (action 54 p' d' v').assignment
  have e1 : (action 54 p d v).assignment = (.type (d 1).typeReference (d 3).type) := rfl
  have e2 : (action 54 p' d' v').assignment = (.type (d' 1).typeReference (d' 3).type) := rfl
  rw [e1, e2] <;> simp only [← h1, ← h3, Ty.map, NamedType.map, ComponentType.map, Constraint.map, ConstraintSpec.map, IntersectionElements.map, Elements.map, Value.map, Tag.map, NamedBit.map, RangeEndpoint.map, GlobalModuleReference.map, SymbolsFromModule.map, Assignment.map, ModuleBody.map, ComponentTypeLists.map, ObjectIdElement.map, Ty.mapList_eq, NamedType.mapList_eq, ComponentType.mapList_eq, Elements.mapList_eq, IntersectionElements.mapList_eq, IntersectionElements.mapListList_eq, singleElementConstraint_map, List.map_append, List.map_cons, List.map_nil, Option.map_some, Option.map_none]

theorem ruleAgree_55 : RuleAgree f g 55 := by
  intro lhs rhs h p p' d d' v v' hp3 hp2 hpc hk hv
  cases h
  have h1 : (d 1).valueReference = (d' 1).valueReference := hk 0 _ rfl
  have h2 : (d 2).type.map f g = (d' 2).type := hk 1 _ rfl
  have h4 : (d 4).value.map f = (d' 4).value := hk 3 _ rfl
  show (action 55 p d v).assignment.map f g = (action 55 p' d' v').assignment
  have e1 : (action 55 p d v).assignment = (.value (d 1).valueReference (d 2).type (d 4).value) := rfl
  have e2 : (action 55 p' d' v').assignment = (.value (d' 1).valueReference (d' 2).type (d' 4).value) := rfl
  rw [e1, e2] <;> simp only [← h1, ← h2, ← h4, Ty.map, NamedType.map, ComponentType.map, Constraint.map, ConstraintSpec.map, IntersectionElements.map, Elements.map, Value.map, Tag.map, NamedBit.map, RangeEndpoint.map, GlobalModuleReference.map, SymbolsFromModule.map, Assignment.map, ModuleBody.map, ComponentTypeLists.map, ObjectIdElement.map, Ty.mapList_eq, NamedType.mapList_eq, ComponentType.mapList_eq, Elements.mapList_eq, IntersectionElements.mapList_eq, IntersectionElements.mapListList_eq, singleElementConstraint_map, List.map_append, List.map_cons, List.map_nil, Option.map_some, Option.map_none]

theorem ruleAgree_56 : RuleAgree f g 56 := by
  intro lhs rhs h p p' d d' v v' hp3 hp2 hpc hk hv
  cases h
  obtain ⟨rfl, rfl⟩ := hv (by simp)
  have h1 : (d 1).type.map f g = (d' 1).type := hk 0 _ rfl
  exact h1

theorem ruleAgree_57 : RuleAgree f g 57 := by
  intro lhs rhs h p p' d d' v v' hp3 hp2 hpc hk hv
  cases h
  obtain ⟨rfl, rfl⟩ := hv (by simp)
  have h1 : (d 1).type.map f g = (d' 1).type := hk 0 _ rfl
  exact h1

theorem ruleAgree_58 : RuleAgree f g 58 := by
  intro lhs rhs h p p' d d' v v' hp3 hp2 hpc hk hv
  cases h
  obtain ⟨rfl, rfl⟩ := hv (by simp)
  have h1 : (d 1).type.map f g = (d' 1).type := hk 0 _ rfl
  exact h1

theorem ruleAgree_59 : RuleAgree f g 59 := by
  intro lhs rhs h p p' d d' v v' hp3 hp2 hpc hk hv
  cases h
  obtain ⟨rfl, rfl⟩ := hv (by simp)
  have h1 : (d 1).type.map f g = (d' 1).type := hk 0 _ rfl
  exact h1

theorem ruleAgree_60 : RuleAgree f g 60 := by
  intro lhs rhs h p p' d d' v v' hp3 hp2 hpc hk hv
  cases h
  obtain ⟨rfl, rfl⟩ := hv (by simp)
  have h1 : (d 1).type.map f g = (d' 1).type := hk 0 _ rfl
  exact h1

theorem ruleAgree_61 : RuleAgree f g 61 := by
  intro lhs rhs h p p' d d' v v' hp3 hp2 hpc hk hv
  cases h
  obtain ⟨rfl, rfl⟩ := hv (by simp)
  have h1 : (d 1).type.map f g = (d' 1).type := hk 0 _ rfl
  exact h1

theorem ruleAgree_62 : RuleAgree f g 62 := by
  intro lhs rhs h p p' d d' v v' hp3 hp2 hpc hk hv
  cases h
  obtain ⟨rfl, rfl⟩ := hv (by simp)
  have h1 : (d 1).type.map f g = (d' 1).type := hk 0 _ rfl
  exact h1

theorem ruleAgree_63 : RuleAgree f g 63 := by
  intro lhs rhs h p p' d d' v v' hp3 hp2 hpc hk hv
  cases h
  obtain ⟨rfl, rfl⟩ := hv (by simp)
  have h1 : (d 1).type.map f g = (d' 1).type := hk 0 _ rfl
  exact h1

theorem ruleAgree_64 : RuleAgree f g 64 := by
  intro lhs rhs h p p' d d' v v' hp3 hp2 hpc hk hv
  cases h
  obtain ⟨rfl, rfl⟩ := hv (by simp)
  have h1 : (d 1).type.map f g = (d' 1).type := hk 0 _ rfl
  exact h1

theorem ruleAgree_65 : RuleAgree f g 65 := by
  intro lhs rhs h p p' d d' v v' hp3 hp2 hpc hk hv
  cases h
  obtain ⟨rfl, rfl⟩ := hv (by simp)
  have h1 : (d 1).type.map f g = (d' 1).type := hk 0 _ rfl
  exact h1

theorem ruleAgree_66 : RuleAgree f g 66 := by
  intro lhs rhs h p p' d d' v v' hp3 hp2 hpc hk hv
  cases h
  obtain ⟨rfl, rfl⟩ := hv (by simp)
  have h1 : (d 1).type.map f g = (d' 1).type := hk 0 _ rfl
  exact h1

theorem ruleAgree_67 : RuleAgree f g 67 := by
  intro lhs rhs h p p' d d' v v' hp3 hp2 hpc hk hv
  cases h
  obtain ⟨rfl, rfl⟩ := hv (by simp)
  have h1 : (d 1).type.map f g = (d' 1).type := hk 0 _ rfl
  exact h1

theorem ruleAgree_68 : RuleAgree f g 68 := by
  intro lhs rhs h p p' d d' v v' hp3 hp2 hpc hk hv
  cases h
  obtain ⟨rfl, rfl⟩ := hv (by simp)
  have h1 : (d 1).type.map f g = (d' 1).type := hk 0 _ rfl
  exact h1

theorem ruleAgree_69 : RuleAgree f g 69 := by
  intro lhs rhs h p p' d d' v v' hp3 hp2 hpc hk hv
  cases h
  obtain ⟨rfl, rfl⟩ := hv (by simp)
  have h1 : (d 1).type.map f g = (d' 1).type := hk 0 _ rfl
  exact h1

theorem ruleAgree_70 : RuleAgree f g 70 := by
  intro lhs rhs h p p' d d' v v' hp3 hp2 hpc hk hv
  cases h
  obtain ⟨rfl, rfl⟩ := hv (by simp)
  have h1 : (d 1).type.map f g = (d' 1).type := hk 0 _ rfl
  exact h1

theorem ruleAgree_71 : RuleAgree f g 71 := by
  intro lhs rhs h p p' d d' v v' hp3 hp2 hpc hk hv
  cases h
  obtain ⟨rfl, rfl⟩ := hv (by simp)
  have h1 : (d 1).type.map f g = (d' 1).type := hk 0 _ rfl
  exact h1

theorem ruleAgree_72 : RuleAgree f g 72 := by
  intro lhs rhs h p p' d d' v v' hp3 hp2 hpc hk hv
  cases h
  obtain ⟨rfl, rfl⟩ := hv (by simp)
  have h1 : (d 1).type.map f g = (d' 1).type := hk 0 _ rfl
  exact h1

theorem ruleAgree_73 : RuleAgree f g 73 := by
  intro lhs rhs h p p' d d' v v' hp3 hp2 hpc hk hv
  cases h
  obtain ⟨rfl, rfl⟩ := hv (by simp)
  have h1 : (d 1).type.map f g = (d' 1).type := hk 0 _ rfl
  exact h1

theorem ruleAgree_74 : RuleAgree f g 74 := by
  intro lhs rhs h p p' d d' v v' hp3 hp2 hpc hk hv
  cases h
  obtain ⟨rfl, rfl⟩ := hv (by simp)
  have h1 : (d 1).type.map f g = (d' 1).type := hk 0 _ rfl
  exact h1

theorem ruleAgree_75 : RuleAgree f g 75 := by
  intro lhs rhs h p p' d d' v v' hp3 hp2 hpc hk hv
  cases h
  obtain ⟨rfl, rfl⟩ := hv (by simp)
  have h1 : (d 1).type.map f g = (d' 1).type := hk 0 _ rfl
  exact h1

theorem ruleAgree_76 : RuleAgree f g 76 := by
  intro lhs rhs h p p' d d' v v' hp3 hp2 hpc hk hv
  cases h
  obtain ⟨rfl, rfl⟩ := hv (by simp)
  have h1 : (d 1).type.map f g = (d' 1).type := hk 0 _ rfl
  exact h1

theorem ruleAgree_77 : RuleAgree f g 77 := by
  intro lhs rhs h p p' d d' v v' hp3 hp2 hpc hk hv
  cases h
  have h1 : (d 1).name = (d' 1).name := hk 0 _ rfl
  have h2 : (d 2).type.map f g = (d' 2).type := hk 1 _ rfl
  show (action 77 p d v).namedType.map f g = (action 77 p' d' v').namedType
  have e1 : (action 77 p d v).namedType = (.mk (d 1).name (d 2).type) := rfl
  have e2 : (action 77 p' d' v').namedType = (.mk (d' 1).name (d' 2).type) := rfl
  rw [e1, e2] <;> simp only [← h1, ← h2, Ty.map, NamedType.map, ComponentType.map, Constraint.map, ConstraintSpec.map, IntersectionElements.map, Elements.map, Value.map, Tag.map, NamedBit.map, RangeEndpoint.map, GlobalModuleReference.map, SymbolsFromModule.map, Assignment.map, ModuleBody.map, ComponentTypeLists.map, ObjectIdElement.map, Ty.mapList_eq, NamedType.mapList_eq, ComponentType.mapList_eq, Elements.mapList_eq, IntersectionElements.mapList_eq, IntersectionElements.mapListList_eq, singleElementConstraint_map, List.map_append, List.map_cons, List.map_nil, Option.map_some, Option.map_none]

theorem ruleAgree_78 : RuleAgree f g 78 := by
  intro lhs rhs h p p' d d' v v' hp3 hp2 hpc hk hv
  cases h
  obtain ⟨rfl, rfl⟩ := hv (by simp)
  have h1 : (d 1).value.map f = (d' 1).value := hk 0 _ rfl
  exact h1

theorem ruleAgree_79 : RuleAgree f g 79 := by
  intro lhs rhs h p p' d d' v v' hp3 hp2 hpc hk hv
  cases h
  obtain ⟨rfl, rfl⟩ := hv (by simp)
  have h1 : (d 1).value.map f = (d' 1).value := hk 0 _ rfl
  exact h1

theorem ruleAgree_80 : RuleAgree f g 80 := by
  intro lhs rhs h p p' d d' v v' hp3 hp2 hpc hk hv
  cases h
  obtain ⟨rfl, rfl⟩ := hv (by simp)
  have h1 : (d 1).value.map f = (d' 1).value := hk 0 _ rfl
  exact h1

theorem ruleAgree_81 : RuleAgree f g 81 := by
  intro lhs rhs h p p' d d' v v' hp3 hp2 hpc hk hv
  cases h
  have h1 : (d 1).objectIdentifierValue.map (ObjectIdElement.map f) = (d' 1).objectIdentifierValue := hk 0 _ rfl
  show (action 81 p d v).value.map f = (action 81 p' d' v').value
  have e1 : (action 81 p d v).value = (.objectIdentifier (d 1).objectIdentifierValue) := rfl
  have e2 : (action 81 p' d' v').value = (.objectIdentifier (d' 1).objectIdentifierValue) := rfl
  rw [e1, e2] <;> simp only [← h1, Ty.map, NamedType.map, ComponentType.map, Constraint.map, ConstraintSpec.map, IntersectionElements.map, Elements.map, Value.map, Tag.map, NamedBit.map, RangeEndpoint.map, GlobalModuleReference.map, SymbolsFromModule.map, Assignment.map, ModuleBody.map, ComponentTypeLists.map, ObjectIdElement.map, Ty.mapList_eq, NamedType.mapList_eq, ComponentType.mapList_eq, Elements.mapList_eq, IntersectionElements.mapList_eq, IntersectionElements.mapListList_eq, singleElementConstraint_map, List.map_append, List.map_cons, List.map_nil, Option.map_some, Option.map_none]

theorem ruleAgree_82 : RuleAgree f g 82 := by
  intro lhs rhs h p p' d d' v v' hp3 hp2 hpc hk hv
  cases h
  obtain ⟨rfl, rfl⟩ := hv (by simp)
  have h1 : (d 1).value.map f = (d' 1).value := hk 0 _ rfl
  exact h1

theorem ruleAgree_83 : RuleAgree f g 83 := by
  intro lhs rhs h p p' d d' v v' hp3 hp2 hpc hk hv
  cases h
  show (action 83 p d v).type.map f g = (action 83 p' d' v').type
  have e1 : (action 83 p d v).type = (.boolean) := rfl
  have e2 : (action 83 p' d' v').type = (.boolean) := rfl
  rw [e1, e2] <;> simp only [Ty.map, NamedType.map, ComponentType.map, Constraint.map, ConstraintSpec.map, IntersectionElements.map, Elements.map, Value.map, Tag.map, NamedBit.map, RangeEndpoint.map, GlobalModuleReference.map, SymbolsFromModule.map, Assignment.map, ModuleBody.map, ComponentTypeLists.map, ObjectIdElement.map, Ty.mapList_eq, NamedType.mapList_eq, ComponentType.mapList_eq, Elements.mapList_eq, IntersectionElements.mapList_eq, IntersectionElements.mapListList_eq, singleElementConstraint_map, List.map_append, List.map_cons, List.map_nil, Option.map_some, Option.map_none]

theorem ruleAgree_84 : RuleAgree f g 84 := by
  intro lhs rhs h p p' d d' v v' hp3 hp2 hpc hk hv
  cases h
  show (action 84 p d v).value.map f = (action 84 p' d' v').value
  have e1 : (action 84 p d v).value = (.boolean true) := rfl
  have e2 : (action 84 p' d' v').value = (.boolean true) := rfl
  rw [e1, e2] <;> simp only [Ty.map, NamedType.map, ComponentType.map, Constraint.map, ConstraintSpec.map, IntersectionElements.map, Elements.map, Value.map, Tag.map, NamedBit.map, RangeEndpoint.map, GlobalModuleReference.map, SymbolsFromModule.map, Assignment.map, ModuleBody.map, ComponentTypeLists.map, ObjectIdElement.map, Ty.mapList_eq, NamedType.mapList_eq, ComponentType.mapList_eq, Elements.mapList_eq, IntersectionElements.mapList_eq, IntersectionElements.mapListList_eq, singleElementConstraint_map, List.map_append, List.map_cons, List.map_nil, Option.map_some, Option.map_none]

theorem ruleAgree_85 : RuleAgree f g 85 := by
  intro lhs rhs h p p' d d' v v' hp3 hp2 hpc hk hv
  cases h
  show (action 85 p d v).value.map f = (action 85 p' d' v').value
  have e1 : (action 85 p d v).value = (.boolean false) := rfl
  have e2 : (action 85 p' d' v').value = (.boolean false) := rfl
  rw [e1, e2] <;> simp only [Ty.map, NamedType.map, ComponentType.map, Constraint.map, ConstraintSpec.map, IntersectionElements.map, Elements.map, Value.map, Tag.map, NamedBit.map, RangeEndpoint.map, GlobalModuleReference.map, SymbolsFromModule.map, Assignment.map, ModuleBody.map, ComponentTypeLists.map, ObjectIdElement.map, Ty.mapList_eq, NamedType.mapList_eq, ComponentType.mapList_eq, Elements.mapList_eq, IntersectionElements.mapList_eq, IntersectionElements.mapListList_eq, singleElementConstraint_map, List.map_append, List.map_cons, List.map_nil, Option.map_some, Option.map_none]

theorem ruleAgree_86 : RuleAgree f g 86 := by
  intro lhs rhs h p p' d d' v v' hp3 hp2 hpc hk hv
  cases h
  show (action 86 p d v).type.map f g = (action 86 p' d' v').type
  have e1 : (action 86 p d v).type = (.integer []) := rfl
  have e2 : (action 86 p' d' v').type = (.integer []) := rfl
  rw [e1, e2] <;> simp only [Ty.map, NamedType.map, ComponentType.map, Constraint.map, ConstraintSpec.map, IntersectionElements.map, Elements.map, Value.map, Tag.map, NamedBit.map, RangeEndpoint.map, GlobalModuleReference.map, SymbolsFromModule.map, Assignment.map, ModuleBody.map, ComponentTypeLists.map, ObjectIdElement.map, Ty.mapList_eq, NamedType.mapList_eq, ComponentType.mapList_eq, Elements.mapList_eq, IntersectionElements.mapList_eq, IntersectionElements.mapListList_eq, singleElementConstraint_map, List.map_append, List.map_cons, List.map_nil, Option.map_some, Option.map_none]

theorem ruleAgree_87 : RuleAgree f g 87 := by
  intro lhs rhs h p p' d d' v v' hp3 hp2 hpc hk hv
  cases h
  have h3 : (d 3).namedNumberList = (d' 3).namedNumberList := hk 2 _ rfl
  show (action 87 p d v).type.map f g = (action 87 p' d' v').type
  have e1 : (action 87 p d v).type = (.integer (d 3).namedNumberList) := rfl
  have e2 : (action 87 p' d' v').type = (.integer (d' 3).namedNumberList) := rfl
  rw [e1, e2] <;> simp only [← h3, Ty.map, NamedType.map, ComponentType.map, Constraint.map, ConstraintSpec.map, IntersectionElements.map, Elements.map, Value.map, Tag.map, NamedBit.map, RangeEndpoint.map, GlobalModuleReference.map, SymbolsFromModule.map, Assignment.map, ModuleBody.map, ComponentTypeLists.map, ObjectIdElement.map, Ty.mapList_eq, NamedType.mapList_eq, ComponentType.mapList_eq, Elements.mapList_eq, IntersectionElements.mapList_eq, IntersectionElements.mapListList_eq, singleElementConstraint_map, List.map_append, List.map_cons, List.map_nil, Option.map_some, Option.map_none]

theorem ruleAgree_88 : RuleAgree f g 88 := by
  intro lhs rhs h p p' d d' v v' hp3 hp2 hpc hk hv
  cases h
  have h1 : (d 1).namedNumber = (d' 1).namedNumber := hk 0 _ rfl
  show (action 88 p d v).namedNumberList = (action 88 p' d' v').namedNumberList
  have e1 : (action 88 p d v).namedNumberList = ([(d 1).namedNumber]) := rfl
  have e2 : (action 88 p' d' v').namedNumberList = ([(d' 1).namedNumber]) := rfl
  rw [e1, e2] <;> simp only [← h1, Ty.map, NamedType.map, ComponentType.map, Constraint.map, ConstraintSpec.map, IntersectionElements.map, Elements.map, Value.map, Tag.map, NamedBit.map, RangeEndpoint.map, GlobalModuleReference.map, SymbolsFromModule.map, Assignment.map, ModuleBody.map, ComponentTypeLists.map, ObjectIdElement.map, Ty.mapList_eq, NamedType.mapList_eq, ComponentType.mapList_eq, Elements.mapList_eq, IntersectionElements.mapList_eq, IntersectionElements.mapListList_eq, singleElementConstraint_map, List.map_append, List.map_cons, List.map_nil, Option.map_some, Option.map_none]

theorem ruleAgree_89 : RuleAgree f g 89 := by
  intro lhs rhs h p p' d d' v v' hp3 hp2 hpc hk hv
  cases h
  have h1 : (d 1).namedNumberList = (d' 1).namedNumberList := hk 0 _ rfl
  have h3 : (d 3).namedNumber = (d' 3).namedNumber := hk 2 _ rfl
  show (action 89 p d v).namedNumberList = (action 89 p' d' v').namedNumberList
  have e1 : (action 89 p d v).namedNumberList = ((d 1).namedNumberList ++ [(d 3).namedNumber]) := rfl
  have e2 : (action 89 p' d' v').namedNumberList = ((d' 1).namedNumberList ++ [(d' 3).namedNumber]) := rfl
  rw [e1, e2] <;> simp only [← h1, ← h3, Ty.map, NamedType.map, ComponentType.map, Constraint.map, ConstraintSpec.map, IntersectionElements.map, Elements.map, Value.map, Tag.map, NamedBit.map, RangeEndpoint.map, GlobalModuleReference.map, SymbolsFromModule.map, Assignment.map, ModuleBody.map, ComponentTypeLists.map, ObjectIdElement.map, Ty.mapList_eq, NamedType.mapList_eq, ComponentType.mapList_eq, Elements.mapList_eq, IntersectionElements.mapList_eq, IntersectionElements.mapListList_eq, singleElementConstraint_map, List.map_append, List.map_cons, List.map_nil, Option.map_some, Option.map_none]

theorem ruleAgree_90 : RuleAgree f g 90 := by
  intro lhs rhs h p p' d d' v v' hp3 hp2 hpc hk hv
  cases h
  have h1 : (d 1).name = (d' 1).name := hk 0 _ rfl
  have h3 : (d 3).number = (d' 3).number := hk 2 _ rfl
  show (action 90 p d v).namedNumber = (action 90 p' d' v').namedNumber
  have e1 : (action 90 p d v).namedNumber = (⟨(d 1).name, .number (d 3).number⟩) := rfl
  have e2 : (action 90 p' d' v').namedNumber = (⟨(d' 1).name, .number (d' 3).number⟩) := rfl
  rw [e1, e2] <;> simp only [← h1, ← h3, Ty.map, NamedType.map, ComponentType.map, Constraint.map, ConstraintSpec.map, IntersectionElements.map, Elements.map, Value.map, Tag.map, NamedBit.map, RangeEndpoint.map, GlobalModuleReference.map, SymbolsFromModule.map, Assignment.map, ModuleBody.map, ComponentTypeLists.map, ObjectIdElement.map, Ty.mapList_eq, NamedType.mapList_eq, ComponentType.mapList_eq, Elements.mapList_eq, IntersectionElements.mapList_eq, IntersectionElements.mapListList_eq, singleElementConstraint_map, List.map_append, List.map_cons, List.map_nil, Option.map_some, Option.map_none]

theorem ruleAgree_91 : RuleAgree f g 91 := by
  intro lhs rhs h p p' d d' v v' hp3 hp2 hpc hk hv
  cases h
  have h1 : (d 1).name = (d' 1).name := hk 0 _ rfl
  have h3 : (d 3).definedValue = (d' 3).definedValue := hk 2 _ rfl
  show (action 91 p d v).namedNumber = (action 91 p' d' v').namedNumber
  have e1 : (action 91 p d v).namedNumber = (⟨(d 1).name, .defined (d 3).definedValue⟩) := rfl
  have e2 : (action 91 p' d' v').namedNumber = (⟨(d' 1).name, .defined (d' 3).definedValue⟩) := rfl
  rw [e1, e2] <;> simp only [← h1, ← h3, Ty.map, NamedType.map, ComponentType.map, Constraint.map, ConstraintSpec.map, IntersectionElements.map, Elements.map, Value.map, Tag.map, NamedBit.map, RangeEndpoint.map, GlobalModuleReference.map, SymbolsFromModule.map, Assignment.map, ModuleBody.map, ComponentTypeLists.map, ObjectIdElement.map, Ty.mapList_eq, NamedType.mapList_eq, ComponentType.mapList_eq, Elements.mapList_eq, IntersectionElements.mapList_eq, IntersectionElements.mapListList_eq, singleElementConstraint_map, List.map_append, List.map_cons, List.map_nil, Option.map_some, Option.map_none]

theorem ruleAgree_92 : RuleAgree f g 92 := by
  intro lhs rhs h p p' d d' v v' hp3 hp2 hpc hk hv
  cases h
  have h1 : (d 1).number = (d' 1).number := hk 0 _ rfl
  show (action 92 p d v).number = (action 92 p' d' v').number
  have e1 : (action 92 p d v).number = ((d 1).number) := rfl
  have e2 : (action 92 p' d' v').number = ((d' 1).number) := rfl
  rw [e1, e2] <;> simp only [← h1, Ty.map, NamedType.map, ComponentType.map, Constraint.map, ConstraintSpec.map, IntersectionElements.map, Elements.map, Value.map, Tag.map, NamedBit.map, RangeEndpoint.map, GlobalModuleReference.map, SymbolsFromModule.map, Assignment.map, ModuleBody.map, ComponentTypeLists.map, ObjectIdElement.map, Ty.mapList_eq, NamedType.mapList_eq, ComponentType.mapList_eq, Elements.mapList_eq, IntersectionElements.mapList_eq, IntersectionElements.mapListList_eq, singleElementConstraint_map, List.map_append, List.map_cons, List.map_nil, Option.map_some, Option.map_none]

theorem ruleAgree_93 : RuleAgree f g 93 := by
  intro lhs rhs h p p' d d' v v' hp3 hp2 hpc hk hv
  cases h
  have h2 : (d 2).number = (d' 2).number := hk 1 _ rfl
  show (action 93 p d v).number = (action 93 p' d' v').number
  have e1 : (action 93 p d v).number = (- (d 2).number) := rfl
  have e2 : (action 93 p' d' v').number = (- (d' 2).number) := rfl
  rw [e1, e2] <;> simp only [← h2, Ty.map, NamedType.map, ComponentType.map, Constraint.map, ConstraintSpec.map, IntersectionElements.map, Elements.map, Value.map, Tag.map, NamedBit.map, RangeEndpoint.map, GlobalModuleReference.map, SymbolsFromModule.map, Assignment.map, ModuleBody.map, ComponentTypeLists.map, ObjectIdElement.map, Ty.mapList_eq, NamedType.mapList_eq, ComponentType.mapList_eq, Elements.mapList_eq, IntersectionElements.mapList_eq, IntersectionElements.mapListList_eq, singleElementConstraint_map, List.map_append, List.map_cons, List.map_nil, Option.map_some, Option.map_none]

theorem ruleAgree_94 : RuleAgree f g 94 := by
  intro lhs rhs h p p' d d' v v' hp3 hp2 hpc hk hv
  cases h
  have h1 : (d 1).number = (d' 1).number := hk 0 _ rfl
  show (action 94 p d v).value.map f = (action 94 p' d' v').value
  have e1 : (action 94 p d v).value = (.number (d 1).number) := rfl
  have e2 : (action 94 p' d' v').value = (.number (d' 1).number) := rfl
  rw [e1, e2] <;> simp only [← h1, Ty.map, NamedType.map, ComponentType.map, Constraint.map, ConstraintSpec.map, IntersectionElements.map, Elements.map, Value.map, Tag.map, NamedBit.map, RangeEndpoint.map, GlobalModuleReference.map, SymbolsFromModule.map, Assignment.map, ModuleBody.map, ComponentTypeLists.map, ObjectIdElement.map, Ty.mapList_eq, NamedType.mapList_eq, ComponentType.mapList_eq, Elements.mapList_eq, IntersectionElements.mapList_eq, IntersectionElements.mapListList_eq, singleElementConstraint_map, List.map_append, List.map_cons, List.map_nil, Option.map_some, Option.map_none]

theorem ruleAgree_95 : RuleAgree f g 95 := by
  intro lhs rhs h p p' d d' v v' hp3 hp2 hpc hk hv
  cases h
  have h1 : (d 1).name = (d' 1).name := hk 0 _ rfl
  show (action 95 p d v).value.map f = (action 95 p' d' v').value
  have e1 : (action 95 p d v).value = (.identifiedInteger (d 1).name) := rfl
  have e2 : (action 95 p' d' v').value = (.identifiedInteger (d' 1).name) := rfl
  rw [e1, e2] <;> simp only [← h1, Ty.map, NamedType.map, ComponentType.map, Constraint.map, ConstraintSpec.map, IntersectionElements.map, Elements.map, Value.map, Tag.map, NamedBit.map, RangeEndpoint.map, GlobalModuleReference.map, SymbolsFromModule.map, Assignment.map, ModuleBody.map, ComponentTypeLists.map, ObjectIdElement.map, Ty.mapList_eq, NamedType.mapList_eq, ComponentType.mapList_eq, Elements.mapList_eq, IntersectionElements.mapList_eq, IntersectionElements.mapListList_eq, singleElementConstraint_map, List.map_append, List.map_cons, List.map_nil, Option.map_some, Option.map_none]

theorem ruleAgree_96 : RuleAgree f g 96 := by
  intro lhs rhs h p p' d d' v v' hp3 hp2 hpc hk hv
  cases h
  have h3 : (d 3).enumeratedType = (d' 3).enumeratedType := hk 2 _ rfl
  show (action 96 p d v).type.map f g = (action 96 p' d' v').type
  have e1 : (action 96 p d v).type = (.enumerated (d 3).enumeratedType.1 (d 3).enumeratedType.2) := rfl
  have e2 : (action 96 p' d' v').type = (.enumerated (d' 3).enumeratedType.1 (d' 3).enumeratedType.2) := rfl
  rw [e1, e2] <;> simp only [← h3, Ty.map, NamedType.map, ComponentType.map, Constraint.map, ConstraintSpec.map, IntersectionElements.map, Elements.map, Value.map, Tag.map, NamedBit.map, RangeEndpoint.map, GlobalModuleReference.map, SymbolsFromModule.map, Assignment.map, ModuleBody.map, ComponentTypeLists.map, ObjectIdElement.map, Ty.mapList_eq, NamedType.mapList_eq, ComponentType.mapList_eq, Elements.mapList_eq, IntersectionElements.mapList_eq, IntersectionElements.mapListList_eq, singleElementConstraint_map, List.map_append, List.map_cons, List.map_nil, Option.map_some, Option.map_none]

theorem ruleAgree_97 : RuleAgree f g 97 := by
  intro lhs rhs h p p' d d' v v' hp3 hp2 hpc hk hv
  cases h
  have h1 : (d 1).enumeration = (d' 1).enumeration := hk 0 _ rfl
  show (action 97 p d v).enumeratedType = (action 97 p' d' v').enumeratedType
  have e1 : (action 97 p d v).enumeratedType = (((d 1).enumeration, [])) := rfl
  have e2 : (action 97 p' d' v').enumeratedType = (((d' 1).enumeration, [])) := rfl
  rw [e1, e2] <;> simp only [← h1, Ty.map, NamedType.map, ComponentType.map, Constraint.map, ConstraintSpec.map, IntersectionElements.map, Elements.map, Value.map, Tag.map, NamedBit.map, RangeEndpoint.map, GlobalModuleReference.map, SymbolsFromModule.map, Assignment.map, ModuleBody.map, ComponentTypeLists.map, ObjectIdElement.map, Ty.mapList_eq, NamedType.mapList_eq, ComponentType.mapList_eq, Elements.mapList_eq, IntersectionElements.mapList_eq, IntersectionElements.mapListList_eq, singleElementConstraint_map, List.map_append, List.map_cons, List.map_nil, Option.map_some, Option.map_none]

theorem ruleAgree_98 : RuleAgree f g 98 := by
  intro lhs rhs h p p' d d' v v' hp3 hp2 hpc hk hv
  cases h
  have h1 : (d 1).enumeration = (d' 1).enumeration := hk 0 _ rfl
  show (action 98 p d v).enumeratedType = (action 98 p' d' v').enumeratedType
  have e1 : (action 98 p d v).enumeratedType = (((d 1).enumeration, [])) := rfl
  have e2 : (action 98 p' d' v').enumeratedType = (((d' 1).enumeration, [])) := rfl
  rw [e1, e2] <;> simp only [← h1, Ty.map, NamedType.map, ComponentType.map, Constraint.map, ConstraintSpec.map, IntersectionElements.map, Elements.map, Value.map, Tag.map, NamedBit.map, RangeEndpoint.map, GlobalModuleReference.map, SymbolsFromModule.map, Assignment.map, ModuleBody.map, ComponentTypeLists.map, ObjectIdElement.map, Ty.mapList_eq, NamedType.mapList_eq, ComponentType.mapList_eq, Elements.mapList_eq, IntersectionElements.mapList_eq, IntersectionElements.mapListList_eq, singleElementConstraint_map, List.map_append, List.map_cons, List.map_nil, Option.map_some, Option.map_none]

theorem ruleAgree_99 : RuleAgree f g 99 := by
  intro lhs rhs h p p' d d' v v' hp3 hp2 hpc hk hv
  cases h
  have h1 : (d 1).enumeration = (d' 1).enumeration := hk 0 _ rfl
  have h6 : (d 6).enumeration = (d' 6).enumeration := hk 5 _ rfl
  show (action 99 p d v).enumeratedType = (action 99 p' d' v').enumeratedType
  have e1 : (action 99 p d v).enumeratedType = (((d 1).enumeration, (d 6).enumeration)) := rfl
  have e2 : (action 99 p' d' v').enumeratedType = (((d' 1).enumeration, (d' 6).enumeration)) := rfl
  rw [e1, e2] <;> simp only [← h1, ← h6, Ty.map, NamedType.map, ComponentType.map, Constraint.map, ConstraintSpec.map, IntersectionElements.map, Elements.map, Value.map, Tag.map, NamedBit.map, RangeEndpoint.map, GlobalModuleReference.map, SymbolsFromModule.map, Assignment.map, ModuleBody.map, ComponentTypeLists.map, ObjectIdElement.map, Ty.mapList_eq, NamedType.mapList_eq, ComponentType.mapList_eq, Elements.mapList_eq, IntersectionElements.mapList_eq, IntersectionElements.mapListList_eq, singleElementConstraint_map, List.map_append, List.map_cons, List.map_nil, Option.map_some, Option.map_none]

theorem ruleAgree_100 : RuleAgree f g 100 := by
  intro lhs rhs h p p' d d' v v' hp3 hp2 hpc hk hv
  cases h
  obtain ⟨rfl, rfl⟩ := hv (by simp)
  have h1 : (d 1).enumeration = (d' 1).enumeration := hk 0 _ rfl
  exact h1

theorem ruleAgree_101 : RuleAgree f g 101 := by
  intro lhs rhs h p p' d d' v v' hp3 hp2 hpc hk hv
  cases h
  obtain ⟨rfl, rfl⟩ := hv (by simp)
  have h1 : (d 1).enumeration = (d' 1).enumeration := hk 0 _ rfl
  exact h1

theorem ruleAgree_102 : RuleAgree f g 102 := by
  intro lhs rhs h p p' d d' v v' hp3 hp2 hpc hk hv
  cases h
  have h1 : (d 1).enumerationItem = (d' 1).enumerationItem := hk 0 _ rfl
  show (action 102 p d v).enumeration = (action 102 p' d' v').enumeration
  have e1 : (action 102 p d v).enumeration = ([(d 1).enumerationItem]) := rfl
  have e2 : (action 102 p' d' v').enumeration = ([(d' 1).enumerationItem]) := rfl
  rw [e1, e2] <;> simp only [← h1, Ty.map, NamedType.map, ComponentType.map, Constraint.map, ConstraintSpec.map, IntersectionElements.map, Elements.map, Value.map, Tag.map, NamedBit.map, RangeEndpoint.map, GlobalModuleReference.map, SymbolsFromModule.map, Assignment.map, ModuleBody.map, ComponentTypeLists.map, ObjectIdElement.map, Ty.mapList_eq, NamedType.mapList_eq, ComponentType.mapList_eq, Elements.mapList_eq, IntersectionElements.mapList_eq, IntersectionElements.mapListList_eq, singleElementConstraint_map, List.map_append, List.map_cons, List.map_nil, Option.map_some, Option.map_none]

theorem ruleAgree_103 : RuleAgree f g 103 := by
  intro lhs rhs h p p' d d' v v' hp3 hp2 hpc hk hv
  cases h
  have h1 : (d 1).enumerationItem = (d' 1).enumerationItem := hk 0 _ rfl
  have h3 : (d 3).enumeration = (d' 3).enumeration := hk 2 _ rfl
  show (action 103 p d v).enumeration = (action 103 p' d' v').enumeration
  have e1 : (action 103 p d v).enumeration = ((d 1).enumerationItem :: (d 3).enumeration) := rfl
  have e2 : (action 103 p' d' v').enumeration = ((d' 1).enumerationItem :: (d' 3).enumeration) := rfl
  rw [e1, e2] <;> simp only [← h1, ← h3, Ty.map, NamedType.map, ComponentType.map, Constraint.map, ConstraintSpec.map, IntersectionElements.map, Elements.map, Value.map, Tag.map, NamedBit.map, RangeEndpoint.map, GlobalModuleReference.map, SymbolsFromModule.map, Assignment.map, ModuleBody.map, ComponentTypeLists.map, ObjectIdElement.map, Ty.mapList_eq, NamedType.mapList_eq, ComponentType.mapList_eq, Elements.mapList_eq, IntersectionElements.mapList_eq, IntersectionElements.mapListList_eq, singleElementConstraint_map, List.map_append, List.map_cons, List.map_nil, Option.map_some, Option.map_none]

theorem ruleAgree_104 : RuleAgree f g 104 := by
  intro lhs rhs h p p' d d' v v' hp3 hp2 hpc hk hv
  cases h
  have h1 : (d 1).namedNumber = (d' 1).namedNumber := hk 0 _ rfl
  show (action 104 p d v).enumerationItem = (action 104 p' d' v').enumerationItem
  have e1 : (action 104 p d v).enumerationItem = (.namedNumber (d 1).namedNumber) := rfl
  have e2 : (action 104 p' d' v').enumerationItem = (.namedNumber (d' 1).namedNumber) := rfl
  rw [e1, e2] <;> simp only [← h1, Ty.map, NamedType.map, ComponentType.map, Constraint.map, ConstraintSpec.map, IntersectionElements.map, Elements.map, Value.map, Tag.map, NamedBit.map, RangeEndpoint.map, GlobalModuleReference.map, SymbolsFromModule.map, Assignment.map, ModuleBody.map, ComponentTypeLists.map, ObjectIdElement.map, Ty.mapList_eq, NamedType.mapList_eq, ComponentType.mapList_eq, Elements.mapList_eq, IntersectionElements.mapList_eq, IntersectionElements.mapListList_eq, singleElementConstraint_map, List.map_append, List.map_cons, List.map_nil, Option.map_some, Option.map_none]

theorem ruleAgree_105 : RuleAgree f g 105 := by
  intro lhs rhs h p p' d d' v v' hp3 hp2 hpc hk hv
  cases h
  have h1 : (d 1).name = (d' 1).name := hk 0 _ rfl
  show (action 105 p d v).enumerationItem = (action 105 p' d' v').enumerationItem
  have e1 : (action 105 p d v).enumerationItem = (.identifier (d 1).name) := rfl
  have e2 : (action 105 p' d' v').enumerationItem = (.identifier (d' 1).name) := rfl
  rw [e1, e2] <;> simp only [← h1, Ty.map, NamedType.map, ComponentType.map, Constraint.map, ConstraintSpec.map, IntersectionElements.map, Elements.map, Value.map, Tag.map, NamedBit.map, RangeEndpoint.map, GlobalModuleReference.map, SymbolsFromModule.map, Assignment.map, ModuleBody.map, ComponentTypeLists.map, ObjectIdElement.map, Ty.mapList_eq, NamedType.mapList_eq, ComponentType.mapList_eq, Elements.mapList_eq, IntersectionElements.mapList_eq, IntersectionElements.mapListList_eq, singleElementConstraint_map, List.map_append, List.map_cons, List.map_nil, Option.map_some, Option.map_none]

theorem ruleAgree_106 : RuleAgree f g 106 := by
  intro lhs rhs h p p' d d' v v' hp3 hp2 hpc hk hv
  cases h
  show (action 106 p d v).type.map f g = (action 106 p' d' v').type
  have e1 : (action 106 p d v).type = (.real) := rfl
  have e2 : (action 106 p' d' v').type = (.real) := rfl
  rw [e1, e2] <;> simp only [Ty.map, NamedType.map, ComponentType.map, Constraint.map, ConstraintSpec.map, IntersectionElements.map, Elements.map, Value.map, Tag.map, NamedBit.map, RangeEndpoint.map, GlobalModuleReference.map, SymbolsFromModule.map, Assignment.map, ModuleBody.map, ComponentTypeLists.map, ObjectIdElement.map, Ty.mapList_eq, NamedType.mapList_eq, ComponentType.mapList_eq, Elements.mapList_eq, IntersectionElements.mapList_eq, IntersectionElements.mapListList_eq, singleElementConstraint_map, List.map_append, List.map_cons, List.map_nil, Option.map_some, Option.map_none]

theorem ruleAgree_107 : RuleAgree f g 107 := by
  intro lhs rhs h p p' d d' v v' hp3 hp2 hpc hk hv
  cases h
  obtain ⟨rfl, rfl⟩ := hv (by simp)
  have h1 : (d 1).value.map f = (d' 1).value := hk 0 _ rfl
  exact h1

theorem ruleAgree_108 : RuleAgree f g 108 := by
  intro lhs rhs h p p' d d' v v' hp3 hp2 hpc hk hv
  cases h
  obtain ⟨rfl, rfl⟩ := hv (by simp)
  have h1 : (d 1).value.map f = (d' 1).value := hk 0 _ rfl
  exact h1

theorem ruleAgree_109 : RuleAgree f g 109 := by
  intro lhs rhs h p p' d d' v v' hp3 hp2 hpc hk hv
  cases h
  have h1 : (d 1).real = (d' 1).real := hk 0 _ rfl
  show (action 109 p d v).value.map f = (action 109 p' d' v').value
  have e1 : (action 109 p d v).value = (.real (d 1).real) := rfl
  have e2 : (action 109 p' d' v').value = (.real (d' 1).real) := rfl
  rw [e1, e2] <;> simp only [← h1, Ty.map, NamedType.map, ComponentType.map, Constraint.map, ConstraintSpec.map, IntersectionElements.map, Elements.map, Value.map, Tag.map, NamedBit.map, RangeEndpoint.map, GlobalModuleReference.map, SymbolsFromModule.map, Assignment.map, ModuleBody.map, ComponentTypeLists.map, ObjectIdElement.map, Ty.mapList_eq, NamedType.mapList_eq, ComponentType.mapList_eq, Elements.mapList_eq, IntersectionElements.mapList_eq, IntersectionElements.mapListList_eq, singleElementConstraint_map, List.map_append, List.map_cons, List.map_nil, Option.map_some, Option.map_none]

theorem ruleAgree_110 : RuleAgree f g 110 := by
  intro lhs rhs h p p' d d' v v' hp3 hp2 hpc hk hv
  cases h
  have h2 : (d 2).real = (d' 2).real := hk 1 _ rfl
  show (action 110 p d v).value.map f = (action 110 p' d' v').value
  have e1 : (action 110 p d v).value = (.real (.neg (d 2).real)) := rfl
  have e2 : (action 110 p' d' v').value = (.real (.neg (d' 2).real)) := rfl
  rw [e1, e2] <;> simp only [← h2, Ty.map, NamedType.map, ComponentType.map, Constraint.map, ConstraintSpec.map, IntersectionElements.map, Elements.map, Value.map, Tag.map, NamedBit.map, RangeEndpoint.map, GlobalModuleReference.map, SymbolsFromModule.map, Assignment.map, ModuleBody.map, ComponentTypeLists.map, ObjectIdElement.map, Ty.mapList_eq, NamedType.mapList_eq, ComponentType.mapList_eq, Elements.mapList_eq, IntersectionElements.mapList_eq, IntersectionElements.mapListList_eq, singleElementConstraint_map, List.map_append, List.map_cons, List.map_nil, Option.map_some, Option.map_none]

theorem ruleAgree_111 : RuleAgree f g 111 := by
  intro lhs rhs h p p' d d' v v' hp3 hp2 hpc hk hv
  cases h
  show (action 111 p d v).value.map f = (action 111 p' d' v').value
  have e1 : (action 111 p d v).value = (.real .posInf) := rfl
  have e2 : (action 111 p' d' v').value = (.real .posInf) := rfl
  rw [e1, e2] <;> simp only [Ty.map, NamedType.map, ComponentType.map, Constraint.map, ConstraintSpec.map, IntersectionElements.map, Elements.map, Value.map, Tag.map, NamedBit.map, RangeEndpoint.map, GlobalModuleReference.map, SymbolsFromModule.map, Assignment.map, ModuleBody.map, ComponentTypeLists.map, ObjectIdElement.map, Ty.mapList_eq, NamedType.mapList_eq, ComponentType.mapList_eq, Elements.mapList_eq, IntersectionElements.mapList_eq, IntersectionElements.mapListList_eq, singleElementConstraint_map, List.map_append, List.map_cons, List.map_nil, Option.map_some, Option.map_none]

theorem ruleAgree_112 : RuleAgree f g 112 := by
  intro lhs rhs h p p' d d' v v' hp3 hp2 hpc hk hv
  cases h
  show (action 112 p d v).value.map f = (action 112 p' d' v').value
  have e1 : (action 112 p d v).value = (.real .negInf) := rfl
  have e2 : (action 112 p' d' v').value = (.real .negInf) := rfl
  rw [e1, e2] <;> simp only [Ty.map, NamedType.map, ComponentType.map, Constraint.map, ConstraintSpec.map, IntersectionElements.map, Elements.map, Value.map, Tag.map, NamedBit.map, RangeEndpoint.map, GlobalModuleReference.map, SymbolsFromModule.map, Assignment.map, ModuleBody.map, ComponentTypeLists.map, ObjectIdElement.map, Ty.mapList_eq, NamedType.mapList_eq, ComponentType.mapList_eq, Elements.mapList_eq, IntersectionElements.mapList_eq, IntersectionElements.mapListList_eq, singleElementConstraint_map, List.map_append, List.map_cons, List.map_nil, Option.map_some, Option.map_none]

theorem ruleAgree_113 : RuleAgree f g 113 := by
  intro lhs rhs h p p' d d' v v' hp3 hp2 hpc hk hv
  cases h
  have h1 : (d 1).number = (d' 1).number := hk 0 _ rfl
  show (action 113 p d v).real = (action 113 p' d' v').real
  have e1 : (action 113 p d v).real = (.lit (d 1).number 0 0) := rfl
  have e2 : (action 113 p' d' v').real = (.lit (d' 1).number 0 0) := rfl
  rw [e1, e2] <;> simp only [← h1, Ty.map, NamedType.map, ComponentType.map, Constraint.map, ConstraintSpec.map, IntersectionElements.map, Elements.map, Value.map, Tag.map, NamedBit.map, RangeEndpoint.map, GlobalModuleReference.map, SymbolsFromModule.map, Assignment.map, ModuleBody.map, ComponentTypeLists.map, ObjectIdElement.map, Ty.mapList_eq, NamedType.mapList_eq, ComponentType.mapList_eq, Elements.mapList_eq, IntersectionElements.mapList_eq, IntersectionElements.mapListList_eq, singleElementConstraint_map, List.map_append, List.map_cons, List.map_nil, Option.map_some, Option.map_none]

theorem ruleAgree_114 : RuleAgree f g 114 := by
  intro lhs rhs h p p' d d' v v' hp3 hp2 hpc hk hv
  cases h
  have h1 : (d 1).number = (d' 1).number := hk 0 _ rfl
  have h3 : (d 3).number = (d' 3).number := hk 2 _ rfl
  show (action 114 p d v).real = (action 114 p' d' v').real
  have e1 : (action 114 p d v).real = (.lit (d 1).number (d 3).number 0) := rfl
  have e2 : (action 114 p' d' v').real = (.lit (d' 1).number (d' 3).number 0) := rfl
  rw [e1, e2] <;> simp only [← h1, ← h3, Ty.map, NamedType.map, ComponentType.map, Constraint.map, ConstraintSpec.map, IntersectionElements.map, Elements.map, Value.map, Tag.map, NamedBit.map, RangeEndpoint.map, GlobalModuleReference.map, SymbolsFromModule.map, Assignment.map, ModuleBody.map, ComponentTypeLists.map, ObjectIdElement.map, Ty.mapList_eq, NamedType.mapList_eq, ComponentType.mapList_eq, Elements.mapList_eq, IntersectionElements.mapList_eq, IntersectionElements.mapListList_eq, singleElementConstraint_map, List.map_append, List.map_cons, List.map_nil, Option.map_some, Option.map_none]

theorem ruleAgree_115 : RuleAgree f g 115 := by
  intro lhs rhs h p p' d d' v v' hp3 hp2 hpc hk hv
  cases h
  have h1 : (d 1).number = (d' 1).number := hk 0 _ rfl
  have h3 : (d 3).number = (d' 3).number := hk 2 _ rfl
  have h5 : (d 5).number = (d' 5).number := hk 4 _ rfl
  show (action 115 p d v).real = (action 115 p' d' v').real
  have e1 : (action 115 p d v).real = (.lit (d 1).number (d 3).number (d 5).number) := rfl
  have e2 : (action 115 p' d' v').real = (.lit (d' 1).number (d' 3).number (d' 5).number) := rfl
  rw [e1, e2] <;> simp only [← h1, ← h3, ← h5, Ty.map, NamedType.map, ComponentType.map, Constraint.map, ConstraintSpec.map, IntersectionElements.map, Elements.map, Value.map, Tag.map, NamedBit.map, RangeEndpoint.map, GlobalModuleReference.map, SymbolsFromModule.map, Assignment.map, ModuleBody.map, ComponentTypeLists.map, ObjectIdElement.map, Ty.mapList_eq, NamedType.mapList_eq, ComponentType.mapList_eq, Elements.mapList_eq, IntersectionElements.mapList_eq, IntersectionElements.mapListList_eq, singleElementConstraint_map, List.map_append, List.map_cons, List.map_nil, Option.map_some, Option.map_none]

theorem ruleAgree_116 : RuleAgree f g 116 := by
  intro lhs rhs h p p' d d' v v' hp3 hp2 hpc hk hv
  cases h
  have h1 : (d 1).number = (d' 1).number := hk 0 _ rfl
  have h3 : (d 3).number = (d' 3).number := hk 2 _ rfl
  show (action 116 p d v).real = (action 116 p' d' v').real
  have e1 : (action 116 p d v).real = (.lit (d 1).number 0 (d 3).number) := rfl
  have e2 : (action 116 p' d' v').real = (.lit (d' 1).number 0 (d' 3).number) := rfl
  rw [e1, e2] <;> simp only [← h1, ← h3, Ty.map, NamedType.map, ComponentType.map, Constraint.map, ConstraintSpec.map, IntersectionElements.map, Elements.map, Value.map, Tag.map, NamedBit.map, RangeEndpoint.map, GlobalModuleReference.map, SymbolsFromModule.map, Assignment.map, ModuleBody.map, ComponentTypeLists.map, ObjectIdElement.map, Ty.mapList_eq, NamedType.mapList_eq, ComponentType.mapList_eq, Elements.mapList_eq, IntersectionElements.mapList_eq, IntersectionElements.mapListList_eq, singleElementConstraint_map, List.map_append, List.map_cons, List.map_nil, Option.map_some, Option.map_none]

theorem ruleAgree_117 : RuleAgree f g 117 := by
  intro lhs rhs h p p' d d' v v' hp3 hp2 hpc hk hv
  cases h
  obtain ⟨rfl, rfl⟩ := hv (by simp)
  have h1 : (d 1).number = (d' 1).number := hk 0 _ rfl
  exact h1

theorem ruleAgree_118 : RuleAgree f g 118 := by
  intro lhs rhs h p p' d d' v v' hp3 hp2 hpc hk hv
  cases h
  have h2 : (d 2).number = (d' 2).number := hk 1 _ rfl
  show (action 118 p d v).number = (action 118 p' d' v').number
  have e1 : (action 118 p d v).number = (- (d 2).number) := rfl
  have e2 : (action 118 p' d' v').number = (- (d' 2).number) := rfl
  rw [e1, e2] <;> simp only [← h2, Ty.map, NamedType.map, ComponentType.map, Constraint.map, ConstraintSpec.map, IntersectionElements.map, Elements.map, Value.map, Tag.map, NamedBit.map, RangeEndpoint.map, GlobalModuleReference.map, SymbolsFromModule.map, Assignment.map, ModuleBody.map, ComponentTypeLists.map, ObjectIdElement.map, Ty.mapList_eq, NamedType.mapList_eq, ComponentType.mapList_eq, Elements.mapList_eq, IntersectionElements.mapList_eq, IntersectionElements.mapListList_eq, singleElementConstraint_map, List.map_append, List.map_cons, List.map_nil, Option.map_some, Option.map_none]

theorem ruleAgree_119 : RuleAgree f g 119 := by
  intro lhs rhs h p p' d d' v v' hp3 hp2 hpc hk hv
  cases h
  show (action 119 p d v).type.map f g = (action 119 p' d' v').type
  have e1 : (action 119 p d v).type = (.bitString []) := rfl
  have e2 : (action 119 p' d' v').type = (.bitString []) := rfl
  rw [e1, e2] <;> simp only [Ty.map, NamedType.map, ComponentType.map, Constraint.map, ConstraintSpec.map, IntersectionElements.map, Elements.map, Value.map, Tag.map, NamedBit.map, RangeEndpoint.map, GlobalModuleReference.map, SymbolsFromModule.map, Assignment.map, ModuleBody.map, ComponentTypeLists.map, ObjectIdElement.map, Ty.mapList_eq, NamedType.mapList_eq, ComponentType.mapList_eq, Elements.mapList_eq, IntersectionElements.mapList_eq, IntersectionElements.mapListList_eq, singleElementConstraint_map, List.map_append, List.map_cons, List.map_nil, Option.map_some, Option.map_none]

theorem ruleAgree_120 : RuleAgree f g 120 := by
  intro lhs rhs h p p' d d' v v' hp3 hp2 hpc hk hv
  cases h
  have h4 : (d 4).namedBitList.map (NamedBit.map f) = (d' 4).namedBitList := hk 3 _ rfl
  show (action 120 p d v).type.map f g = (action 120 p' d' v').type
  have e1 : (action 120 p d v).type = (.bitString (d 4).namedBitList) := rfl
  have e2 : (action 120 p' d' v').type = (.bitString (d' 4).namedBitList) := rfl
  rw [e1, e2] <;> simp only [← h4, Ty.map, NamedType.map, ComponentType.map, Constraint.map, ConstraintSpec.map, IntersectionElements.map, Elements.map, Value.map, Tag.map, NamedBit.map, RangeEndpoint.map, GlobalModuleReference.map, SymbolsFromModule.map, Assignment.map, ModuleBody.map, ComponentTypeLists.map, ObjectIdElement.map, Ty.mapList_eq, NamedType.mapList_eq, ComponentType.mapList_eq, Elements.mapList_eq, IntersectionElements.mapList_eq, IntersectionElements.mapListList_eq, singleElementConstraint_map, List.map_append, List.map_cons, List.map_nil, Option.map_some, Option.map_none]

theorem ruleAgree_121 : RuleAgree f g 121 := by
  intro lhs rhs h p p' d d' v v' hp3 hp2 hpc hk hv
  cases h
  have h1 : (d 1).namedBit.map f = (d' 1).namedBit := hk 0 _ rfl
  show (action 121 p d v).namedBitList.map (NamedBit.map f) = (action 121 p' d' v').namedBitList
  have e1 : (action 121 p d v).namedBitList = ([(d 1).namedBit]) := rfl
  have e2 : (action 121 p' d' v').namedBitList = ([(d' 1).namedBit]) := rfl
  rw [e1, e2] <;> simp only [← h1, Ty.map, NamedType.map, ComponentType.map, Constraint.map, ConstraintSpec.map, IntersectionElements.map, Elements.map, Value.map, Tag.map, NamedBit.map, RangeEndpoint.map, GlobalModuleReference.map, SymbolsFromModule.map, Assignment.map, ModuleBody.map, ComponentTypeLists.map, ObjectIdElement.map, Ty.mapList_eq, NamedType.mapList_eq, ComponentType.mapList_eq, Elements.mapList_eq, IntersectionElements.mapList_eq, IntersectionElements.mapListList_eq, singleElementConstraint_map, List.map_append, List.map_cons, List.map_nil, Option.map_some, Option.map_none]

theorem ruleAgree_122 : RuleAgree f g 122 := by
  intro lhs rhs h p p' d d' v v' hp3 hp2 hpc hk hv
  cases h
  have h1 : (d 1).namedBitList.map (NamedBit.map f) = (d' 1).namedBitList := hk 0 _ rfl
  have h3 : (d 3).namedBit.map f = (d' 3).namedBit := hk 2 _ rfl
  show (action 122 p d v).namedBitList.map (NamedBit.map f) = (action 122 p' d' v').namedBitList
  have e1 : (action 122 p d v).namedBitList = ((d 1).namedBitList ++ [(d 3).namedBit]) := rfl
  have e2 : (action 122 p' d' v').namedBitList = ((d' 1).namedBitList ++ [(d' 3).namedBit]) := rfl
  rw [e1, e2] <;> simp only [← h1, ← h3, Ty.map, NamedType.map, ComponentType.map, Constraint.map, ConstraintSpec.map, IntersectionElements.map, Elements.map, Value.map, Tag.map, NamedBit.map, RangeEndpoint.map, GlobalModuleReference.map, SymbolsFromModule.map, Assignment.map, ModuleBody.map, ComponentTypeLists.map, ObjectIdElement.map, Ty.mapList_eq, NamedType.mapList_eq, ComponentType.mapList_eq, Elements.mapList_eq, IntersectionElements.mapList_eq, IntersectionElements.mapListList_eq, singleElementConstraint_map, List.map_append, List.map_cons, List.map_nil, Option.map_some, Option.map_none]

theorem ruleAgree_123 : RuleAgree f g 123 := by
  intro lhs rhs h p p' d d' v v' hp3 hp2 hpc hk hv
  cases h
  have h1 : (d 1).name = (d' 1).name := hk 0 _ rfl
  have h3 : (d 3).number = (d' 3).number := hk 2 _ rfl
  show (action 123 p d v).namedBit.map f = (action 123 p' d' v').namedBit
  have e1 : (action 123 p d v).namedBit = (⟨(d 1).name, .number (d 3).number⟩) := rfl
  have e2 : (action 123 p' d' v').namedBit = (⟨(d' 1).name, .number (d' 3).number⟩) := rfl
  rw [e1, e2] <;> simp only [← h1, ← h3, Ty.map, NamedType.map, ComponentType.map, Constraint.map, ConstraintSpec.map, IntersectionElements.map, Elements.map, Value.map, Tag.map, NamedBit.map, RangeEndpoint.map, GlobalModuleReference.map, SymbolsFromModule.map, Assignment.map, ModuleBody.map, ComponentTypeLists.map, ObjectIdElement.map, Ty.mapList_eq, NamedType.mapList_eq, ComponentType.mapList_eq, Elements.mapList_eq, IntersectionElements.mapList_eq, IntersectionElements.mapListList_eq, singleElementConstraint_map, List.map_append, List.map_cons, List.map_nil, Option.map_some, Option.map_none]

theorem ruleAgree_124 : RuleAgree f g 124 := by
  intro lhs rhs h p p' d d' v v' hp3 hp2 hpc hk hv
  cases h
  have h1 : (d 1).name = (d' 1).name := hk 0 _ rfl
  have h3 : (d 3).definedValue = (d' 3).definedValue := hk 2 _ rfl
  show (action 124 p d v).namedBit.map f = (action 124 p' d' v').namedBit
  have e1 : (action 124 p d v).namedBit = (⟨(d 1).name, .defined (d 3).definedValue⟩) := rfl
  have e2 : (action 124 p' d' v').namedBit = (⟨(d' 1).name, .defined (d' 3).definedValue⟩) := rfl
  rw [e1, e2] <;> simp only [← h1, ← h3, Ty.map, NamedType.map, ComponentType.map, Constraint.map, ConstraintSpec.map, IntersectionElements.map, Elements.map, Value.map, Tag.map, NamedBit.map, RangeEndpoint.map, GlobalModuleReference.map, SymbolsFromModule.map, Assignment.map, ModuleBody.map, ComponentTypeLists.map, ObjectIdElement.map, Ty.mapList_eq, NamedType.mapList_eq, ComponentType.mapList_eq, Elements.mapList_eq, IntersectionElements.mapList_eq, IntersectionElements.mapListList_eq, singleElementConstraint_map, List.map_append, List.map_cons, List.map_nil, Option.map_some, Option.map_none]

theorem ruleAgree_125 : RuleAgree f g 125 := by
  intro lhs rhs h p p' d d' v v' hp3 hp2 hpc hk hv
  cases h
  show (action 125 p d v).type.map f g = (action 125 p' d' v').type
  have e1 : (action 125 p d v).type = (.octetString) := rfl
  have e2 : (action 125 p' d' v').type = (.octetString) := rfl
  rw [e1, e2] <;> simp only [Ty.map, NamedType.map, ComponentType.map, Constraint.map, ConstraintSpec.map, IntersectionElements.map, Elements.map, Value.map, Tag.map, NamedBit.map, RangeEndpoint.map, GlobalModuleReference.map, SymbolsFromModule.map, Assignment.map, ModuleBody.map, ComponentTypeLists.map, ObjectIdElement.map, Ty.mapList_eq, NamedType.mapList_eq, ComponentType.mapList_eq, Elements.mapList_eq, IntersectionElements.mapList_eq, IntersectionElements.mapListList_eq, singleElementConstraint_map, List.map_append, List.map_cons, List.map_nil, Option.map_some, Option.map_none]

theorem ruleAgree_126 : RuleAgree f g 126 := by
  intro lhs rhs h p p' d d' v v' hp3 hp2 hpc hk hv
  cases h
  show (action 126 p d v).type.map f g = (action 126 p' d' v').type
  have e1 : (action 126 p d v).type = (.null) := rfl
  have e2 : (action 126 p' d' v').type = (.null) := rfl
  rw [e1, e2] <;> simp only [Ty.map, NamedType.map, ComponentType.map, Constraint.map, ConstraintSpec.map, IntersectionElements.map, Elements.map, Value.map, Tag.map, NamedBit.map, RangeEndpoint.map, GlobalModuleReference.map, SymbolsFromModule.map, Assignment.map, ModuleBody.map, ComponentTypeLists.map, ObjectIdElement.map, Ty.mapList_eq, NamedType.mapList_eq, ComponentType.mapList_eq, Elements.mapList_eq, IntersectionElements.mapList_eq, IntersectionElements.mapListList_eq, singleElementConstraint_map, List.map_append, List.map_cons, List.map_nil, Option.map_some, Option.map_none]

theorem ruleAgree_127 : RuleAgree f g 127 := by
  intro lhs rhs h p p' d d' v v' hp3 hp2 hpc hk hv
  cases h
  show (action 127 p d v).type.map f g = (action 127 p' d' v').type
  have e1 : (action 127 p d v).type = (.sequence [] []) := rfl
  have e2 : (action 127 p' d' v').type = (.sequence [] []) := rfl
  rw [e1, e2] <;> simp only [Ty.map, NamedType.map, ComponentType.map, Constraint.map, ConstraintSpec.map, IntersectionElements.map, Elements.map, Value.map, Tag.map, NamedBit.map, RangeEndpoint.map, GlobalModuleReference.map, SymbolsFromModule.map, Assignment.map, ModuleBody.map, ComponentTypeLists.map, ObjectIdElement.map, Ty.mapList_eq, NamedType.mapList_eq, ComponentType.mapList_eq, Elements.mapList_eq, IntersectionElements.mapList_eq, IntersectionElements.mapListList_eq, singleElementConstraint_map, List.map_append, List.map_cons, List.map_nil, Option.map_some, Option.map_none]

theorem ruleAgree_128 : RuleAgree f g 128 := by
  intro lhs rhs h p p' d d' v v' hp3 hp2 hpc hk hv
  cases h
  show (action 128 p d v).type.map f g = (action 128 p' d' v').type
  have e1 : (action 128 p d v).type = (.sequence [] []) := rfl
  have e2 : (action 128 p' d' v').type = (.sequence [] []) := rfl
  rw [e1, e2] <;> simp only [Ty.map, NamedType.map, ComponentType.map, Constraint.map, ConstraintSpec.map, IntersectionElements.map, Elements.map, Value.map, Tag.map, NamedBit.map, RangeEndpoint.map, GlobalModuleReference.map, SymbolsFromModule.map, Assignment.map, ModuleBody.map, ComponentTypeLists.map, ObjectIdElement.map, Ty.mapList_eq, NamedType.mapList_eq, ComponentType.mapList_eq, Elements.mapList_eq, IntersectionElements.mapList_eq, IntersectionElements.mapListList_eq, singleElementConstraint_map, List.map_append, List.map_cons, List.map_nil, Option.map_some, Option.map_none]

theorem ruleAgree_129 : RuleAgree f g 129 := by
  intro lhs rhs h p p' d d' v v' hp3 hp2 hpc hk hv
  cases h
  have h3 : (d 3).componentTypeLists.map f g = (d' 3).componentTypeLists := hk 2 _ rfl
  show (action 129 p d v).type.map f g = (action 129 p' d' v').type
  have e1 : (action 129 p d v).type = (.sequence ((d 3).componentTypeLists.components ++ (d 3).componentTypeLists.trailingComponents) (d 3).componentTypeLists.extensionAdditions) := rfl
  have e2 : (action 129 p' d' v').type = (.sequence ((d' 3).componentTypeLists.components ++ (d' 3).componentTypeLists.trailingComponents) (d' 3).componentTypeLists.extensionAdditions) := rfl
  rw [e1, e2] <;> simp only [← h3, Ty.map, NamedType.map, ComponentType.map, Constraint.map, ConstraintSpec.map, IntersectionElements.map, Elements.map, Value.map, Tag.map, NamedBit.map, RangeEndpoint.map, GlobalModuleReference.map, SymbolsFromModule.map, Assignment.map, ModuleBody.map, ComponentTypeLists.map, ObjectIdElement.map, Ty.mapList_eq, NamedType.mapList_eq, ComponentType.mapList_eq, Elements.mapList_eq, IntersectionElements.mapList_eq, IntersectionElements.mapListList_eq, singleElementConstraint_map, List.map_append, List.map_cons, List.map_nil, Option.map_some, Option.map_none]

theorem ruleAgree_130 : RuleAgree f g 130 := by
  intro lhs rhs h p p' d d' v v' hp3 hp2 hpc hk hv
  cases h; exact True.intro

theorem ruleAgree_131 : RuleAgree f g 131 := by
  intro lhs rhs h p p' d d' v v' hp3 hp2 hpc hk hv
  cases h; exact True.intro

theorem ruleAgree_132 : RuleAgree f g 132 := by
  intro lhs rhs h p p' d d' v v' hp3 hp2 hpc hk hv
  cases h; exact True.intro

theorem ruleAgree_133 : RuleAgree f g 133 := by
  intro lhs rhs h p p' d d' v v' hp3 hp2 hpc hk hv
  cases h; exact True.intro

theorem ruleAgree_134 : RuleAgree f g 134 := by
  intro lhs rhs h p p' d d' v v' hp3 hp2 hpc hk hv
  cases h
  have h1 : ComponentType.mapList f g (d 1).componentTypeList = (d' 1).componentTypeList := hk 0 _ rfl
  show (action 134 p d v).componentTypeLists.map f g = (action 134 p' d' v').componentTypeLists
  have e1 : (action 134 p d v).componentTypeLists = ({ components := (d 1).componentTypeList }) := rfl
  have e2 : (action 134 p' d' v').componentTypeLists = ({ components := (d' 1).componentTypeList }) := rfl
  rw [e1, e2] <;> simp only [← h1, Ty.map, NamedType.map, ComponentType.map, Constraint.map, ConstraintSpec.map, IntersectionElements.map, Elements.map, Value.map, Tag.map, NamedBit.map, RangeEndpoint.map, GlobalModuleReference.map, SymbolsFromModule.map, Assignment.map, ModuleBody.map, ComponentTypeLists.map, ObjectIdElement.map, Ty.mapList_eq, NamedType.mapList_eq, ComponentType.mapList_eq, Elements.mapList_eq, IntersectionElements.mapList_eq, IntersectionElements.mapListList_eq, singleElementConstraint_map, List.map_append, List.map_cons, List.map_nil, Option.map_some, Option.map_none]

theorem ruleAgree_135 : RuleAgree f g 135 := by
  intro lhs rhs h p p' d d' v v' hp3 hp2 hpc hk hv
  cases h
  have h1 : ComponentType.mapList f g (d 1).componentTypeList = (d' 1).componentTypeList := hk 0 _ rfl
  have h4 : ComponentType.mapList f g (d 4).extensionAdditions = (d' 4).extensionAdditions := hk 3 _ rfl
  show (action 135 p d v).componentTypeLists.map f g = (action 135 p' d' v').componentTypeLists
  have e1 : (action 135 p d v).componentTypeLists = ({ components := (d 1).componentTypeList, extensionAdditions := (d 4).extensionAdditions }) := rfl
  have e2 : (action 135 p' d' v').componentTypeLists = ({ components := (d' 1).componentTypeList, extensionAdditions := (d' 4).extensionAdditions }) := rfl
  rw [e1, e2] <;> simp only [← h1, ← h4, Ty.map, NamedType.map, ComponentType.map, Constraint.map, ConstraintSpec.map, IntersectionElements.map, Elements.map, Value.map, Tag.map, NamedBit.map, RangeEndpoint.map, GlobalModuleReference.map, SymbolsFromModule.map, Assignment.map, ModuleBody.map, ComponentTypeLists.map, ObjectIdElement.map, Ty.mapList_eq, NamedType.mapList_eq, ComponentType.mapList_eq, Elements.mapList_eq, IntersectionElements.mapList_eq, IntersectionElements.mapListList_eq, singleElementConstraint_map, List.map_append, List.map_cons, List.map_nil, Option.map_some, Option.map_none]

theorem ruleAgree_136 : RuleAgree f g 136 := by
  intro lhs rhs h p p' d d' v v' hp3 hp2 hpc hk hv
  cases h
  have h1 : ComponentType.mapList f g (d 1).componentTypeList = (d' 1).componentTypeList := hk 0 _ rfl
  have h4 : ComponentType.mapList f g (d 4).extensionAdditions = (d' 4).extensionAdditions := hk 3 _ rfl
  have h7 : ComponentType.mapList f g (d 7).componentTypeList = (d' 7).componentTypeList := hk 6 _ rfl
  show (action 136 p d v).componentTypeLists.map f g = (action 136 p' d' v').componentTypeLists
  have e1 : (action 136 p d v).componentTypeLists = (⟨(d 1).componentTypeList, (d 4).extensionAdditions, (d 7).componentTypeList⟩) := rfl
  have e2 : (action 136 p' d' v').componentTypeLists = (⟨(d' 1).componentTypeList, (d' 4).extensionAdditions, (d' 7).componentTypeList⟩) := rfl
  rw [e1, e2] <;> simp only [← h1, ← h4, ← h7, Ty.map, NamedType.map, ComponentType.map, Constraint.map, ConstraintSpec.map, IntersectionElements.map, Elements.map, Value.map, Tag.map, NamedBit.map, RangeEndpoint.map, GlobalModuleReference.map, SymbolsFromModule.map, Assignment.map, ModuleBody.map, ComponentTypeLists.map, ObjectIdElement.map, Ty.mapList_eq, NamedType.mapList_eq, ComponentType.mapList_eq, Elements.mapList_eq, IntersectionElements.mapList_eq, IntersectionElements.mapListList_eq, singleElementConstraint_map, List.map_append, List.map_cons, List.map_nil, Option.map_some, Option.map_none]

theorem ruleAgree_137 : RuleAgree f g 137 := by
  intro lhs rhs h p p' d d' v v' hp3 hp2 hpc hk hv
  cases h
  obtain ⟨rfl, rfl⟩ := hv (by simp)
  have h1 : ComponentType.mapList f g (d 1).componentTypeList = (d' 1).componentTypeList := hk 0 _ rfl
  exact h1

theorem ruleAgree_138 : RuleAgree f g 138 := by
  intro lhs rhs h p p' d d' v v' hp3 hp2 hpc hk hv
  cases h; exact True.intro

theorem ruleAgree_139 : RuleAgree f g 139 := by
  intro lhs rhs h p p' d d' v v' hp3 hp2 hpc hk hv
  cases h
  have h2 : ComponentType.mapList f g (d 2).extensionAdditions = (d' 2).extensionAdditions := hk 1 _ rfl
  show ComponentType.mapList f g (action 139 p d v).extensionAdditions = (action 139 p' d' v').extensionAdditions
  have e1 : (action 139 p d v).extensionAdditions = ((d 2).extensionAdditions) := rfl
  have e2 : (action 139 p' d' v').extensionAdditions = ((d' 2).extensionAdditions) := rfl
  rw [e1, e2] <;> simp only [← h2, Ty.map, NamedType.map, ComponentType.map, Constraint.map, ConstraintSpec.map, IntersectionElements.map, Elements.map, Value.map, Tag.map, NamedBit.map, RangeEndpoint.map, GlobalModuleReference.map, SymbolsFromModule.map, Assignment.map, ModuleBody.map, ComponentTypeLists.map, ObjectIdElement.map, Ty.mapList_eq, NamedType.mapList_eq, ComponentType.mapList_eq, Elements.mapList_eq, IntersectionElements.mapList_eq, IntersectionElements.mapListList_eq, singleElementConstraint_map, List.map_append, List.map_cons, List.map_nil, Option.map_some, Option.map_none]

theorem ruleAgree_140 : RuleAgree f g 140 := by
  intro lhs rhs h p p' d d' v v' hp3 hp2 hpc hk hv
  cases h
  show ComponentType.mapList f g (action 140 p d v).extensionAdditions = (action 140 p' d' v').extensionAdditions
  have e1 : (action 140 p d v).extensionAdditions = ([]) := rfl
  have e2 : (action 140 p' d' v').extensionAdditions = ([]) := rfl
  rw [e1, e2] <;> simp only [Ty.map, NamedType.map, ComponentType.map, Constraint.map, ConstraintSpec.map, IntersectionElements.map, Elements.map, Value.map, Tag.map, NamedBit.map, RangeEndpoint.map, GlobalModuleReference.map, SymbolsFromModule.map, Assignment.map, ModuleBody.map, ComponentTypeLists.map, ObjectIdElement.map, Ty.mapList_eq, NamedType.mapList_eq, ComponentType.mapList_eq, Elements.mapList_eq, IntersectionElements.mapList_eq, IntersectionElements.mapListList_eq, singleElementConstraint_map, List.map_append, List.map_cons, List.map_nil, Option.map_some, Option.map_none]

theorem ruleAgree_141 : RuleAgree f g 141 := by
  intro lhs rhs h p p' d d' v v' hp3 hp2 hpc hk hv
  cases h
  have h1 : ComponentType.mapList f g (d 1).extensionAdditions = (d' 1).extensionAdditions := hk 0 _ rfl
  show ComponentType.mapList f g (action 141 p d v).extensionAdditions = (action 141 p' d' v').extensionAdditions
  have e1 : (action 141 p d v).extensionAdditions = ((d 1).extensionAdditions) := rfl
  have e2 : (action 141 p' d' v').extensionAdditions = ((d' 1).extensionAdditions) := rfl
  rw [e1, e2] <;> simp only [← h1, Ty.map, NamedType.map, ComponentType.map, Constraint.map, ConstraintSpec.map, IntersectionElements.map, Elements.map, Value.map, Tag.map, NamedBit.map, RangeEndpoint.map, GlobalModuleReference.map, SymbolsFromModule.map, Assignment.map, ModuleBody.map, ComponentTypeLists.map, ObjectIdElement.map, Ty.mapList_eq, NamedType.mapList_eq, ComponentType.mapList_eq, Elements.mapList_eq, IntersectionElements.mapList_eq, IntersectionElements.mapListList_eq, singleElementConstraint_map, List.map_append, List.map_cons, List.map_nil, Option.map_some, Option.map_none]

theorem ruleAgree_142 : RuleAgree f g 142 := by
  intro lhs rhs h p p' d d' v v' hp3 hp2 hpc hk hv
  cases h
  have h1 : ComponentType.mapList f g (d 1).extensionAdditions = (d' 1).extensionAdditions := hk 0 _ rfl
  have h3 : ComponentType.mapList f g (d 3).extensionAdditions = (d' 3).extensionAdditions := hk 2 _ rfl
  show ComponentType.mapList f g (action 142 p d v).extensionAdditions = (action 142 p' d' v').extensionAdditions
  have e1 : (action 142 p d v).extensionAdditions = ((d 1).extensionAdditions ++ (d 3).extensionAdditions) := rfl
  have e2 : (action 142 p' d' v').extensionAdditions = ((d' 1).extensionAdditions ++ (d' 3).extensionAdditions) := rfl
  rw [e1, e2] <;> simp only [← h1, ← h3, Ty.map, NamedType.map, ComponentType.map, Constraint.map, ConstraintSpec.map, IntersectionElements.map, Elements.map, Value.map, Tag.map, NamedBit.map, RangeEndpoint.map, GlobalModuleReference.map, SymbolsFromModule.map, Assignment.map, ModuleBody.map, ComponentTypeLists.map, ObjectIdElement.map, Ty.mapList_eq, NamedType.mapList_eq, ComponentType.mapList_eq, Elements.mapList_eq, IntersectionElements.mapList_eq, IntersectionElements.mapListList_eq, singleElementConstraint_map, List.map_append, List.map_cons, List.map_nil, Option.map_some, Option.map_none]

theorem ruleAgree_143 : RuleAgree f g 143 := by
  intro lhs rhs h p p' d d' v v' hp3 hp2 hpc hk hv
  cases h
  have h1 : (d 1).componentType.map f g = (d' 1).componentType := hk 0 _ rfl
  show ComponentType.mapList f g (action 143 p d v).extensionAdditions = (action 143 p' d' v').extensionAdditions
  have e1 : (action 143 p d v).extensionAdditions = ([(d 1).componentType]) := rfl
  have e2 : (action 143 p' d' v').extensionAdditions = ([(d' 1).componentType]) := rfl
  rw [e1, e2] <;> simp only [← h1, Ty.map, NamedType.map, ComponentType.map, Constraint.map, ConstraintSpec.map, IntersectionElements.map, Elements.map, Value.map, Tag.map, NamedBit.map, RangeEndpoint.map, GlobalModuleReference.map, SymbolsFromModule.map, Assignment.map, ModuleBody.map, ComponentTypeLists.map, ObjectIdElement.map, Ty.mapList_eq, NamedType.mapList_eq, ComponentType.mapList_eq, Elements.mapList_eq, IntersectionElements.mapList_eq, IntersectionElements.mapListList_eq, singleElementConstraint_map, List.map_append, List.map_cons, List.map_nil, Option.map_some, Option.map_none]

theorem ruleAgree_144 : RuleAgree f g 144 := by
  intro lhs rhs h p p' d d' v v' hp3 hp2 hpc hk hv
  cases h
  show ComponentType.mapList f g (action 144 p d v).extensionAdditions = (action 144 p' d' v').extensionAdditions
  have e1 : (action 144 p d v).extensionAdditions = ([]) := rfl
  have e2 : (action 144 p' d' v').extensionAdditions = ([]) := rfl
  rw [e1, e2] <;> simp only [Ty.map, NamedType.map, ComponentType.map, Constraint.map, ConstraintSpec.map, IntersectionElements.map, Elements.map, Value.map, Tag.map, NamedBit.map, RangeEndpoint.map, GlobalModuleReference.map, SymbolsFromModule.map, Assignment.map, ModuleBody.map, ComponentTypeLists.map, ObjectIdElement.map, Ty.mapList_eq, NamedType.mapList_eq, ComponentType.mapList_eq, Elements.mapList_eq, IntersectionElements.mapList_eq, IntersectionElements.mapListList_eq, singleElementConstraint_map, List.map_append, List.map_cons, List.map_nil, Option.map_some, Option.map_none]

theorem ruleAgree_145 : RuleAgree f g 145 := by
  intro lhs rhs h p p' d d' v v' hp3 hp2 hpc hk hv
  cases h; exact True.intro

theorem ruleAgree_146 : RuleAgree f g 146 := by
  intro lhs rhs h p p' d d' v v' hp3 hp2 hpc hk hv
  cases h; exact True.intro

theorem ruleAgree_147 : RuleAgree f g 147 := by
  intro lhs rhs h p p' d d' v v' hp3 hp2 hpc hk hv
  cases h; exact True.intro

theorem ruleAgree_148 : RuleAgree f g 148 := by
  intro lhs rhs h p p' d d' v v' hp3 hp2 hpc hk hv
  cases h
  have h1 : (d 1).componentType.map f g = (d' 1).componentType := hk 0 _ rfl
  show ComponentType.mapList f g (action 148 p d v).componentTypeList = (action 148 p' d' v').componentTypeList
  have e1 : (action 148 p d v).componentTypeList = ([(d 1).componentType]) := rfl
  have e2 : (action 148 p' d' v').componentTypeList = ([(d' 1).componentType]) := rfl
  rw [e1, e2] <;> simp only [← h1, Ty.map, NamedType.map, ComponentType.map, Constraint.map, ConstraintSpec.map, IntersectionElements.map, Elements.map, Value.map, Tag.map, NamedBit.map, RangeEndpoint.map, GlobalModuleReference.map, SymbolsFromModule.map, Assignment.map, ModuleBody.map, ComponentTypeLists.map, ObjectIdElement.map, Ty.mapList_eq, NamedType.mapList_eq, ComponentType.mapList_eq, Elements.mapList_eq, IntersectionElements.mapList_eq, IntersectionElements.mapListList_eq, singleElementConstraint_map, List.map_append, List.map_cons, List.map_nil, Option.map_some, Option.map_none]

theorem ruleAgree_149 : RuleAgree f g 149 := by
  intro lhs rhs h p p' d d' v v' hp3 hp2 hpc hk hv
  cases h
  have h1 : ComponentType.mapList f g (d 1).componentTypeList = (d' 1).componentTypeList := hk 0 _ rfl
  have h3 : (d 3).componentType.map f g = (d' 3).componentType := hk 2 _ rfl
  show ComponentType.mapList f g (action 149 p d v).componentTypeList = (action 149 p' d' v').componentTypeList
  have e1 : (action 149 p d v).componentTypeList = ((d 1).componentTypeList ++ [(d 3).componentType]) := rfl
  have e2 : (action 149 p' d' v').componentTypeList = ((d' 1).componentTypeList ++ [(d' 3).componentType]) := rfl
  rw [e1, e2] <;> simp only [← h1, ← h3, Ty.map, NamedType.map, ComponentType.map, Constraint.map, ConstraintSpec.map, IntersectionElements.map, Elements.map, Value.map, Tag.map, NamedBit.map, RangeEndpoint.map, GlobalModuleReference.map, SymbolsFromModule.map, Assignment.map, ModuleBody.map, ComponentTypeLists.map, ObjectIdElement.map, Ty.mapList_eq, NamedType.mapList_eq, ComponentType.mapList_eq, Elements.mapList_eq, IntersectionElements.mapList_eq, IntersectionElements.mapListList_eq, singleElementConstraint_map, List.map_append, List.map_cons, List.map_nil, Option.map_some, Option.map_none]

theorem ruleAgree_150 : RuleAgree f g 150 := by
  intro lhs rhs h p p' d d' v v' hp3 hp2 hpc hk hv
  cases h
  have h1 : (d 1).namedType.map f g = (d' 1).namedType := hk 0 _ rfl
  show (action 150 p d v).componentType.map f g = (action 150 p' d' v').componentType
  have e1 : (action 150 p d v).componentType = (.named (d 1).namedType false none) := rfl
  have e2 : (action 150 p' d' v').componentType = (.named (d' 1).namedType false none) := rfl
  rw [e1, e2] <;> simp only [← h1, Ty.map, NamedType.map, ComponentType.map, Constraint.map, ConstraintSpec.map, IntersectionElements.map, Elements.map, Value.map, Tag.map, NamedBit.map, RangeEndpoint.map, GlobalModuleReference.map, SymbolsFromModule.map, Assignment.map, ModuleBody.map, ComponentTypeLists.map, ObjectIdElement.map, Ty.mapList_eq, NamedType.mapList_eq, ComponentType.mapList_eq, Elements.mapList_eq, IntersectionElements.mapList_eq, IntersectionElements.mapListList_eq, singleElementConstraint_map, List.map_append, List.map_cons, List.map_nil, Option.map_some, Option.map_none]

theorem ruleAgree_151 : RuleAgree f g 151 := by
  intro lhs rhs h p p' d d' v v' hp3 hp2 hpc hk hv
  cases h
  have h1 : (d 1).namedType.map f g = (d' 1).namedType := hk 0 _ rfl
  show (action 151 p d v).componentType.map f g = (action 151 p' d' v').componentType
  have e1 : (action 151 p d v).componentType = (.named (d 1).namedType true none) := rfl
  have e2 : (action 151 p' d' v').componentType = (.named (d' 1).namedType true none) := rfl
  rw [e1, e2] <;> simp only [← h1, Ty.map, NamedType.map, ComponentType.map, Constraint.map, ConstraintSpec.map, IntersectionElements.map, Elements.map, Value.map, Tag.map, NamedBit.map, RangeEndpoint.map, GlobalModuleReference.map, SymbolsFromModule.map, Assignment.map, ModuleBody.map, ComponentTypeLists.map, ObjectIdElement.map, Ty.mapList_eq, NamedType.mapList_eq, ComponentType.mapList_eq, Elements.mapList_eq, IntersectionElements.mapList_eq, IntersectionElements.mapListList_eq, singleElementConstraint_map, List.map_append, List.map_cons, List.map_nil, Option.map_some, Option.map_none]

theorem ruleAgree_152 : RuleAgree f g 152 := by
  intro lhs rhs h p p' d d' v v' hp3 hp2 hpc hk hv
  cases h
  have h1 : (d 1).namedType.map f g = (d' 1).namedType := hk 0 _ rfl
  show (action 152 p d v).componentType.map f g = (action 152 p' d' v').componentType
  have e1 : (action 152 p d v).componentType = (.named (d 1).namedType false (some p.value3)) := rfl
  have e2 : (action 152 p' d' v').componentType = (.named (d' 1).namedType false (some p'.value3)) := rfl
  rw [e1, e2] <;> simp only [← h1, hp3 rfl, Ty.map, NamedType.map, ComponentType.map, Constraint.map, ConstraintSpec.map, IntersectionElements.map, Elements.map, Value.map, Tag.map, NamedBit.map, RangeEndpoint.map, GlobalModuleReference.map, SymbolsFromModule.map, Assignment.map, ModuleBody.map, ComponentTypeLists.map, ObjectIdElement.map, Ty.mapList_eq, NamedType.mapList_eq, ComponentType.mapList_eq, Elements.mapList_eq, IntersectionElements.mapList_eq, IntersectionElements.mapListList_eq, singleElementConstraint_map, List.map_append, List.map_cons, List.map_nil, Option.map_some, Option.map_none]

theorem ruleAgree_153 : RuleAgree f g 153 := by
  intro lhs rhs h p p' d d' v v' hp3 hp2 hpc hk hv
  cases h
  have h3 : (d 3).type.map f g = (d' 3).type := hk 2 _ rfl
  show (action 153 p d v).componentType.map f g = (action 153 p' d' v').componentType
  have e1 : (action 153 p d v).componentType = (.componentsOf (d 3).type) := rfl
  have e2 : (action 153 p' d' v').componentType = (.componentsOf (d' 3).type) := rfl
  rw [e1, e2] <;> simp only [← h3, Ty.map, NamedType.map, ComponentType.map, Constraint.map, ConstraintSpec.map, IntersectionElements.map, Elements.map, Value.map, Tag.map, NamedBit.map, RangeEndpoint.map, GlobalModuleReference.map, SymbolsFromModule.map, Assignment.map, ModuleBody.map, ComponentTypeLists.map, ObjectIdElement.map, Ty.mapList_eq, NamedType.mapList_eq, ComponentType.mapList_eq, Elements.mapList_eq, IntersectionElements.mapList_eq, IntersectionElements.mapListList_eq, singleElementConstraint_map, List.map_append, List.map_cons, List.map_nil, Option.map_some, Option.map_none]

theorem ruleAgree_154 : RuleAgree f g 154 := by
  intro lhs rhs h p p' d d' v v' hp3 hp2 hpc hk hv
  cases h
  show (action 154 p d v).type.map f g = (action 154 p' d' v').type
  have e1 : (action 154 p d v).type = (.set [] []) := rfl
  have e2 : (action 154 p' d' v').type = (.set [] []) := rfl
  rw [e1, e2] <;> simp only [Ty.map, NamedType.map, ComponentType.map, Constraint.map, ConstraintSpec.map, IntersectionElements.map, Elements.map, Value.map, Tag.map, NamedBit.map, RangeEndpoint.map, GlobalModuleReference.map, SymbolsFromModule.map, Assignment.map, ModuleBody.map, ComponentTypeLists.map, ObjectIdElement.map, Ty.mapList_eq, NamedType.mapList_eq, ComponentType.mapList_eq, Elements.mapList_eq, IntersectionElements.mapList_eq, IntersectionElements.mapListList_eq, singleElementConstraint_map, List.map_append, List.map_cons, List.map_nil, Option.map_some, Option.map_none]

theorem ruleAgree_155 : RuleAgree f g 155 := by
  intro lhs rhs h p p' d d' v v' hp3 hp2 hpc hk hv
  cases h
  show (action 155 p d v).type.map f g = (action 155 p' d' v').type
  have e1 : (action 155 p d v).type = (.set [] []) := rfl
  have e2 : (action 155 p' d' v').type = (.set [] []) := rfl
  rw [e1, e2] <;> simp only [Ty.map, NamedType.map, ComponentType.map, Constraint.map, ConstraintSpec.map, IntersectionElements.map, Elements.map, Value.map, Tag.map, NamedBit.map, RangeEndpoint.map, GlobalModuleReference.map, SymbolsFromModule.map, Assignment.map, ModuleBody.map, ComponentTypeLists.map, ObjectIdElement.map, Ty.mapList_eq, NamedType.mapList_eq, ComponentType.mapList_eq, Elements.mapList_eq, IntersectionElements.mapList_eq, IntersectionElements.mapListList_eq, singleElementConstraint_map, List.map_append, List.map_cons, List.map_nil, Option.map_some, Option.map_none]

theorem ruleAgree_156 : RuleAgree f g 156 := by
  intro lhs rhs h p p' d d' v v' hp3 hp2 hpc hk hv
  cases h
  have h3 : (d 3).componentTypeLists.map f g = (d' 3).componentTypeLists := hk 2 _ rfl
  show (action 156 p d v).type.map f g = (action 156 p' d' v').type
  have e1 : (action 156 p d v).type = (.set ((d 3).componentTypeLists.components ++ (d 3).componentTypeLists.trailingComponents) (d 3).componentTypeLists.extensionAdditions) := rfl
  have e2 : (action 156 p' d' v').type = (.set ((d' 3).componentTypeLists.components ++ (d' 3).componentTypeLists.trailingComponents) (d' 3).componentTypeLists.extensionAdditions) := rfl
  rw [e1, e2] <;> simp only [← h3, Ty.map, NamedType.map, ComponentType.map, Constraint.map, ConstraintSpec.map, IntersectionElements.map, Elements.map, Value.map, Tag.map, NamedBit.map, RangeEndpoint.map, GlobalModuleReference.map, SymbolsFromModule.map, Assignment.map, ModuleBody.map, ComponentTypeLists.map, ObjectIdElement.map, Ty.mapList_eq, NamedType.mapList_eq, ComponentType.mapList_eq, Elements.mapList_eq, IntersectionElements.mapList_eq, IntersectionElements.mapListList_eq, singleElementConstraint_map, List.map_append, List.map_cons, List.map_nil, Option.map_some, Option.map_none]

theorem ruleAgree_157 : RuleAgree f g 157 := by
  intro lhs rhs h p p' d d' v v' hp3 hp2 hpc hk hv
  cases h
  have h3 : (d 3).type.map f g = (d' 3).type := hk 2 _ rfl
  show (action 157 p d v).type.map f g = (action 157 p' d' v').type
  have e1 : (action 157 p d v).type = (.setOf (d 3).type) := rfl
  have e2 : (action 157 p' d' v').type = (.setOf (d' 3).type) := rfl
  rw [e1, e2] <;> simp only [← h3, Ty.map, NamedType.map, ComponentType.map, Constraint.map, ConstraintSpec.map, IntersectionElements.map, Elements.map, Value.map, Tag.map, NamedBit.map, RangeEndpoint.map, GlobalModuleReference.map, SymbolsFromModule.map, Assignment.map, ModuleBody.map, ComponentTypeLists.map, ObjectIdElement.map, Ty.mapList_eq, NamedType.mapList_eq, ComponentType.mapList_eq, Elements.mapList_eq, IntersectionElements.mapList_eq, IntersectionElements.mapListList_eq, singleElementConstraint_map, List.map_append, List.map_cons, List.map_nil, Option.map_some, Option.map_none]

theorem ruleAgree_158 : RuleAgree f g 158 := by
  intro lhs rhs h p p' d d' v v' hp3 hp2 hpc hk hv
  cases h
  have h3 : (d 3).namedType.map f g = (d' 3).namedType := hk 2 _ rfl
  show (action 158 p d v).type.map f g = (action 158 p' d' v').type
  have e1 : (action 158 p d v).type = (.setOf (.named (d 3).namedType)) := rfl
  have e2 : (action 158 p' d' v').type = (.setOf (.named (d' 3).namedType)) := rfl
  rw [e1, e2] <;> simp only [← h3, Ty.map, NamedType.map, ComponentType.map, Constraint.map, ConstraintSpec.map, IntersectionElements.map, Elements.map, Value.map, Tag.map, NamedBit.map, RangeEndpoint.map, GlobalModuleReference.map, SymbolsFromModule.map, Assignment.map, ModuleBody.map, ComponentTypeLists.map, ObjectIdElement.map, Ty.mapList_eq, NamedType.mapList_eq, ComponentType.mapList_eq, Elements.mapList_eq, IntersectionElements.mapList_eq, IntersectionElements.mapListList_eq, singleElementConstraint_map, List.map_append, List.map_cons, List.map_nil, Option.map_some, Option.map_none]

theorem ruleAgree_159 : RuleAgree f g 159 := by
  intro lhs rhs h p p' d d' v v' hp3 hp2 hpc hk hv
  cases h
  show (action 159 p d v).type.map f g = (action 159 p' d' v').type
  have e1 : (action 159 p d v).type = (.any []) := rfl
  have e2 : (action 159 p' d' v').type = (.any []) := rfl
  rw [e1, e2] <;> simp only [Ty.map, NamedType.map, ComponentType.map, Constraint.map, ConstraintSpec.map, IntersectionElements.map, Elements.map, Value.map, Tag.map, NamedBit.map, RangeEndpoint.map, GlobalModuleReference.map, SymbolsFromModule.map, Assignment.map, ModuleBody.map, ComponentTypeLists.map, ObjectIdElement.map, Ty.mapList_eq, NamedType.mapList_eq, ComponentType.mapList_eq, Elements.mapList_eq, IntersectionElements.mapList_eq, IntersectionElements.mapListList_eq, singleElementConstraint_map, List.map_append, List.map_cons, List.map_nil, Option.map_some, Option.map_none]

theorem ruleAgree_160 : RuleAgree f g 160 := by
  intro lhs rhs h p p' d d' v v' hp3 hp2 hpc hk hv
  cases h
  have h4 : (d 4).name = (d' 4).name := hk 3 _ rfl
  show (action 160 p d v).type.map f g = (action 160 p' d' v').type
  have e1 : (action 160 p d v).type = (.any (d 4).name) := rfl
  have e2 : (action 160 p' d' v').type = (.any (d' 4).name) := rfl
  rw [e1, e2] <;> simp only [← h4, Ty.map, NamedType.map, ComponentType.map, Constraint.map, ConstraintSpec.map, IntersectionElements.map, Elements.map, Value.map, Tag.map, NamedBit.map, RangeEndpoint.map, GlobalModuleReference.map, SymbolsFromModule.map, Assignment.map, ModuleBody.map, ComponentTypeLists.map, ObjectIdElement.map, Ty.mapList_eq, NamedType.mapList_eq, ComponentType.mapList_eq, Elements.mapList_eq, IntersectionElements.mapList_eq, IntersectionElements.mapListList_eq, singleElementConstraint_map, List.map_append, List.map_cons, List.map_nil, Option.map_some, Option.map_none]

theorem ruleAgree_161 : RuleAgree f g 161 := by
  intro lhs rhs h p p' d d' v v' hp3 hp2 hpc hk hv
  cases h
  have h3 : (NamedType.mapList f g (d 3).choiceType.1, Ty.mapList f g (d 3).choiceType.2) = (d' 3).choiceType := hk 2 _ rfl
  show (action 161 p d v).type.map f g = (action 161 p' d' v').type
  have e1 : (action 161 p d v).type = (.choice (d 3).choiceType.1 (d 3).choiceType.2) := rfl
  have e2 : (action 161 p' d' v').type = (.choice (d' 3).choiceType.1 (d' 3).choiceType.2) := rfl
  rw [e1, e2] <;> simp only [← h3, Ty.map, NamedType.map, ComponentType.map, Constraint.map, ConstraintSpec.map, IntersectionElements.map, Elements.map, Value.map, Tag.map, NamedBit.map, RangeEndpoint.map, GlobalModuleReference.map, SymbolsFromModule.map, Assignment.map, ModuleBody.map, ComponentTypeLists.map, ObjectIdElement.map, Ty.mapList_eq, NamedType.mapList_eq, ComponentType.mapList_eq, Elements.mapList_eq, IntersectionElements.mapList_eq, IntersectionElements.mapListList_eq, singleElementConstraint_map, List.map_append, List.map_cons, List.map_nil, Option.map_some, Option.map_none]

theorem ruleAgree_162 : RuleAgree f g 162 := by
  intro lhs rhs h p p' d d' v v' hp3 hp2 hpc hk hv
  cases h
  have h1 : NamedType.mapList f g (d 1).alternativeTypeList = (d' 1).alternativeTypeList := hk 0 _ rfl
  have h4 : Ty.mapList f g (d 4).extensionAdditionAlternativesList = (d' 4).extensionAdditionAlternativesList := hk 3 _ rfl
  show (NamedType.mapList f g (action 162 p d v).choiceType.1, Ty.mapList f g (action 162 p d v).choiceType.2) = (action 162 p' d' v').choiceType
  have e1 : (action 162 p d v).choiceType = (((d 1).alternativeTypeList, (d 4).extensionAdditionAlternativesList)) := rfl
  have e2 : (action 162 p' d' v').choiceType = (((d' 1).alternativeTypeList, (d' 4).extensionAdditionAlternativesList)) := rfl
  rw [e1, e2] <;> simp only [← h1, ← h4, Ty.map, NamedType.map, ComponentType.map, Constraint.map, ConstraintSpec.map, IntersectionElements.map, Elements.map, Value.map, Tag.map, NamedBit.map, RangeEndpoint.map, GlobalModuleReference.map, SymbolsFromModule.map, Assignment.map, ModuleBody.map, ComponentTypeLists.map, ObjectIdElement.map, Ty.mapList_eq, NamedType.mapList_eq, ComponentType.mapList_eq, Elements.mapList_eq, IntersectionElements.mapList_eq, IntersectionElements.mapListList_eq, singleElementConstraint_map, List.map_append, List.map_cons, List.map_nil, Option.map_some, Option.map_none]

theorem ruleAgree_163 : RuleAgree f g 163 := by
  intro lhs rhs h p p' d d' v v' hp3 hp2 hpc hk hv
  cases h
  have h1 : NamedType.mapList f g (d 1).alternativeTypeList = (d' 1).alternativeTypeList := hk 0 _ rfl
  show (NamedType.mapList f g (action 163 p d v).choiceType.1, Ty.mapList f g (action 163 p d v).choiceType.2) = (action 163 p' d' v').choiceType
  have e1 : (action 163 p d v).choiceType = (((d 1).alternativeTypeList, [])) := rfl
  have e2 : (action 163 p' d' v').choiceType = (((d' 1).alternativeTypeList, [])) := rfl
  rw [e1, e2] <;> simp only [← h1, Ty.map, NamedType.map, ComponentType.map, Constraint.map, ConstraintSpec.map, IntersectionElements.map, Elements.map, Value.map, Tag.map, NamedBit.map, RangeEndpoint.map, GlobalModuleReference.map, SymbolsFromModule.map, Assignment.map, ModuleBody.map, ComponentTypeLists.map, ObjectIdElement.map, Ty.mapList_eq, NamedType.mapList_eq, ComponentType.mapList_eq, Elements.mapList_eq, IntersectionElements.mapList_eq, IntersectionElements.mapListList_eq, singleElementConstraint_map, List.map_append, List.map_cons, List.map_nil, Option.map_some, Option.map_none]

theorem ruleAgree_164 : RuleAgree f g 164 := by
  intro lhs rhs h p p' d d' v v' hp3 hp2 hpc hk hv
  cases h
  have h2 : Ty.mapList f g (d 2).extensionAdditionAlternativesList = (d' 2).extensionAdditionAlternativesList := hk 1 _ rfl
  show (NamedType.mapList f g (action 164 p d v).choiceType.1, Ty.mapList f g (action 164 p d v).choiceType.2) = (action 164 p' d' v').choiceType
  have e1 : (action 164 p d v).choiceType = (([], (d 2).extensionAdditionAlternativesList)) := rfl
  have e2 : (action 164 p' d' v').choiceType = (([], (d' 2).extensionAdditionAlternativesList)) := rfl
  rw [e1, e2] <;> simp only [← h2, Ty.map, NamedType.map, ComponentType.map, Constraint.map, ConstraintSpec.map, IntersectionElements.map, Elements.map, Value.map, Tag.map, NamedBit.map, RangeEndpoint.map, GlobalModuleReference.map, SymbolsFromModule.map, Assignment.map, ModuleBody.map, ComponentTypeLists.map, ObjectIdElement.map, Ty.mapList_eq, NamedType.mapList_eq, ComponentType.mapList_eq, Elements.mapList_eq, IntersectionElements.mapList_eq, IntersectionElements.mapListList_eq, singleElementConstraint_map, List.map_append, List.map_cons, List.map_nil, Option.map_some, Option.map_none]

theorem ruleAgree_165 : RuleAgree f g 165 := by
  intro lhs rhs h p p' d d' v v' hp3 hp2 hpc hk hv
  cases h
  obtain ⟨rfl, rfl⟩ := hv (by simp)
  have h1 : NamedType.mapList f g (d 1).alternativeTypeList = (d' 1).alternativeTypeList := hk 0 _ rfl
  exact h1

theorem ruleAgree_166 : RuleAgree f g 166 := by
  intro lhs rhs h p p' d d' v v' hp3 hp2 hpc hk hv
  cases h
  have h2 : Ty.mapList f g (d 2).extensionAdditionAlternativesList = (d' 2).extensionAdditionAlternativesList := hk 1 _ rfl
  show Ty.mapList f g (action 166 p d v).extensionAdditionAlternativesList = (action 166 p' d' v').extensionAdditionAlternativesList
  have e1 : (action 166 p d v).extensionAdditionAlternativesList = ((d 2).extensionAdditionAlternativesList) := rfl
  have e2 : (action 166 p' d' v').extensionAdditionAlternativesList = ((d' 2).extensionAdditionAlternativesList) := rfl
  rw [e1, e2] <;> simp only [← h2, Ty.map, NamedType.map, ComponentType.map, Constraint.map, ConstraintSpec.map, IntersectionElements.map, Elements.map, Value.map, Tag.map, NamedBit.map, RangeEndpoint.map, GlobalModuleReference.map, SymbolsFromModule.map, Assignment.map, ModuleBody.map, ComponentTypeLists.map, ObjectIdElement.map, Ty.mapList_eq, NamedType.mapList_eq, ComponentType.mapList_eq, Elements.mapList_eq, IntersectionElements.mapList_eq, IntersectionElements.mapListList_eq, singleElementConstraint_map, List.map_append, List.map_cons, List.map_nil, Option.map_some, Option.map_none]

theorem ruleAgree_167 : RuleAgree f g 167 := by
  intro lhs rhs h p p' d d' v v' hp3 hp2 hpc hk hv
  cases h
  show Ty.mapList f g (action 167 p d v).extensionAdditionAlternativesList = (action 167 p' d' v').extensionAdditionAlternativesList
  have e1 : (action 167 p d v).extensionAdditionAlternativesList = ([]) := rfl
  have e2 : (action 167 p' d' v').extensionAdditionAlternativesList = ([]) := rfl
  rw [e1, e2] <;> simp only [Ty.map, NamedType.map, ComponentType.map, Constraint.map, ConstraintSpec.map, IntersectionElements.map, Elements.map, Value.map, Tag.map, NamedBit.map, RangeEndpoint.map, GlobalModuleReference.map, SymbolsFromModule.map, Assignment.map, ModuleBody.map, ComponentTypeLists.map, ObjectIdElement.map, Ty.mapList_eq, NamedType.mapList_eq, ComponentType.mapList_eq, Elements.mapList_eq, IntersectionElements.mapList_eq, IntersectionElements.mapListList_eq, singleElementConstraint_map, List.map_append, List.map_cons, List.map_nil, Option.map_some, Option.map_none]

theorem ruleAgree_168 : RuleAgree f g 168 := by
  intro lhs rhs h p p' d d' v v' hp3 hp2 hpc hk hv
  cases h
  have h1 : (d 1).extensionAdditionAlternative.map f g = (d' 1).extensionAdditionAlternative := hk 0 _ rfl
  show Ty.mapList f g (action 168 p d v).extensionAdditionAlternativesList = (action 168 p' d' v').extensionAdditionAlternativesList
  have e1 : (action 168 p d v).extensionAdditionAlternativesList = ([(d 1).extensionAdditionAlternative]) := rfl
  have e2 : (action 168 p' d' v').extensionAdditionAlternativesList = ([(d' 1).extensionAdditionAlternative]) := rfl
  rw [e1, e2] <;> simp only [← h1, Ty.map, NamedType.map, ComponentType.map, Constraint.map, ConstraintSpec.map, IntersectionElements.map, Elements.map, Value.map, Tag.map, NamedBit.map, RangeEndpoint.map, GlobalModuleReference.map, SymbolsFromModule.map, Assignment.map, ModuleBody.map, ComponentTypeLists.map, ObjectIdElement.map, Ty.mapList_eq, NamedType.mapList_eq, ComponentType.mapList_eq, Elements.mapList_eq, IntersectionElements.mapList_eq, IntersectionElements.mapListList_eq, singleElementConstraint_map, List.map_append, List.map_cons, List.map_nil, Option.map_some, Option.map_none]

theorem ruleAgree_169 : RuleAgree f g 169 := by
  intro lhs rhs h p p' d d' v v' hp3 hp2 hpc hk hv
  cases h
  have h1 : Ty.mapList f g (d 1).extensionAdditionAlternativesList = (d' 1).extensionAdditionAlternativesList := hk 0 _ rfl
  have h3 : (d 3).extensionAdditionAlternative.map f g = (d' 3).extensionAdditionAlternative := hk 2 _ rfl
  show Ty.mapList f g (action 169 p d v).extensionAdditionAlternativesList = (action 169 p' d' v').extensionAdditionAlternativesList
  have e1 : (action 169 p d v).extensionAdditionAlternativesList = ((d 1).extensionAdditionAlternativesList ++ [(d 3).extensionAdditionAlternative]) := rfl
  have e2 : (action 169 p' d' v').extensionAdditionAlternativesList = ((d' 1).extensionAdditionAlternativesList ++ [(d' 3).extensionAdditionAlternative]) := rfl
  rw [e1, e2] <;> simp only [← h1, ← h3, Ty.map, NamedType.map, ComponentType.map, Constraint.map, ConstraintSpec.map, IntersectionElements.map, Elements.map, Value.map, Tag.map, NamedBit.map, RangeEndpoint.map, GlobalModuleReference.map, SymbolsFromModule.map, Assignment.map, ModuleBody.map, ComponentTypeLists.map, ObjectIdElement.map, Ty.mapList_eq, NamedType.mapList_eq, ComponentType.mapList_eq, Elements.mapList_eq, IntersectionElements.mapList_eq, IntersectionElements.mapListList_eq, singleElementConstraint_map, List.map_append, List.map_cons, List.map_nil, Option.map_some, Option.map_none]

theorem ruleAgree_170 : RuleAgree f g 170 := by
  intro lhs rhs h p p' d d' v v' hp3 hp2 hpc hk hv
  cases h
  have h1 : (d 1).namedType.map f g = (d' 1).namedType := hk 0 _ rfl
  show (action 170 p d v).extensionAdditionAlternative.map f g = (action 170 p' d' v').extensionAdditionAlternative
  have e1 : (action 170 p d v).extensionAdditionAlternative = (.named (d 1).namedType) := rfl
  have e2 : (action 170 p' d' v').extensionAdditionAlternative = (.named (d' 1).namedType) := rfl
  rw [e1, e2] <;> simp only [← h1, Ty.map, NamedType.map, ComponentType.map, Constraint.map, ConstraintSpec.map, IntersectionElements.map, Elements.map, Value.map, Tag.map, NamedBit.map, RangeEndpoint.map, GlobalModuleReference.map, SymbolsFromModule.map, Assignment.map, ModuleBody.map, ComponentTypeLists.map, ObjectIdElement.map, Ty.mapList_eq, NamedType.mapList_eq, ComponentType.mapList_eq, Elements.mapList_eq, IntersectionElements.mapList_eq, IntersectionElements.mapListList_eq, singleElementConstraint_map, List.map_append, List.map_cons, List.map_nil, Option.map_some, Option.map_none]

theorem ruleAgree_171 : RuleAgree f g 171 := by
  intro lhs rhs h p p' d d' v v' hp3 hp2 hpc hk hv
  cases h; exact True.intro

theorem ruleAgree_172 : RuleAgree f g 172 := by
  intro lhs rhs h p p' d d' v v' hp3 hp2 hpc hk hv
  cases h
  have h1 : (d 1).namedType.map f g = (d' 1).namedType := hk 0 _ rfl
  show NamedType.mapList f g (action 172 p d v).alternativeTypeList = (action 172 p' d' v').alternativeTypeList
  have e1 : (action 172 p d v).alternativeTypeList = ([(d 1).namedType]) := rfl
  have e2 : (action 172 p' d' v').alternativeTypeList = ([(d' 1).namedType]) := rfl
  rw [e1, e2] <;> simp only [← h1, Ty.map, NamedType.map, ComponentType.map, Constraint.map, ConstraintSpec.map, IntersectionElements.map, Elements.map, Value.map, Tag.map, NamedBit.map, RangeEndpoint.map, GlobalModuleReference.map, SymbolsFromModule.map, Assignment.map, ModuleBody.map, ComponentTypeLists.map, ObjectIdElement.map, Ty.mapList_eq, NamedType.mapList_eq, ComponentType.mapList_eq, Elements.mapList_eq, IntersectionElements.mapList_eq, IntersectionElements.mapListList_eq, singleElementConstraint_map, List.map_append, List.map_cons, List.map_nil, Option.map_some, Option.map_none]

theorem ruleAgree_173 : RuleAgree f g 173 := by
  intro lhs rhs h p p' d d' v v' hp3 hp2 hpc hk hv
  cases h
  have h1 : NamedType.mapList f g (d 1).alternativeTypeList = (d' 1).alternativeTypeList := hk 0 _ rfl
  have h3 : (d 3).namedType.map f g = (d' 3).namedType := hk 2 _ rfl
  show NamedType.mapList f g (action 173 p d v).alternativeTypeList = (action 173 p' d' v').alternativeTypeList
  have e1 : (action 173 p d v).alternativeTypeList = ((d 1).alternativeTypeList ++ [(d 3).namedType]) := rfl
  have e2 : (action 173 p' d' v').alternativeTypeList = ((d' 1).alternativeTypeList ++ [(d' 3).namedType]) := rfl
  rw [e1, e2] <;> simp only [← h1, ← h3, Ty.map, NamedType.map, ComponentType.map, Constraint.map, ConstraintSpec.map, IntersectionElements.map, Elements.map, Value.map, Tag.map, NamedBit.map, RangeEndpoint.map, GlobalModuleReference.map, SymbolsFromModule.map, Assignment.map, ModuleBody.map, ComponentTypeLists.map, ObjectIdElement.map, Ty.mapList_eq, NamedType.mapList_eq, ComponentType.mapList_eq, Elements.mapList_eq, IntersectionElements.mapList_eq, IntersectionElements.mapListList_eq, singleElementConstraint_map, List.map_append, List.map_cons, List.map_nil, Option.map_some, Option.map_none]

theorem ruleAgree_174 : RuleAgree f g 174 := by
  intro lhs rhs h p p' d d' v v' hp3 hp2 hpc hk hv
  cases h
  have h1 : (d 1).tag.map f = (d' 1).tag := hk 0 _ rfl
  have h2 : (d 2).type.map f g = (d' 2).type := hk 1 _ rfl
  show (action 174 p d v).type.map f g = (action 174 p' d' v').type
  have e1 : (action 174 p d v).type = (.tagged (d 1).tag (d 2).type 0 false) := rfl
  have e2 : (action 174 p' d' v').type = (.tagged (d' 1).tag (d' 2).type 0 false) := rfl
  rw [e1, e2] <;> simp only [← h1, ← h2, Ty.map, NamedType.map, ComponentType.map, Constraint.map, ConstraintSpec.map, IntersectionElements.map, Elements.map, Value.map, Tag.map, NamedBit.map, RangeEndpoint.map, GlobalModuleReference.map, SymbolsFromModule.map, Assignment.map, ModuleBody.map, ComponentTypeLists.map, ObjectIdElement.map, Ty.mapList_eq, NamedType.mapList_eq, ComponentType.mapList_eq, Elements.mapList_eq, IntersectionElements.mapList_eq, IntersectionElements.mapListList_eq, singleElementConstraint_map, List.map_append, List.map_cons, List.map_nil, Option.map_some, Option.map_none]

theorem ruleAgree_175 : RuleAgree f g 175 := by
  intro lhs rhs h p p' d d' v v' hp3 hp2 hpc hk hv
  cases h
  have h1 : (d 1).tag.map f = (d' 1).tag := hk 0 _ rfl
  have h3 : (d 3).type.map f g = (d' 3).type := hk 2 _ rfl
  show (action 175 p d v).type.map f g = (action 175 p' d' v').type
  have e1 : (action 175 p d v).type = (.tagged (d 1).tag (d 3).type TAGS_IMPLICIT true) := rfl
  have e2 : (action 175 p' d' v').type = (.tagged (d' 1).tag (d' 3).type TAGS_IMPLICIT true) := rfl
  rw [e1, e2] <;> simp only [← h1, ← h3, Ty.map, NamedType.map, ComponentType.map, Constraint.map, ConstraintSpec.map, IntersectionElements.map, Elements.map, Value.map, Tag.map, NamedBit.map, RangeEndpoint.map, GlobalModuleReference.map, SymbolsFromModule.map, Assignment.map, ModuleBody.map, ComponentTypeLists.map, ObjectIdElement.map, Ty.mapList_eq, NamedType.mapList_eq, ComponentType.mapList_eq, Elements.mapList_eq, IntersectionElements.mapList_eq, IntersectionElements.mapListList_eq, singleElementConstraint_map, List.map_append, List.map_cons, List.map_nil, Option.map_some, Option.map_none]

theorem ruleAgree_176 : RuleAgree f g 176 := by
  intro lhs rhs h p p' d d' v v' hp3 hp2 hpc hk hv
  cases h
  have h1 : (d 1).tag.map f = (d' 1).tag := hk 0 _ rfl
  have h3 : (d 3).type.map f g = (d' 3).type := hk 2 _ rfl
  show (action 176 p d v).type.map f g = (action 176 p' d' v').type
  have e1 : (action 176 p d v).type = (.tagged (d 1).tag (d 3).type TAGS_EXPLICIT true) := rfl
  have e2 : (action 176 p' d' v').type = (.tagged (d' 1).tag (d' 3).type TAGS_EXPLICIT true) := rfl
  rw [e1, e2] <;> simp only [← h1, ← h3, Ty.map, NamedType.map, ComponentType.map, Constraint.map, ConstraintSpec.map, IntersectionElements.map, Elements.map, Value.map, Tag.map, NamedBit.map, RangeEndpoint.map, GlobalModuleReference.map, SymbolsFromModule.map, Assignment.map, ModuleBody.map, ComponentTypeLists.map, ObjectIdElement.map, Ty.mapList_eq, NamedType.mapList_eq, ComponentType.mapList_eq, Elements.mapList_eq, IntersectionElements.mapList_eq, IntersectionElements.mapListList_eq, singleElementConstraint_map, List.map_append, List.map_cons, List.map_nil, Option.map_some, Option.map_none]

theorem ruleAgree_177 : RuleAgree f g 177 := by
  intro lhs rhs h p p' d d' v v' hp3 hp2 hpc hk hv
  cases h
  have h2 : (d 2).cls = (d' 2).cls := hk 1 _ rfl
  have h3 : (d 3).value.map f = (d' 3).value := hk 2 _ rfl
  show (action 177 p d v).tag.map f = (action 177 p' d' v').tag
  have e1 : (action 177 p d v).tag = (⟨(d 2).cls, (d 3).value⟩) := rfl
  have e2 : (action 177 p' d' v').tag = (⟨(d' 2).cls, (d' 3).value⟩) := rfl
  rw [e1, e2] <;> simp only [← h2, ← h3, Ty.map, NamedType.map, ComponentType.map, Constraint.map, ConstraintSpec.map, IntersectionElements.map, Elements.map, Value.map, Tag.map, NamedBit.map, RangeEndpoint.map, GlobalModuleReference.map, SymbolsFromModule.map, Assignment.map, ModuleBody.map, ComponentTypeLists.map, ObjectIdElement.map, Ty.mapList_eq, NamedType.mapList_eq, ComponentType.mapList_eq, Elements.mapList_eq, IntersectionElements.mapList_eq, IntersectionElements.mapListList_eq, singleElementConstraint_map, List.map_append, List.map_cons, List.map_nil, Option.map_some, Option.map_none]

theorem ruleAgree_178 : RuleAgree f g 178 := by
  intro lhs rhs h p p' d d' v v' hp3 hp2 hpc hk hv
  cases h
  have h1 : (d 1).number = (d' 1).number := hk 0 _ rfl
  show (action 178 p d v).value.map f = (action 178 p' d' v').value
  have e1 : (action 178 p d v).value = (.number (d 1).number) := rfl
  have e2 : (action 178 p' d' v').value = (.number (d' 1).number) := rfl
  rw [e1, e2] <;> simp only [← h1, Ty.map, NamedType.map, ComponentType.map, Constraint.map, ConstraintSpec.map, IntersectionElements.map, Elements.map, Value.map, Tag.map, NamedBit.map, RangeEndpoint.map, GlobalModuleReference.map, SymbolsFromModule.map, Assignment.map, ModuleBody.map, ComponentTypeLists.map, ObjectIdElement.map, Ty.mapList_eq, NamedType.mapList_eq, ComponentType.mapList_eq, Elements.mapList_eq, IntersectionElements.mapList_eq, IntersectionElements.mapListList_eq, singleElementConstraint_map, List.map_append, List.map_cons, List.map_nil, Option.map_some, Option.map_none]

theorem ruleAgree_179 : RuleAgree f g 179 := by
  intro lhs rhs h p p' d d' v v' hp3 hp2 hpc hk hv
  cases h
  have h1 : (d 1).definedValue = (d' 1).definedValue := hk 0 _ rfl
  show (action 179 p d v).value.map f = (action 179 p' d' v').value
  have e1 : (action 179 p d v).value = (.defined (d 1).definedValue) := rfl
  have e2 : (action 179 p' d' v').value = (.defined (d' 1).definedValue) := rfl
  rw [e1, e2] <;> simp only [← h1, Ty.map, NamedType.map, ComponentType.map, Constraint.map, ConstraintSpec.map, IntersectionElements.map, Elements.map, Value.map, Tag.map, NamedBit.map, RangeEndpoint.map, GlobalModuleReference.map, SymbolsFromModule.map, Assignment.map, ModuleBody.map, ComponentTypeLists.map, ObjectIdElement.map, Ty.mapList_eq, NamedType.mapList_eq, ComponentType.mapList_eq, Elements.mapList_eq, IntersectionElements.mapList_eq, IntersectionElements.mapListList_eq, singleElementConstraint_map, List.map_append, List.map_cons, List.map_nil, Option.map_some, Option.map_none]

theorem ruleAgree_180 : RuleAgree f g 180 := by
  intro lhs rhs h p p' d d' v v' hp3 hp2 hpc hk hv
  cases h
  show (action 180 p d v).cls = (action 180 p' d' v').cls
  have e1 : (action 180 p d v).cls = (CLASS_UNIVERSAL) := rfl
  have e2 : (action 180 p' d' v').cls = (CLASS_UNIVERSAL) := rfl
  rw [e1, e2] <;> simp only [Ty.map, NamedType.map, ComponentType.map, Constraint.map, ConstraintSpec.map, IntersectionElements.map, Elements.map, Value.map, Tag.map, NamedBit.map, RangeEndpoint.map, GlobalModuleReference.map, SymbolsFromModule.map, Assignment.map, ModuleBody.map, ComponentTypeLists.map, ObjectIdElement.map, Ty.mapList_eq, NamedType.mapList_eq, ComponentType.mapList_eq, Elements.mapList_eq, IntersectionElements.mapList_eq, IntersectionElements.mapListList_eq, singleElementConstraint_map, List.map_append, List.map_cons, List.map_nil, Option.map_some, Option.map_none]

theorem ruleAgree_181 : RuleAgree f g 181 := by
  intro lhs rhs h p p' d d' v v' hp3 hp2 hpc hk hv
  cases h
  show (action 181 p d v).cls = (action 181 p' d' v').cls
  have e1 : (action 181 p d v).cls = (CLASS_APPLICATION) := rfl
  have e2 : (action 181 p' d' v').cls = (CLASS_APPLICATION) := rfl
  rw [e1, e2] <;> simp only [Ty.map, NamedType.map, ComponentType.map, Constraint.map, ConstraintSpec.map, IntersectionElements.map, Elements.map, Value.map, Tag.map, NamedBit.map, RangeEndpoint.map, GlobalModuleReference.map, SymbolsFromModule.map, Assignment.map, ModuleBody.map, ComponentTypeLists.map, ObjectIdElement.map, Ty.mapList_eq, NamedType.mapList_eq, ComponentType.mapList_eq, Elements.mapList_eq, IntersectionElements.mapList_eq, IntersectionElements.mapListList_eq, singleElementConstraint_map, List.map_append, List.map_cons, List.map_nil, Option.map_some, Option.map_none]

theorem ruleAgree_182 : RuleAgree f g 182 := by
  intro lhs rhs h p p' d d' v v' hp3 hp2 hpc hk hv
  cases h
  show (action 182 p d v).cls = (action 182 p' d' v').cls
  have e1 : (action 182 p d v).cls = (CLASS_PRIVATE) := rfl
  have e2 : (action 182 p' d' v').cls = (CLASS_PRIVATE) := rfl
  rw [e1, e2] <;> simp only [Ty.map, NamedType.map, ComponentType.map, Constraint.map, ConstraintSpec.map, IntersectionElements.map, Elements.map, Value.map, Tag.map, NamedBit.map, RangeEndpoint.map, GlobalModuleReference.map, SymbolsFromModule.map, Assignment.map, ModuleBody.map, ComponentTypeLists.map, ObjectIdElement.map, Ty.mapList_eq, NamedType.mapList_eq, ComponentType.mapList_eq, Elements.mapList_eq, IntersectionElements.mapList_eq, IntersectionElements.mapListList_eq, singleElementConstraint_map, List.map_append, List.map_cons, List.map_nil, Option.map_some, Option.map_none]

theorem ruleAgree_183 : RuleAgree f g 183 := by
  intro lhs rhs h p p' d d' v v' hp3 hp2 hpc hk hv
  cases h
  show (action 183 p d v).cls = (action 183 p' d' v').cls
  have e1 : (action 183 p d v).cls = (CLASS_CONTEXT_SPECIFIC) := rfl
  have e2 : (action 183 p' d' v').cls = (CLASS_CONTEXT_SPECIFIC) := rfl
  rw [e1, e2] <;> simp only [Ty.map, NamedType.map, ComponentType.map, Constraint.map, ConstraintSpec.map, IntersectionElements.map, Elements.map, Value.map, Tag.map, NamedBit.map, RangeEndpoint.map, GlobalModuleReference.map, SymbolsFromModule.map, Assignment.map, ModuleBody.map, ComponentTypeLists.map, ObjectIdElement.map, Ty.mapList_eq, NamedType.mapList_eq, ComponentType.mapList_eq, Elements.mapList_eq, IntersectionElements.mapList_eq, IntersectionElements.mapListList_eq, singleElementConstraint_map, List.map_append, List.map_cons, List.map_nil, Option.map_some, Option.map_none]

theorem ruleAgree_184 : RuleAgree f g 184 := by
  intro lhs rhs h p p' d d' v v' hp3 hp2 hpc hk hv
  cases h
  have h3 : (d 3).type.map f g = (d' 3).type := hk 2 _ rfl
  show (action 184 p d v).type.map f g = (action 184 p' d' v').type
  have e1 : (action 184 p d v).type = (.sequenceOf (d 3).type) := rfl
  have e2 : (action 184 p' d' v').type = (.sequenceOf (d' 3).type) := rfl
  rw [e1, e2] <;> simp only [← h3, Ty.map, NamedType.map, ComponentType.map, Constraint.map, ConstraintSpec.map, IntersectionElements.map, Elements.map, Value.map, Tag.map, NamedBit.map, RangeEndpoint.map, GlobalModuleReference.map, SymbolsFromModule.map, Assignment.map, ModuleBody.map, ComponentTypeLists.map, ObjectIdElement.map, Ty.mapList_eq, NamedType.mapList_eq, ComponentType.mapList_eq, Elements.mapList_eq, IntersectionElements.mapList_eq, IntersectionElements.mapListList_eq, singleElementConstraint_map, List.map_append, List.map_cons, List.map_nil, Option.map_some, Option.map_none]

theorem ruleAgree_185 : RuleAgree f g 185 := by
  intro lhs rhs h p p' d d' v v' hp3 hp2 hpc hk hv
  cases h
  have h3 : (d 3).namedType.map f g = (d' 3).namedType := hk 2 _ rfl
  show (action 185 p d v).type.map f g = (action 185 p' d' v').type
  have e1 : (action 185 p d v).type = (.sequenceOf (.named (d 3).namedType)) := rfl
  have e2 : (action 185 p' d' v').type = (.sequenceOf (.named (d' 3).namedType)) := rfl
  rw [e1, e2] <;> simp only [← h3, Ty.map, NamedType.map, ComponentType.map, Constraint.map, ConstraintSpec.map, IntersectionElements.map, Elements.map, Value.map, Tag.map, NamedBit.map, RangeEndpoint.map, GlobalModuleReference.map, SymbolsFromModule.map, Assignment.map, ModuleBody.map, ComponentTypeLists.map, ObjectIdElement.map, Ty.mapList_eq, NamedType.mapList_eq, ComponentType.mapList_eq, Elements.mapList_eq, IntersectionElements.mapList_eq, IntersectionElements.mapListList_eq, singleElementConstraint_map, List.map_append, List.map_cons, List.map_nil, Option.map_some, Option.map_none]

theorem ruleAgree_186 : RuleAgree f g 186 := by
  intro lhs rhs h p p' d d' v v' hp3 hp2 hpc hk hv
  cases h
  show (action 186 p d v).type.map f g = (action 186 p' d' v').type
  have e1 : (action 186 p d v).type = (.objectIdentifier) := rfl
  have e2 : (action 186 p' d' v').type = (.objectIdentifier) := rfl
  rw [e1, e2] <;> simp only [Ty.map, NamedType.map, ComponentType.map, Constraint.map, ConstraintSpec.map, IntersectionElements.map, Elements.map, Value.map, Tag.map, NamedBit.map, RangeEndpoint.map, GlobalModuleReference.map, SymbolsFromModule.map, Assignment.map, ModuleBody.map, ComponentTypeLists.map, ObjectIdElement.map, Ty.mapList_eq, NamedType.mapList_eq, ComponentType.mapList_eq, Elements.mapList_eq, IntersectionElements.mapList_eq, IntersectionElements.mapListList_eq, singleElementConstraint_map, List.map_append, List.map_cons, List.map_nil, Option.map_some, Option.map_none]

theorem ruleAgree_187 : RuleAgree f g 187 := by
  intro lhs rhs h p p' d d' v v' hp3 hp2 hpc hk hv
  cases h
  have h2 : (d 2).objectIdentifierValue.map (ObjectIdElement.map f) = (d' 2).objectIdentifierValue := hk 1 _ rfl
  show (action 187 p d v).objectIdentifierValue.map (ObjectIdElement.map f) = (action 187 p' d' v').objectIdentifierValue
  have e1 : (action 187 p d v).objectIdentifierValue = ((d 2).objectIdentifierValue) := rfl
  have e2 : (action 187 p' d' v').objectIdentifierValue = ((d' 2).objectIdentifierValue) := rfl
  rw [e1, e2] <;> simp only [← h2, Ty.map, NamedType.map, ComponentType.map, Constraint.map, ConstraintSpec.map, IntersectionElements.map, Elements.map, Value.map, Tag.map, NamedBit.map, RangeEndpoint.map, GlobalModuleReference.map, SymbolsFromModule.map, Assignment.map, ModuleBody.map, ComponentTypeLists.map, ObjectIdElement.map, Ty.mapList_eq, NamedType.mapList_eq, ComponentType.mapList_eq, Elements.mapList_eq, IntersectionElements.mapList_eq, IntersectionElements.mapListList_eq, singleElementConstraint_map, List.map_append, List.map_cons, List.map_nil, Option.map_some, Option.map_none]

theorem ruleAgree_188 : RuleAgree f g 188 := by
  intro lhs rhs h p p' d d' v v' hp3 hp2 hpc hk hv
  cases h
  have h3 : (d 3).objectIdentifierValue.map (ObjectIdElement.map f) = (d' 3).objectIdentifierValue := hk 2 _ rfl
  show (action 188 p d v).objectIdentifierValue.map (ObjectIdElement.map f) = (action 188 p' d' v').objectIdentifierValue
  have e1 : (action 188 p d v).objectIdentifierValue = ({ reference := some p.defined2 } :: (d 3).objectIdentifierValue) := rfl
  have e2 : (action 188 p' d' v').objectIdentifierValue = ({ reference := some p'.defined2 } :: (d' 3).objectIdentifierValue) := rfl
  rw [e1, e2] <;> simp only [← h3, hp2 rfl, Ty.map, NamedType.map, ComponentType.map, Constraint.map, ConstraintSpec.map, IntersectionElements.map, Elements.map, Value.map, Tag.map, NamedBit.map, RangeEndpoint.map, GlobalModuleReference.map, SymbolsFromModule.map, Assignment.map, ModuleBody.map, ComponentTypeLists.map, ObjectIdElement.map, Ty.mapList_eq, NamedType.mapList_eq, ComponentType.mapList_eq, Elements.mapList_eq, IntersectionElements.mapList_eq, IntersectionElements.mapListList_eq, singleElementConstraint_map, List.map_append, List.map_cons, List.map_nil, Option.map_some, Option.map_none]

theorem ruleAgree_189 : RuleAgree f g 189 := by
  intro lhs rhs h p p' d d' v v' hp3 hp2 hpc hk hv
  cases h
  have h1 : (d 1).objectIdElement.map f = (d' 1).objectIdElement := hk 0 _ rfl
  show (action 189 p d v).objectIdentifierValue.map (ObjectIdElement.map f) = (action 189 p' d' v').objectIdentifierValue
  have e1 : (action 189 p d v).objectIdentifierValue = ([(d 1).objectIdElement]) := rfl
  have e2 : (action 189 p' d' v').objectIdentifierValue = ([(d' 1).objectIdElement]) := rfl
  rw [e1, e2] <;> simp only [← h1, Ty.map, NamedType.map, ComponentType.map, Constraint.map, ConstraintSpec.map, IntersectionElements.map, Elements.map, Value.map, Tag.map, NamedBit.map, RangeEndpoint.map, GlobalModuleReference.map, SymbolsFromModule.map, Assignment.map, ModuleBody.map, ComponentTypeLists.map, ObjectIdElement.map, Ty.mapList_eq, NamedType.mapList_eq, ComponentType.mapList_eq, Elements.mapList_eq, IntersectionElements.mapList_eq, IntersectionElements.mapListList_eq, singleElementConstraint_map, List.map_append, List.map_cons, List.map_nil, Option.map_some, Option.map_none]

theorem ruleAgree_190 : RuleAgree f g 190 := by
  intro lhs rhs h p p' d d' v v' hp3 hp2 hpc hk hv
  cases h
  have h1 : (d 1).objectIdElement.map f = (d' 1).objectIdElement := hk 0 _ rfl
  have h2 : (d 2).objectIdentifierValue.map (ObjectIdElement.map f) = (d' 2).objectIdentifierValue := hk 1 _ rfl
  show (action 190 p d v).objectIdentifierValue.map (ObjectIdElement.map f) = (action 190 p' d' v').objectIdentifierValue
  have e1 : (action 190 p d v).objectIdentifierValue = ((d 1).objectIdElement :: (d 2).objectIdentifierValue) := rfl
  have e2 : (action 190 p' d' v').objectIdentifierValue = ((d' 1).objectIdElement :: (d' 2).objectIdentifierValue) := rfl
  rw [e1, e2] <;> simp only [← h1, ← h2, Ty.map, NamedType.map, ComponentType.map, Constraint.map, ConstraintSpec.map, IntersectionElements.map, Elements.map, Value.map, Tag.map, NamedBit.map, RangeEndpoint.map, GlobalModuleReference.map, SymbolsFromModule.map, Assignment.map, ModuleBody.map, ComponentTypeLists.map, ObjectIdElement.map, Ty.mapList_eq, NamedType.mapList_eq, ComponentType.mapList_eq, Elements.mapList_eq, IntersectionElements.mapList_eq, IntersectionElements.mapListList_eq, singleElementConstraint_map, List.map_append, List.map_cons, List.map_nil, Option.map_some, Option.map_none]

theorem ruleAgree_191 : RuleAgree f g 191 := by
  intro lhs rhs h p p' d d' v v' hp3 hp2 hpc hk hv
  cases h
  have h1 : (d 1).name = (d' 1).name := hk 0 _ rfl
  show (action 191 p d v).objectIdElement.map f = (action 191 p' d' v').objectIdElement
  have e1 : (action 191 p d v).objectIdElement = ({ name := (d 1).name }) := rfl
  have e2 : (action 191 p' d' v').objectIdElement = ({ name := (d' 1).name }) := rfl
  rw [e1, e2] <;> simp only [← h1, Ty.map, NamedType.map, ComponentType.map, Constraint.map, ConstraintSpec.map, IntersectionElements.map, Elements.map, Value.map, Tag.map, NamedBit.map, RangeEndpoint.map, GlobalModuleReference.map, SymbolsFromModule.map, Assignment.map, ModuleBody.map, ComponentTypeLists.map, ObjectIdElement.map, Ty.mapList_eq, NamedType.mapList_eq, ComponentType.mapList_eq, Elements.mapList_eq, IntersectionElements.mapList_eq, IntersectionElements.mapListList_eq, singleElementConstraint_map, List.map_append, List.map_cons, List.map_nil, Option.map_some, Option.map_none]

theorem ruleAgree_192 : RuleAgree f g 192 := by
  intro lhs rhs h p p' d d' v v' hp3 hp2 hpc hk hv
  cases h
  obtain ⟨rfl, rfl⟩ := hv (by simp)
  have h1 : (d 1).objectIdElement.map f = (d' 1).objectIdElement := hk 0 _ rfl
  exact h1

theorem ruleAgree_193 : RuleAgree f g 193 := by
  intro lhs rhs h p p' d d' v v' hp3 hp2 hpc hk hv
  cases h
  obtain ⟨rfl, rfl⟩ := hv (by simp)
  have h1 : (d 1).objectIdElement.map f = (d' 1).objectIdElement := hk 0 _ rfl
  exact h1

theorem ruleAgree_194 : RuleAgree f g 194 := by
  intro lhs rhs h p p' d d' v v' hp3 hp2 hpc hk hv
  cases h
  have h1 : (d 1).definedValue = (d' 1).definedValue := hk 0 _ rfl
  show (action 194 p d v).objectIdElement.map f = (action 194 p' d' v').objectIdElement
  have e1 : (action 194 p d v).objectIdElement = ({ reference := some (p.copy (d 1).definedValue) }) := rfl
  have e2 : (action 194 p' d' v').objectIdElement = ({ reference := some (p'.copy (d' 1).definedValue) }) := rfl
  rw [e1, e2] <;> simp only [← h1, hpc, Ty.map, NamedType.map, ComponentType.map, Constraint.map, ConstraintSpec.map, IntersectionElements.map, Elements.map, Value.map, Tag.map, NamedBit.map, RangeEndpoint.map, GlobalModuleReference.map, SymbolsFromModule.map, Assignment.map, ModuleBody.map, ComponentTypeLists.map, ObjectIdElement.map, Ty.mapList_eq, NamedType.mapList_eq, ComponentType.mapList_eq, Elements.mapList_eq, IntersectionElements.mapList_eq, IntersectionElements.mapListList_eq, singleElementConstraint_map, List.map_append, List.map_cons, List.map_nil, Option.map_some, Option.map_none]

theorem ruleAgree_195 : RuleAgree f g 195 := by
  intro lhs rhs h p p' d d' v v' hp3 hp2 hpc hk hv
  cases h
  have h1 : (d 1).number = (d' 1).number := hk 0 _ rfl
  show (action 195 p d v).objectIdElement.map f = (action 195 p' d' v').objectIdElement
  have e1 : (action 195 p d v).objectIdElement = ({ id := (d 1).number }) := rfl
  have e2 : (action 195 p' d' v').objectIdElement = ({ id := (d' 1).number }) := rfl
  rw [e1, e2] <;> simp only [← h1, Ty.map, NamedType.map, ComponentType.map, Constraint.map, ConstraintSpec.map, IntersectionElements.map, Elements.map, Value.map, Tag.map, NamedBit.map, RangeEndpoint.map, GlobalModuleReference.map, SymbolsFromModule.map, Assignment.map, ModuleBody.map, ComponentTypeLists.map, ObjectIdElement.map, Ty.mapList_eq, NamedType.mapList_eq, ComponentType.mapList_eq, Elements.mapList_eq, IntersectionElements.mapList_eq, IntersectionElements.mapListList_eq, singleElementConstraint_map, List.map_append, List.map_cons, List.map_nil, Option.map_some, Option.map_none]

theorem ruleAgree_196 : RuleAgree f g 196 := by
  intro lhs rhs h p p' d d' v v' hp3 hp2 hpc hk hv
  cases h
  have h1 : (d 1).definedValue = (d' 1).definedValue := hk 0 _ rfl
  show (action 196 p d v).objectIdElement.map f = (action 196 p' d' v').objectIdElement
  have e1 : (action 196 p d v).objectIdElement = ({ reference := some (p.copy (d 1).definedValue) }) := rfl
  have e2 : (action 196 p' d' v').objectIdElement = ({ reference := some (p'.copy (d' 1).definedValue) }) := rfl
  rw [e1, e2] <;> simp only [← h1, hpc, Ty.map, NamedType.map, ComponentType.map, Constraint.map, ConstraintSpec.map, IntersectionElements.map, Elements.map, Value.map, Tag.map, NamedBit.map, RangeEndpoint.map, GlobalModuleReference.map, SymbolsFromModule.map, Assignment.map, ModuleBody.map, ComponentTypeLists.map, ObjectIdElement.map, Ty.mapList_eq, NamedType.mapList_eq, ComponentType.mapList_eq, Elements.mapList_eq, IntersectionElements.mapList_eq, IntersectionElements.mapListList_eq, singleElementConstraint_map, List.map_append, List.map_cons, List.map_nil, Option.map_some, Option.map_none]

theorem ruleAgree_197 : RuleAgree f g 197 := by
  intro lhs rhs h p p' d d' v v' hp3 hp2 hpc hk hv
  cases h
  have h1 : (d 1).name = (d' 1).name := hk 0 _ rfl
  have h3 : (d 3).objectIdElement.map f = (d' 3).objectIdElement := hk 2 _ rfl
  show (action 197 p d v).objectIdElement.map f = (action 197 p' d' v').objectIdElement
  have e1 : (action 197 p d v).objectIdElement = (⟨(d 1).name, (d 3).objectIdElement.id, (d 3).objectIdElement.reference⟩) := rfl
  have e2 : (action 197 p' d' v').objectIdElement = (⟨(d' 1).name, (d' 3).objectIdElement.id, (d' 3).objectIdElement.reference⟩) := rfl
  rw [e1, e2] <;> simp only [← h1, ← h3, Ty.map, NamedType.map, ComponentType.map, Constraint.map, ConstraintSpec.map, IntersectionElements.map, Elements.map, Value.map, Tag.map, NamedBit.map, RangeEndpoint.map, GlobalModuleReference.map, SymbolsFromModule.map, Assignment.map, ModuleBody.map, ComponentTypeLists.map, ObjectIdElement.map, Ty.mapList_eq, NamedType.mapList_eq, ComponentType.mapList_eq, Elements.mapList_eq, IntersectionElements.mapList_eq, IntersectionElements.mapListList_eq, singleElementConstraint_map, List.map_append, List.map_cons, List.map_nil, Option.map_some, Option.map_none]

theorem ruleAgree_198 : RuleAgree f g 198 := by
  intro lhs rhs h p p' d d' v v' hp3 hp2 hpc hk hv
  cases h
  obtain ⟨rfl, rfl⟩ := hv (by simp)
  have h1 : (d 1).name = (d' 1).name := hk 0 _ rfl
  exact h1

theorem ruleAgree_199 : RuleAgree f g 199 := by
  intro lhs rhs h p p' d d' v v' hp3 hp2 hpc hk hv
  cases h
  obtain ⟨rfl, rfl⟩ := hv (by simp)
  have h1 : (d 1).type.map f g = (d' 1).type := hk 0 _ rfl
  exact h1

theorem ruleAgree_200 : RuleAgree f g 200 := by
  intro lhs rhs h p p' d d' v v' hp3 hp2 hpc hk hv
  cases h
  obtain ⟨rfl, rfl⟩ := hv (by simp)
  have h1 : (d 1).type.map f g = (d' 1).type := hk 0 _ rfl
  exact h1

theorem ruleAgree_201 : RuleAgree f g 201 := by
  intro lhs rhs h p p' d d' v v' hp3 hp2 hpc hk hv
  cases h
  show (action 201 p d v).type.map f g = (action 201 p' d' v').type
  have e1 : (action 201 p d v).type = (.restrictedString Tok.BMPString) := rfl
  have e2 : (action 201 p' d' v').type = (.restrictedString Tok.BMPString) := rfl
  rw [e1, e2] <;> simp only [Ty.map, NamedType.map, ComponentType.map, Constraint.map, ConstraintSpec.map, IntersectionElements.map, Elements.map, Value.map, Tag.map, NamedBit.map, RangeEndpoint.map, GlobalModuleReference.map, SymbolsFromModule.map, Assignment.map, ModuleBody.map, ComponentTypeLists.map, ObjectIdElement.map, Ty.mapList_eq, NamedType.mapList_eq, ComponentType.mapList_eq, Elements.mapList_eq, IntersectionElements.mapList_eq, IntersectionElements.mapListList_eq, singleElementConstraint_map, List.map_append, List.map_cons, List.map_nil, Option.map_some, Option.map_none]

theorem ruleAgree_202 : RuleAgree f g 202 := by
  intro lhs rhs h p p' d d' v v' hp3 hp2 hpc hk hv
  cases h
  show (action 202 p d v).type.map f g = (action 202 p' d' v').type
  have e1 : (action 202 p d v).type = (.restrictedString Tok.GeneralString) := rfl
  have e2 : (action 202 p' d' v').type = (.restrictedString Tok.GeneralString) := rfl
  rw [e1, e2] <;> simp only [Ty.map, NamedType.map, ComponentType.map, Constraint.map, ConstraintSpec.map, IntersectionElements.map, Elements.map, Value.map, Tag.map, NamedBit.map, RangeEndpoint.map, GlobalModuleReference.map, SymbolsFromModule.map, Assignment.map, ModuleBody.map, ComponentTypeLists.map, ObjectIdElement.map, Ty.mapList_eq, NamedType.mapList_eq, ComponentType.mapList_eq, Elements.mapList_eq, IntersectionElements.mapList_eq, IntersectionElements.mapListList_eq, singleElementConstraint_map, List.map_append, List.map_cons, List.map_nil, Option.map_some, Option.map_none]

theorem ruleAgree_203 : RuleAgree f g 203 := by
  intro lhs rhs h p p' d d' v v' hp3 hp2 hpc hk hv
  cases h
  show (action 203 p d v).type.map f g = (action 203 p' d' v').type
  have e1 : (action 203 p d v).type = (.restrictedString Tok.GraphicString) := rfl
  have e2 : (action 203 p' d' v').type = (.restrictedString Tok.GraphicString) := rfl
  rw [e1, e2] <;> simp only [Ty.map, NamedType.map, ComponentType.map, Constraint.map, ConstraintSpec.map, IntersectionElements.map, Elements.map, Value.map, Tag.map, NamedBit.map, RangeEndpoint.map, GlobalModuleReference.map, SymbolsFromModule.map, Assignment.map, ModuleBody.map, ComponentTypeLists.map, ObjectIdElement.map, Ty.mapList_eq, NamedType.mapList_eq, ComponentType.mapList_eq, Elements.mapList_eq, IntersectionElements.mapList_eq, IntersectionElements.mapListList_eq, singleElementConstraint_map, List.map_append, List.map_cons, List.map_nil, Option.map_some, Option.map_none]

theorem ruleAgree_204 : RuleAgree f g 204 := by
  intro lhs rhs h p p' d d' v v' hp3 hp2 hpc hk hv
  cases h
  show (action 204 p d v).type.map f g = (action 204 p' d' v').type
  have e1 : (action 204 p d v).type = (.restrictedString Tok.IA5String) := rfl
  have e2 : (action 204 p' d' v').type = (.restrictedString Tok.IA5String) := rfl
  rw [e1, e2] <;> simp only [Ty.map, NamedType.map, ComponentType.map, Constraint.map, ConstraintSpec.map, IntersectionElements.map, Elements.map, Value.map, Tag.map, NamedBit.map, RangeEndpoint.map, GlobalModuleReference.map, SymbolsFromModule.map, Assignment.map, ModuleBody.map, ComponentTypeLists.map, ObjectIdElement.map, Ty.mapList_eq, NamedType.mapList_eq, ComponentType.mapList_eq, Elements.mapList_eq, IntersectionElements.mapList_eq, IntersectionElements.mapListList_eq, singleElementConstraint_map, List.map_append, List.map_cons, List.map_nil, Option.map_some, Option.map_none]

theorem ruleAgree_205 : RuleAgree f g 205 := by
  intro lhs rhs h p p' d d' v v' hp3 hp2 hpc hk hv
  cases h
  show (action 205 p d v).type.map f g = (action 205 p' d' v').type
  have e1 : (action 205 p d v).type = (.restrictedString Tok.ISO646String) := rfl
  have e2 : (action 205 p' d' v').type = (.restrictedString Tok.ISO646String) := rfl
  rw [e1, e2] <;> simp only [Ty.map, NamedType.map, ComponentType.map, Constraint.map, ConstraintSpec.map, IntersectionElements.map, Elements.map, Value.map, Tag.map, NamedBit.map, RangeEndpoint.map, GlobalModuleReference.map, SymbolsFromModule.map, Assignment.map, ModuleBody.map, ComponentTypeLists.map, ObjectIdElement.map, Ty.mapList_eq, NamedType.mapList_eq, ComponentType.mapList_eq, Elements.mapList_eq, IntersectionElements.mapList_eq, IntersectionElements.mapListList_eq, singleElementConstraint_map, List.map_append, List.map_cons, List.map_nil, Option.map_some, Option.map_none]

theorem ruleAgree_206 : RuleAgree f g 206 := by
  intro lhs rhs h p p' d d' v v' hp3 hp2 hpc hk hv
  cases h
  show (action 206 p d v).type.map f g = (action 206 p' d' v').type
  have e1 : (action 206 p d v).type = (.restrictedString Tok.NumericString) := rfl
  have e2 : (action 206 p' d' v').type = (.restrictedString Tok.NumericString) := rfl
  rw [e1, e2] <;> simp only [Ty.map, NamedType.map, ComponentType.map, Constraint.map, ConstraintSpec.map, IntersectionElements.map, Elements.map, Value.map, Tag.map, NamedBit.map, RangeEndpoint.map, GlobalModuleReference.map, SymbolsFromModule.map, Assignment.map, ModuleBody.map, ComponentTypeLists.map, ObjectIdElement.map, Ty.mapList_eq, NamedType.mapList_eq, ComponentType.mapList_eq, Elements.mapList_eq, IntersectionElements.mapList_eq, IntersectionElements.mapListList_eq, singleElementConstraint_map, List.map_append, List.map_cons, List.map_nil, Option.map_some, Option.map_none]

theorem ruleAgree_207 : RuleAgree f g 207 := by
  intro lhs rhs h p p' d d' v v' hp3 hp2 hpc hk hv
  cases h
  show (action 207 p d v).type.map f g = (action 207 p' d' v').type
  have e1 : (action 207 p d v).type = (.restrictedString Tok.PrintableString) := rfl
  have e2 : (action 207 p' d' v').type = (.restrictedString Tok.PrintableString) := rfl
  rw [e1, e2] <;> simp only [Ty.map, NamedType.map, ComponentType.map, Constraint.map, ConstraintSpec.map, IntersectionElements.map, Elements.map, Value.map, Tag.map, NamedBit.map, RangeEndpoint.map, GlobalModuleReference.map, SymbolsFromModule.map, Assignment.map, ModuleBody.map, ComponentTypeLists.map, ObjectIdElement.map, Ty.mapList_eq, NamedType.mapList_eq, ComponentType.mapList_eq, Elements.mapList_eq, IntersectionElements.mapList_eq, IntersectionElements.mapListList_eq, singleElementConstraint_map, List.map_append, List.map_cons, List.map_nil, Option.map_some, Option.map_none]

theorem ruleAgree_208 : RuleAgree f g 208 := by
  intro lhs rhs h p p' d d' v v' hp3 hp2 hpc hk hv
  cases h
  show (action 208 p d v).type.map f g = (action 208 p' d' v').type
  have e1 : (action 208 p d v).type = (.restrictedString Tok.TeletexString) := rfl
  have e2 : (action 208 p' d' v').type = (.restrictedString Tok.TeletexString) := rfl
  rw [e1, e2] <;> simp only [Ty.map, NamedType.map, ComponentType.map, Constraint.map, ConstraintSpec.map, IntersectionElements.map, Elements.map, Value.map, Tag.map, NamedBit.map, RangeEndpoint.map, GlobalModuleReference.map, SymbolsFromModule.map, Assignment.map, ModuleBody.map, ComponentTypeLists.map, ObjectIdElement.map, Ty.mapList_eq, NamedType.mapList_eq, ComponentType.mapList_eq, Elements.mapList_eq, IntersectionElements.mapList_eq, IntersectionElements.mapListList_eq, singleElementConstraint_map, List.map_append, List.map_cons, List.map_nil, Option.map_some, Option.map_none]

theorem ruleAgree_209 : RuleAgree f g 209 := by
  intro lhs rhs h p p' d d' v v' hp3 hp2 hpc hk hv
  cases h
  show (action 209 p d v).type.map f g = (action 209 p' d' v').type
  have e1 : (action 209 p d v).type = (.restrictedString Tok.T61String) := rfl
  have e2 : (action 209 p' d' v').type = (.restrictedString Tok.T61String) := rfl
  rw [e1, e2] <;> simp only [Ty.map, NamedType.map, ComponentType.map, Constraint.map, ConstraintSpec.map, IntersectionElements.map, Elements.map, Value.map, Tag.map, NamedBit.map, RangeEndpoint.map, GlobalModuleReference.map, SymbolsFromModule.map, Assignment.map, ModuleBody.map, ComponentTypeLists.map, ObjectIdElement.map, Ty.mapList_eq, NamedType.mapList_eq, ComponentType.mapList_eq, Elements.mapList_eq, IntersectionElements.mapList_eq, IntersectionElements.mapListList_eq, singleElementConstraint_map, List.map_append, List.map_cons, List.map_nil, Option.map_some, Option.map_none]

theorem ruleAgree_210 : RuleAgree f g 210 := by
  intro lhs rhs h p p' d d' v v' hp3 hp2 hpc hk hv
  cases h
  show (action 210 p d v).type.map f g = (action 210 p' d' v').type
  have e1 : (action 210 p d v).type = (.restrictedString Tok.UniversalString) := rfl
  have e2 : (action 210 p' d' v').type = (.restrictedString Tok.UniversalString) := rfl
  rw [e1, e2] <;> simp only [Ty.map, NamedType.map, ComponentType.map, Constraint.map, ConstraintSpec.map, IntersectionElements.map, Elements.map, Value.map, Tag.map, NamedBit.map, RangeEndpoint.map, GlobalModuleReference.map, SymbolsFromModule.map, Assignment.map, ModuleBody.map, ComponentTypeLists.map, ObjectIdElement.map, Ty.mapList_eq, NamedType.mapList_eq, ComponentType.mapList_eq, Elements.mapList_eq, IntersectionElements.mapList_eq, IntersectionElements.mapListList_eq, singleElementConstraint_map, List.map_append, List.map_cons, List.map_nil, Option.map_some, Option.map_none]

theorem ruleAgree_211 : RuleAgree f g 211 := by
  intro lhs rhs h p p' d d' v v' hp3 hp2 hpc hk hv
  cases h
  show (action 211 p d v).type.map f g = (action 211 p' d' v').type
  have e1 : (action 211 p d v).type = (.restrictedString Tok.UTF8String) := rfl
  have e2 : (action 211 p' d' v').type = (.restrictedString Tok.UTF8String) := rfl
  rw [e1, e2] <;> simp only [Ty.map, NamedType.map, ComponentType.map, Constraint.map, ConstraintSpec.map, IntersectionElements.map, Elements.map, Value.map, Tag.map, NamedBit.map, RangeEndpoint.map, GlobalModuleReference.map, SymbolsFromModule.map, Assignment.map, ModuleBody.map, ComponentTypeLists.map, ObjectIdElement.map, Ty.mapList_eq, NamedType.mapList_eq, ComponentType.mapList_eq, Elements.mapList_eq, IntersectionElements.mapList_eq, IntersectionElements.mapListList_eq, singleElementConstraint_map, List.map_append, List.map_cons, List.map_nil, Option.map_some, Option.map_none]

theorem ruleAgree_212 : RuleAgree f g 212 := by
  intro lhs rhs h p p' d d' v v' hp3 hp2 hpc hk hv
  cases h
  show (action 212 p d v).type.map f g = (action 212 p' d' v').type
  have e1 : (action 212 p d v).type = (.restrictedString Tok.VideotexString) := rfl
  have e2 : (action 212 p' d' v').type = (.restrictedString Tok.VideotexString) := rfl
  rw [e1, e2] <;> simp only [Ty.map, NamedType.map, ComponentType.map, Constraint.map, ConstraintSpec.map, IntersectionElements.map, Elements.map, Value.map, Tag.map, NamedBit.map, RangeEndpoint.map, GlobalModuleReference.map, SymbolsFromModule.map, Assignment.map, ModuleBody.map, ComponentTypeLists.map, ObjectIdElement.map, Ty.mapList_eq, NamedType.mapList_eq, ComponentType.mapList_eq, Elements.mapList_eq, IntersectionElements.mapList_eq, IntersectionElements.mapListList_eq, singleElementConstraint_map, List.map_append, List.map_cons, List.map_nil, Option.map_some, Option.map_none]

theorem ruleAgree_213 : RuleAgree f g 213 := by
  intro lhs rhs h p p' d d' v v' hp3 hp2 hpc hk hv
  cases h
  show (action 213 p d v).type.map f g = (action 213 p' d' v').type
  have e1 : (action 213 p d v).type = (.restrictedString Tok.VisibleString) := rfl
  have e2 : (action 213 p' d' v').type = (.restrictedString Tok.VisibleString) := rfl
  rw [e1, e2] <;> simp only [Ty.map, NamedType.map, ComponentType.map, Constraint.map, ConstraintSpec.map, IntersectionElements.map, Elements.map, Value.map, Tag.map, NamedBit.map, RangeEndpoint.map, GlobalModuleReference.map, SymbolsFromModule.map, Assignment.map, ModuleBody.map, ComponentTypeLists.map, ObjectIdElement.map, Ty.mapList_eq, NamedType.mapList_eq, ComponentType.mapList_eq, Elements.mapList_eq, IntersectionElements.mapList_eq, IntersectionElements.mapListList_eq, singleElementConstraint_map, List.map_append, List.map_cons, List.map_nil, Option.map_some, Option.map_none]

theorem ruleAgree_214 : RuleAgree f g 214 := by
  intro lhs rhs h p p' d d' v v' hp3 hp2 hpc hk hv
  cases h
  show (action 214 p d v).type.map f g = (action 214 p' d' v').type
  have e1 : (action 214 p d v).type = (.characterString) := rfl
  have e2 : (action 214 p' d' v').type = (.characterString) := rfl
  rw [e1, e2] <;> simp only [Ty.map, NamedType.map, ComponentType.map, Constraint.map, ConstraintSpec.map, IntersectionElements.map, Elements.map, Value.map, Tag.map, NamedBit.map, RangeEndpoint.map, GlobalModuleReference.map, SymbolsFromModule.map, Assignment.map, ModuleBody.map, ComponentTypeLists.map, ObjectIdElement.map, Ty.mapList_eq, NamedType.mapList_eq, ComponentType.mapList_eq, Elements.mapList_eq, IntersectionElements.mapList_eq, IntersectionElements.mapListList_eq, singleElementConstraint_map, List.map_append, List.map_cons, List.map_nil, Option.map_some, Option.map_none]

theorem ruleAgree_215 : RuleAgree f g 215 := by
  intro lhs rhs h p p' d d' v v' hp3 hp2 hpc hk hv
  cases h
  show (action 215 p d v).type.map f g = (action 215 p' d' v').type
  have e1 : (action 215 p d v).type = (.ref (c! "GeneralizedTime")) := rfl
  have e2 : (action 215 p' d' v').type = (.ref (c! "GeneralizedTime")) := rfl
  rw [e1, e2] <;> simp only [Ty.map, NamedType.map, ComponentType.map, Constraint.map, ConstraintSpec.map, IntersectionElements.map, Elements.map, Value.map, Tag.map, NamedBit.map, RangeEndpoint.map, GlobalModuleReference.map, SymbolsFromModule.map, Assignment.map, ModuleBody.map, ComponentTypeLists.map, ObjectIdElement.map, Ty.mapList_eq, NamedType.mapList_eq, ComponentType.mapList_eq, Elements.mapList_eq, IntersectionElements.mapList_eq, IntersectionElements.mapListList_eq, singleElementConstraint_map, List.map_append, List.map_cons, List.map_nil, Option.map_some, Option.map_none]

theorem ruleAgree_216 : RuleAgree f g 216 := by
  intro lhs rhs h p p' d d' v v' hp3 hp2 hpc hk hv
  cases h
  show (action 216 p d v).type.map f g = (action 216 p' d' v').type
  have e1 : (action 216 p d v).type = (.ref (c! "UTCTime")) := rfl
  have e2 : (action 216 p' d' v').type = (.ref (c! "UTCTime")) := rfl
  rw [e1, e2] <;> simp only [Ty.map, NamedType.map, ComponentType.map, Constraint.map, ConstraintSpec.map, IntersectionElements.map, Elements.map, Value.map, Tag.map, NamedBit.map, RangeEndpoint.map, GlobalModuleReference.map, SymbolsFromModule.map, Assignment.map, ModuleBody.map, ComponentTypeLists.map, ObjectIdElement.map, Ty.mapList_eq, NamedType.mapList_eq, ComponentType.mapList_eq, Elements.mapList_eq, IntersectionElements.mapList_eq, IntersectionElements.mapListList_eq, singleElementConstraint_map, List.map_append, List.map_cons, List.map_nil, Option.map_some, Option.map_none]

theorem ruleAgree_217 : RuleAgree f g 217 := by
  intro lhs rhs h p p' d d' v v' hp3 hp2 hpc hk hv
  cases h
  have h1 : (d 1).type.map f g = (d' 1).type := hk 0 _ rfl
  have h2 : (d 2).constraint.map f g = (d' 2).constraint := hk 1 _ rfl
  show (action 217 p d v).type.map f g = (action 217 p' d' v').type
  have e1 : (action 217 p d v).type = (.constrained (d 1).type (d 2).constraint) := rfl
  have e2 : (action 217 p' d' v').type = (.constrained (d' 1).type (d' 2).constraint) := rfl
  rw [e1, e2] <;> simp only [← h1, ← h2, Ty.map, NamedType.map, ComponentType.map, Constraint.map, ConstraintSpec.map, IntersectionElements.map, Elements.map, Value.map, Tag.map, NamedBit.map, RangeEndpoint.map, GlobalModuleReference.map, SymbolsFromModule.map, Assignment.map, ModuleBody.map, ComponentTypeLists.map, ObjectIdElement.map, Ty.mapList_eq, NamedType.mapList_eq, ComponentType.mapList_eq, Elements.mapList_eq, IntersectionElements.mapList_eq, IntersectionElements.mapListList_eq, singleElementConstraint_map, List.map_append, List.map_cons, List.map_nil, Option.map_some, Option.map_none]

theorem ruleAgree_218 : RuleAgree f g 218 := by
  intro lhs rhs h p p' d d' v v' hp3 hp2 hpc hk hv
  cases h
  obtain ⟨rfl, rfl⟩ := hv (by simp)
  have h1 : (d 1).type.map f g = (d' 1).type := hk 0 _ rfl
  exact h1

theorem ruleAgree_219 : RuleAgree f g 219 := by
  intro lhs rhs h p p' d d' v v' hp3 hp2 hpc hk hv
  cases h
  have h2 : (d 2).constraint.map f g = (d' 2).constraint := hk 1 _ rfl
  have h4 : (d 4).type.map f g = (d' 4).type := hk 3 _ rfl
  show (action 219 p d v).type.map f g = (action 219 p' d' v').type
  have e1 : (action 219 p d v).type = (.constrained (.setOf (d 4).type) (d 2).constraint) := rfl
  have e2 : (action 219 p' d' v').type = (.constrained (.setOf (d' 4).type) (d' 2).constraint) := rfl
  rw [e1, e2] <;> simp only [← h2, ← h4, Ty.map, NamedType.map, ComponentType.map, Constraint.map, ConstraintSpec.map, IntersectionElements.map, Elements.map, Value.map, Tag.map, NamedBit.map, RangeEndpoint.map, GlobalModuleReference.map, SymbolsFromModule.map, Assignment.map, ModuleBody.map, ComponentTypeLists.map, ObjectIdElement.map, Ty.mapList_eq, NamedType.mapList_eq, ComponentType.mapList_eq, Elements.mapList_eq, IntersectionElements.mapList_eq, IntersectionElements.mapListList_eq, singleElementConstraint_map, List.map_append, List.map_cons, List.map_nil, Option.map_some, Option.map_none]

theorem ruleAgree_220 : RuleAgree f g 220 := by
  intro lhs rhs h p p' d d' v v' hp3 hp2 hpc hk hv
  cases h
  have h2 : (d 2).elements.map f g = (d' 2).elements := hk 1 _ rfl
  have h4 : (d 4).type.map f g = (d' 4).type := hk 3 _ rfl
  show (action 220 p d v).type.map f g = (action 220 p' d' v').type
  have e1 : (action 220 p d v).type = (.constrained (.setOf (d 4).type) (singleElementConstraint (d 2).elements)) := rfl
  have e2 : (action 220 p' d' v').type = (.constrained (.setOf (d' 4).type) (singleElementConstraint (d' 2).elements)) := rfl
  rw [e1, e2] <;> simp only [← h2, ← h4, Ty.map, NamedType.map, ComponentType.map, Constraint.map, ConstraintSpec.map, IntersectionElements.map, Elements.map, Value.map, Tag.map, NamedBit.map, RangeEndpoint.map, GlobalModuleReference.map, SymbolsFromModule.map, Assignment.map, ModuleBody.map, ComponentTypeLists.map, ObjectIdElement.map, Ty.mapList_eq, NamedType.mapList_eq, ComponentType.mapList_eq, Elements.mapList_eq, IntersectionElements.mapList_eq, IntersectionElements.mapListList_eq, singleElementConstraint_map, List.map_append, List.map_cons, List.map_nil, Option.map_some, Option.map_none]

theorem ruleAgree_221 : RuleAgree f g 221 := by
  intro lhs rhs h p p' d d' v v' hp3 hp2 hpc hk hv
  cases h
  have h2 : (d 2).constraint.map f g = (d' 2).constraint := hk 1 _ rfl
  have h4 : (d 4).type.map f g = (d' 4).type := hk 3 _ rfl
  show (action 221 p d v).type.map f g = (action 221 p' d' v').type
  have e1 : (action 221 p d v).type = (.constrained (.sequenceOf (d 4).type) (d 2).constraint) := rfl
  have e2 : (action 221 p' d' v').type = (.constrained (.sequenceOf (d' 4).type) (d' 2).constraint) := rfl
  rw [e1, e2] <;> simp only [← h2, ← h4, Ty.map, NamedType.map, ComponentType.map, Constraint.map, ConstraintSpec.map, IntersectionElements.map, Elements.map, Value.map, Tag.map, NamedBit.map, RangeEndpoint.map, GlobalModuleReference.map, SymbolsFromModule.map, Assignment.map, ModuleBody.map, ComponentTypeLists.map, ObjectIdElement.map, Ty.mapList_eq, NamedType.mapList_eq, ComponentType.mapList_eq, Elements.mapList_eq, IntersectionElements.mapList_eq, IntersectionElements.mapListList_eq, singleElementConstraint_map, List.map_append, List.map_cons, List.map_nil, Option.map_some, Option.map_none]

theorem ruleAgree_222 : RuleAgree f g 222 := by
  intro lhs rhs h p p' d d' v v' hp3 hp2 hpc hk hv
  cases h
  have h2 : (d 2).elements.map f g = (d' 2).elements := hk 1 _ rfl
  have h4 : (d 4).type.map f g = (d' 4).type := hk 3 _ rfl
  show (action 222 p d v).type.map f g = (action 222 p' d' v').type
  have e1 : (action 222 p d v).type = (.constrained (.sequenceOf (d 4).type) (singleElementConstraint (d 2).elements)) := rfl
  have e2 : (action 222 p' d' v').type = (.constrained (.sequenceOf (d' 4).type) (singleElementConstraint (d' 2).elements)) := rfl
  rw [e1, e2] <;> simp only [← h2, ← h4, Ty.map, NamedType.map, ComponentType.map, Constraint.map, ConstraintSpec.map, IntersectionElements.map, Elements.map, Value.map, Tag.map, NamedBit.map, RangeEndpoint.map, GlobalModuleReference.map, SymbolsFromModule.map, Assignment.map, ModuleBody.map, ComponentTypeLists.map, ObjectIdElement.map, Ty.mapList_eq, NamedType.mapList_eq, ComponentType.mapList_eq, Elements.mapList_eq, IntersectionElements.mapList_eq, IntersectionElements.mapListList_eq, singleElementConstraint_map, List.map_append, List.map_cons, List.map_nil, Option.map_some, Option.map_none]

theorem ruleAgree_223 : RuleAgree f g 223 := by
  intro lhs rhs h p p' d d' v v' hp3 hp2 hpc hk hv
  cases h
  have h2 : (d 2).constraint.map f g = (d' 2).constraint := hk 1 _ rfl
  have h4 : (d 4).namedType.map f g = (d' 4).namedType := hk 3 _ rfl
  show (action 223 p d v).type.map f g = (action 223 p' d' v').type
  have e1 : (action 223 p d v).type = (.constrained (.setOf (.named (d 4).namedType)) (d 2).constraint) := rfl
  have e2 : (action 223 p' d' v').type = (.constrained (.setOf (.named (d' 4).namedType)) (d' 2).constraint) := rfl
  rw [e1, e2] <;> simp only [← h2, ← h4, Ty.map, NamedType.map, ComponentType.map, Constraint.map, ConstraintSpec.map, IntersectionElements.map, Elements.map, Value.map, Tag.map, NamedBit.map, RangeEndpoint.map, GlobalModuleReference.map, SymbolsFromModule.map, Assignment.map, ModuleBody.map, ComponentTypeLists.map, ObjectIdElement.map, Ty.mapList_eq, NamedType.mapList_eq, ComponentType.mapList_eq, Elements.mapList_eq, IntersectionElements.mapList_eq, IntersectionElements.mapListList_eq, singleElementConstraint_map, List.map_append, List.map_cons, List.map_nil, Option.map_some, Option.map_none]

theorem ruleAgree_224 : RuleAgree f g 224 := by
  intro lhs rhs h p p' d d' v v' hp3 hp2 hpc hk hv
  cases h
  have h2 : (d 2).elements.map f g = (d' 2).elements := hk 1 _ rfl
  have h4 : (d 4).namedType.map f g = (d' 4).namedType := hk 3 _ rfl
  show (action 224 p d v).type.map f g = (action 224 p' d' v').type
  have e1 : (action 224 p d v).type = (.constrained (.setOf (.named (d 4).namedType)) (singleElementConstraint (d 2).elements)) := rfl
  have e2 : (action 224 p' d' v').type = (.constrained (.setOf (.named (d' 4).namedType)) (singleElementConstraint (d' 2).elements)) := rfl
  rw [e1, e2] <;> simp only [← h2, ← h4, Ty.map, NamedType.map, ComponentType.map, Constraint.map, ConstraintSpec.map, IntersectionElements.map, Elements.map, Value.map, Tag.map, NamedBit.map, RangeEndpoint.map, GlobalModuleReference.map, SymbolsFromModule.map, Assignment.map, ModuleBody.map, ComponentTypeLists.map, ObjectIdElement.map, Ty.mapList_eq, NamedType.mapList_eq, ComponentType.mapList_eq, Elements.mapList_eq, IntersectionElements.mapList_eq, IntersectionElements.mapListList_eq, singleElementConstraint_map, List.map_append, List.map_cons, List.map_nil, Option.map_some, Option.map_none]

theorem ruleAgree_225 : RuleAgree f g 225 := by
  intro lhs rhs h p p' d d' v v' hp3 hp2 hpc hk hv
  cases h
  have h2 : (d 2).constraint.map f g = (d' 2).constraint := hk 1 _ rfl
  have h4 : (d 4).namedType.map f g = (d' 4).namedType := hk 3 _ rfl
  show (action 225 p d v).type.map f g = (action 225 p' d' v').type
  have e1 : (action 225 p d v).type = (.constrained (.sequenceOf (.named (d 4).namedType)) (d 2).constraint) := rfl
  have e2 : (action 225 p' d' v').type = (.constrained (.sequenceOf (.named (d' 4).namedType)) (d' 2).constraint) := rfl
  rw [e1, e2] <;> simp only [← h2, ← h4, Ty.map, NamedType.map, ComponentType.map, Constraint.map, ConstraintSpec.map, IntersectionElements.map, Elements.map, Value.map, Tag.map, NamedBit.map, RangeEndpoint.map, GlobalModuleReference.map, SymbolsFromModule.map, Assignment.map, ModuleBody.map, ComponentTypeLists.map, ObjectIdElement.map, Ty.mapList_eq, NamedType.mapList_eq, ComponentType.mapList_eq, Elements.mapList_eq, IntersectionElements.mapList_eq, IntersectionElements.mapListList_eq, singleElementConstraint_map, List.map_append, List.map_cons, List.map_nil, Option.map_some, Option.map_none]

theorem ruleAgree_226 : RuleAgree f g 226 := by
  intro lhs rhs h p p' d d' v v' hp3 hp2 hpc hk hv
  cases h
  have h2 : (d 2).elements.map f g = (d' 2).elements := hk 1 _ rfl
  have h4 : (d 4).namedType.map f g = (d' 4).namedType := hk 3 _ rfl
  show (action 226 p d v).type.map f g = (action 226 p' d' v').type
  have e1 : (action 226 p d v).type = (.constrained (.sequenceOf (.named (d 4).namedType)) (singleElementConstraint (d 2).elements)) := rfl
  have e2 : (action 226 p' d' v').type = (.constrained (.sequenceOf (.named (d' 4).namedType)) (singleElementConstraint (d' 2).elements)) := rfl
  rw [e1, e2] <;> simp only [← h2, ← h4, Ty.map, NamedType.map, ComponentType.map, Constraint.map, ConstraintSpec.map, IntersectionElements.map, Elements.map, Value.map, Tag.map, NamedBit.map, RangeEndpoint.map, GlobalModuleReference.map, SymbolsFromModule.map, Assignment.map, ModuleBody.map, ComponentTypeLists.map, ObjectIdElement.map, Ty.mapList_eq, NamedType.mapList_eq, ComponentType.mapList_eq, Elements.mapList_eq, IntersectionElements.mapList_eq, IntersectionElements.mapListList_eq, singleElementConstraint_map, List.map_append, List.map_cons, List.map_nil, Option.map_some, Option.map_none]

theorem ruleAgree_227 : RuleAgree f g 227 := by
  intro lhs rhs h p p' d d' v v' hp3 hp2 hpc hk hv
  cases h
  have h2 : (d 2).constraintSpec.map f g = (d' 2).constraintSpec := hk 1 _ rfl
  show (action 227 p d v).constraint.map f g = (action 227 p' d' v').constraint
  have e1 : (action 227 p d v).constraint = (.mk (d 2).constraintSpec) := rfl
  have e2 : (action 227 p' d' v').constraint = (.mk (d' 2).constraintSpec) := rfl
  rw [e1, e2] <;> simp only [← h2, Ty.map, NamedType.map, ComponentType.map, Constraint.map, ConstraintSpec.map, IntersectionElements.map, Elements.map, Value.map, Tag.map, NamedBit.map, RangeEndpoint.map, GlobalModuleReference.map, SymbolsFromModule.map, Assignment.map, ModuleBody.map, ComponentTypeLists.map, ObjectIdElement.map, Ty.mapList_eq, NamedType.mapList_eq, ComponentType.mapList_eq, Elements.mapList_eq, IntersectionElements.mapList_eq, IntersectionElements.mapListList_eq, singleElementConstraint_map, List.map_append, List.map_cons, List.map_nil, Option.map_some, Option.map_none]

theorem ruleAgree_228 : RuleAgree f g 228 := by
  intro lhs rhs h p p' d d' v v' hp3 hp2 hpc hk hv
  cases h
  have h1 : Elements.mapList f g (d 1).subtypeConstraint = (d' 1).subtypeConstraint := hk 0 _ rfl
  show (action 228 p d v).constraintSpec.map f g = (action 228 p' d' v').constraintSpec
  have e1 : (action 228 p d v).constraintSpec = (.subtype (d 1).subtypeConstraint) := rfl
  have e2 : (action 228 p' d' v').constraintSpec = (.subtype (d' 1).subtypeConstraint) := rfl
  rw [e1, e2] <;> simp only [← h1, Ty.map, NamedType.map, ComponentType.map, Constraint.map, ConstraintSpec.map, IntersectionElements.map, Elements.map, Value.map, Tag.map, NamedBit.map, RangeEndpoint.map, GlobalModuleReference.map, SymbolsFromModule.map, Assignment.map, ModuleBody.map, ComponentTypeLists.map, ObjectIdElement.map, Ty.mapList_eq, NamedType.mapList_eq, ComponentType.mapList_eq, Elements.mapList_eq, IntersectionElements.mapList_eq, IntersectionElements.mapListList_eq, singleElementConstraint_map, List.map_append, List.map_cons, List.map_nil, Option.map_some, Option.map_none]

theorem ruleAgree_229 : RuleAgree f g 229 := by
  intro lhs rhs h p p' d d' v v' hp3 hp2 hpc hk hv
  cases h
  obtain ⟨rfl, rfl⟩ := hv (by simp)
  have h1 : Elements.mapList f g (d 1).subtypeConstraint = (d' 1).subtypeConstraint := hk 0 _ rfl
  exact h1

theorem ruleAgree_230 : RuleAgree f g 230 := by
  intro lhs rhs h p p' d d' v v' hp3 hp2 hpc hk hv
  cases h
  obtain ⟨rfl, rfl⟩ := hv (by simp)
  have h1 : Elements.mapList f g (d 1).subtypeConstraint = (d' 1).subtypeConstraint := hk 0 _ rfl
  exact h1

theorem ruleAgree_231 : RuleAgree f g 231 := by
  intro lhs rhs h p p' d d' v v' hp3 hp2 hpc hk hv
  cases h
  have h1 : Elements.mapList f g (d 1).subtypeConstraint = (d' 1).subtypeConstraint := hk 0 _ rfl
  show Elements.mapList f g (action 231 p d v).subtypeConstraint = (action 231 p' d' v').subtypeConstraint
  have e1 : (action 231 p d v).subtypeConstraint = ((d 1).subtypeConstraint) := rfl
  have e2 : (action 231 p' d' v').subtypeConstraint = ((d' 1).subtypeConstraint) := rfl
  rw [e1, e2] <;> simp only [← h1, Ty.map, NamedType.map, ComponentType.map, Constraint.map, ConstraintSpec.map, IntersectionElements.map, Elements.map, Value.map, Tag.map, NamedBit.map, RangeEndpoint.map, GlobalModuleReference.map, SymbolsFromModule.map, Assignment.map, ModuleBody.map, ComponentTypeLists.map, ObjectIdElement.map, Ty.mapList_eq, NamedType.mapList_eq, ComponentType.mapList_eq, Elements.mapList_eq, IntersectionElements.mapList_eq, IntersectionElements.mapListList_eq, singleElementConstraint_map, List.map_append, List.map_cons, List.map_nil, Option.map_some, Option.map_none]

theorem ruleAgree_232 : RuleAgree f g 232 := by
  intro lhs rhs h p p' d d' v v' hp3 hp2 hpc hk hv
  cases h
  have h1 : Elements.mapList f g (d 1).subtypeConstraint = (d' 1).subtypeConstraint := hk 0 _ rfl
  have h5 : (d 5).elementSetSpec.map f g = (d' 5).elementSetSpec := hk 4 _ rfl
  show Elements.mapList f g (action 232 p d v).subtypeConstraint = (action 232 p' d' v').subtypeConstraint
  have e1 : (action 232 p d v).subtypeConstraint = ((d 1).subtypeConstraint ++ [(d 5).elementSetSpec]) := rfl
  have e2 : (action 232 p' d' v').subtypeConstraint = ((d' 1).subtypeConstraint ++ [(d' 5).elementSetSpec]) := rfl
  rw [e1, e2] <;> simp only [← h1, ← h5, Ty.map, NamedType.map, ComponentType.map, Constraint.map, ConstraintSpec.map, IntersectionElements.map, Elements.map, Value.map, Tag.map, NamedBit.map, RangeEndpoint.map, GlobalModuleReference.map, SymbolsFromModule.map, Assignment.map, ModuleBody.map, ComponentTypeLists.map, ObjectIdElement.map, Ty.mapList_eq, NamedType.mapList_eq, ComponentType.mapList_eq, Elements.mapList_eq, IntersectionElements.mapList_eq, IntersectionElements.mapListList_eq, singleElementConstraint_map, List.map_append, List.map_cons, List.map_nil, Option.map_some, Option.map_none]

theorem ruleAgree_233 : RuleAgree f g 233 := by
  intro lhs rhs h p p' d d' v v' hp3 hp2 hpc hk hv
  cases h
  have h1 : (d 1).elementSetSpec.map f g = (d' 1).elementSetSpec := hk 0 _ rfl
  show Elements.mapList f g (action 233 p d v).subtypeConstraint = (action 233 p' d' v').subtypeConstraint
  have e1 : (action 233 p d v).subtypeConstraint = ([(d 1).elementSetSpec]) := rfl
  have e2 : (action 233 p' d' v').subtypeConstraint = ([(d' 1).elementSetSpec]) := rfl
  rw [e1, e2] <;> simp only [← h1, Ty.map, NamedType.map, ComponentType.map, Constraint.map, ConstraintSpec.map, IntersectionElements.map, Elements.map, Value.map, Tag.map, NamedBit.map, RangeEndpoint.map, GlobalModuleReference.map, SymbolsFromModule.map, Assignment.map, ModuleBody.map, ComponentTypeLists.map, ObjectIdElement.map, Ty.mapList_eq, NamedType.mapList_eq, ComponentType.mapList_eq, Elements.mapList_eq, IntersectionElements.mapList_eq, IntersectionElements.mapListList_eq, singleElementConstraint_map, List.map_append, List.map_cons, List.map_nil, Option.map_some, Option.map_none]

theorem ruleAgree_234 : RuleAgree f g 234 := by
  intro lhs rhs h p p' d d' v v' hp3 hp2 hpc hk hv
  cases h
  obtain ⟨rfl, rfl⟩ := hv (by simp)
  have h1 : (d 1).elementSetSpec.map f g = (d' 1).elementSetSpec := hk 0 _ rfl
  exact h1

theorem ruleAgree_235 : RuleAgree f g 235 := by
  intro lhs rhs h p p' d d' v v' hp3 hp2 hpc hk hv
  cases h
  have h1 : IntersectionElements.mapListList f g (d 1).unions = (d' 1).unions := hk 0 _ rfl
  show (action 235 p d v).elementSetSpec.map f g = (action 235 p' d' v').elementSetSpec
  have e1 : (action 235 p d v).elementSetSpec = (.unions (d 1).unions) := rfl
  have e2 : (action 235 p' d' v').elementSetSpec = (.unions (d' 1).unions) := rfl
  rw [e1, e2] <;> simp only [← h1, Ty.map, NamedType.map, ComponentType.map, Constraint.map, ConstraintSpec.map, IntersectionElements.map, Elements.map, Value.map, Tag.map, NamedBit.map, RangeEndpoint.map, GlobalModuleReference.map, SymbolsFromModule.map, Assignment.map, ModuleBody.map, ComponentTypeLists.map, ObjectIdElement.map, Ty.mapList_eq, NamedType.mapList_eq, ComponentType.mapList_eq, Elements.mapList_eq, IntersectionElements.mapList_eq, IntersectionElements.mapListList_eq, singleElementConstraint_map, List.map_append, List.map_cons, List.map_nil, Option.map_some, Option.map_none]

theorem ruleAgree_236 : RuleAgree f g 236 := by
  intro lhs rhs h p p' d d' v v' hp3 hp2 hpc hk hv
  cases h
  have h2 : (d 2).exclusions.map f g = (d' 2).exclusions := hk 1 _ rfl
  show (action 236 p d v).elementSetSpec.map f g = (action 236 p' d' v').elementSetSpec
  have e1 : (action 236 p d v).elementSetSpec = (.exclusions (d 2).exclusions) := rfl
  have e2 : (action 236 p' d' v').elementSetSpec = (.exclusions (d' 2).exclusions) := rfl
  rw [e1, e2] <;> simp only [← h2, Ty.map, NamedType.map, ComponentType.map, Constraint.map, ConstraintSpec.map, IntersectionElements.map, Elements.map, Value.map, Tag.map, NamedBit.map, RangeEndpoint.map, GlobalModuleReference.map, SymbolsFromModule.map, Assignment.map, ModuleBody.map, ComponentTypeLists.map, ObjectIdElement.map, Ty.mapList_eq, NamedType.mapList_eq, ComponentType.mapList_eq, Elements.mapList_eq, IntersectionElements.mapList_eq, IntersectionElements.mapListList_eq, singleElementConstraint_map, List.map_append, List.map_cons, List.map_nil, Option.map_some, Option.map_none]

theorem ruleAgree_237 : RuleAgree f g 237 := by
  intro lhs rhs h p p' d d' v v' hp3 hp2 hpc hk hv
  cases h
  have h1 : IntersectionElements.mapList f g (d 1).intersections = (d' 1).intersections := hk 0 _ rfl
  show IntersectionElements.mapListList f g (action 237 p d v).unions = (action 237 p' d' v').unions
  have e1 : (action 237 p d v).unions = ([(d 1).intersections]) := rfl
  have e2 : (action 237 p' d' v').unions = ([(d' 1).intersections]) := rfl
  rw [e1, e2] <;> simp only [← h1, Ty.map, NamedType.map, ComponentType.map, Constraint.map, ConstraintSpec.map, IntersectionElements.map, Elements.map, Value.map, Tag.map, NamedBit.map, RangeEndpoint.map, GlobalModuleReference.map, SymbolsFromModule.map, Assignment.map, ModuleBody.map, ComponentTypeLists.map, ObjectIdElement.map, Ty.mapList_eq, NamedType.mapList_eq, ComponentType.mapList_eq, Elements.mapList_eq, IntersectionElements.mapList_eq, IntersectionElements.mapListList_eq, singleElementConstraint_map, List.map_append, List.map_cons, List.map_nil, Option.map_some, Option.map_none]

theorem ruleAgree_238 : RuleAgree f g 238 := by
  intro lhs rhs h p p' d d' v v' hp3 hp2 hpc hk hv
  cases h
  have h1 : IntersectionElements.mapListList f g (d 1).unions = (d' 1).unions := hk 0 _ rfl
  have h3 : IntersectionElements.mapList f g (d 3).intersections = (d' 3).intersections := hk 2 _ rfl
  show IntersectionElements.mapListList f g (action 238 p d v).unions = (action 238 p' d' v').unions
  have e1 : (action 238 p d v).unions = ((d 1).unions ++ [(d 3).intersections]) := rfl
  have e2 : (action 238 p' d' v').unions = ((d' 1).unions ++ [(d' 3).intersections]) := rfl
  rw [e1, e2] <;> simp only [← h1, ← h3, Ty.map, NamedType.map, ComponentType.map, Constraint.map, ConstraintSpec.map, IntersectionElements.map, Elements.map, Value.map, Tag.map, NamedBit.map, RangeEndpoint.map, GlobalModuleReference.map, SymbolsFromModule.map, Assignment.map, ModuleBody.map, ComponentTypeLists.map, ObjectIdElement.map, Ty.mapList_eq, NamedType.mapList_eq, ComponentType.mapList_eq, Elements.mapList_eq, IntersectionElements.mapList_eq, IntersectionElements.mapListList_eq, singleElementConstraint_map, List.map_append, List.map_cons, List.map_nil, Option.map_some, Option.map_none]

theorem ruleAgree_239 : RuleAgree f g 239 := by
  intro lhs rhs h p p' d d' v v' hp3 hp2 hpc hk hv
  cases h
  obtain ⟨rfl, rfl⟩ := hv (by simp)
  have h1 : IntersectionElements.mapListList f g (d 1).unions = (d' 1).unions := hk 0 _ rfl
  exact h1

theorem ruleAgree_240 : RuleAgree f g 240 := by
  intro lhs rhs h p p' d d' v v' hp3 hp2 hpc hk hv
  cases h
  have h1 : (d 1).intersectionElements.map f g = (d' 1).intersectionElements := hk 0 _ rfl
  show IntersectionElements.mapList f g (action 240 p d v).intersections = (action 240 p' d' v').intersections
  have e1 : (action 240 p d v).intersections = ([(d 1).intersectionElements]) := rfl
  have e2 : (action 240 p' d' v').intersections = ([(d' 1).intersectionElements]) := rfl
  rw [e1, e2] <;> simp only [← h1, Ty.map, NamedType.map, ComponentType.map, Constraint.map, ConstraintSpec.map, IntersectionElements.map, Elements.map, Value.map, Tag.map, NamedBit.map, RangeEndpoint.map, GlobalModuleReference.map, SymbolsFromModule.map, Assignment.map, ModuleBody.map, ComponentTypeLists.map, ObjectIdElement.map, Ty.mapList_eq, NamedType.mapList_eq, ComponentType.mapList_eq, Elements.mapList_eq, IntersectionElements.mapList_eq, IntersectionElements.mapListList_eq, singleElementConstraint_map, List.map_append, List.map_cons, List.map_nil, Option.map_some, Option.map_none]

theorem ruleAgree_241 : RuleAgree f g 241 := by
  intro lhs rhs h p p' d d' v v' hp3 hp2 hpc hk hv
  cases h
  have h1 : IntersectionElements.mapList f g (d 1).intersections = (d' 1).intersections := hk 0 _ rfl
  have h3 : (d 3).intersectionElements.map f g = (d' 3).intersectionElements := hk 2 _ rfl
  show IntersectionElements.mapList f g (action 241 p d v).intersections = (action 241 p' d' v').intersections
  have e1 : (action 241 p d v).intersections = ((d 1).intersections ++ [(d 3).intersectionElements]) := rfl
  have e2 : (action 241 p' d' v').intersections = ((d' 1).intersections ++ [(d' 3).intersectionElements]) := rfl
  rw [e1, e2] <;> simp only [← h1, ← h3, Ty.map, NamedType.map, ComponentType.map, Constraint.map, ConstraintSpec.map, IntersectionElements.map, Elements.map, Value.map, Tag.map, NamedBit.map, RangeEndpoint.map, GlobalModuleReference.map, SymbolsFromModule.map, Assignment.map, ModuleBody.map, ComponentTypeLists.map, ObjectIdElement.map, Ty.mapList_eq, NamedType.mapList_eq, ComponentType.mapList_eq, Elements.mapList_eq, IntersectionElements.mapList_eq, IntersectionElements.mapListList_eq, singleElementConstraint_map, List.map_append, List.map_cons, List.map_nil, Option.map_some, Option.map_none]

theorem ruleAgree_242 : RuleAgree f g 242 := by
  intro lhs rhs h p p' d d' v v' hp3 hp2 hpc hk hv
  cases h
  obtain ⟨rfl, rfl⟩ := hv (by simp)
  have h1 : IntersectionElements.mapList f g (d 1).intersections = (d' 1).intersections := hk 0 _ rfl
  exact h1

theorem ruleAgree_243 : RuleAgree f g 243 := by
  intro lhs rhs h p p' d d' v v' hp3 hp2 hpc hk hv
  cases h
  have h1 : (d 1).elements.map f g = (d' 1).elements := hk 0 _ rfl
  show (action 243 p d v).intersectionElements.map f g = (action 243 p' d' v').intersectionElements
  have e1 : (action 243 p d v).intersectionElements = (.mk (d 1).elements .nil) := rfl
  have e2 : (action 243 p' d' v').intersectionElements = (.mk (d' 1).elements .nil) := rfl
  rw [e1, e2] <;> simp only [← h1, Ty.map, NamedType.map, ComponentType.map, Constraint.map, ConstraintSpec.map, IntersectionElements.map, Elements.map, Value.map, Tag.map, NamedBit.map, RangeEndpoint.map, GlobalModuleReference.map, SymbolsFromModule.map, Assignment.map, ModuleBody.map, ComponentTypeLists.map, ObjectIdElement.map, Ty.mapList_eq, NamedType.mapList_eq, ComponentType.mapList_eq, Elements.mapList_eq, IntersectionElements.mapList_eq, IntersectionElements.mapListList_eq, singleElementConstraint_map, List.map_append, List.map_cons, List.map_nil, Option.map_some, Option.map_none]

theorem ruleAgree_244 : RuleAgree f g 244 := by
  intro lhs rhs h p p' d d' v v' hp3 hp2 hpc hk hv
  cases h
  have h1 : (d 1).elements.map f g = (d' 1).elements := hk 0 _ rfl
  have h2 : (d 2).exclusions.map f g = (d' 2).exclusions := hk 1 _ rfl
  show (action 244 p d v).intersectionElements.map f g = (action 244 p' d' v').intersectionElements
  have e1 : (action 244 p d v).intersectionElements = (.mk (d 1).elements (d 2).exclusions) := rfl
  have e2 : (action 244 p' d' v').intersectionElements = (.mk (d' 1).elements (d' 2).exclusions) := rfl
  rw [e1, e2] <;> simp only [← h1, ← h2, Ty.map, NamedType.map, ComponentType.map, Constraint.map, ConstraintSpec.map, IntersectionElements.map, Elements.map, Value.map, Tag.map, NamedBit.map, RangeEndpoint.map, GlobalModuleReference.map, SymbolsFromModule.map, Assignment.map, ModuleBody.map, ComponentTypeLists.map, ObjectIdElement.map, Ty.mapList_eq, NamedType.mapList_eq, ComponentType.mapList_eq, Elements.mapList_eq, IntersectionElements.mapList_eq, IntersectionElements.mapListList_eq, singleElementConstraint_map, List.map_append, List.map_cons, List.map_nil, Option.map_some, Option.map_none]

theorem ruleAgree_245 : RuleAgree f g 245 := by
  intro lhs rhs h p p' d d' v v' hp3 hp2 hpc hk hv
  cases h
  obtain ⟨rfl, rfl⟩ := hv (by simp)
  have h1 : (d 1).elements.map f g = (d' 1).elements := hk 0 _ rfl
  exact h1

theorem ruleAgree_246 : RuleAgree f g 246 := by
  intro lhs rhs h p p' d d' v v' hp3 hp2 hpc hk hv
  cases h
  have h2 : (d 2).elements.map f g = (d' 2).elements := hk 1 _ rfl
  show (action 246 p d v).exclusions.map f g = (action 246 p' d' v').exclusions
  have e1 : (action 246 p d v).exclusions = ((d 2).elements) := rfl
  have e2 : (action 246 p' d' v').exclusions = ((d' 2).elements) := rfl
  rw [e1, e2] <;> simp only [← h2, Ty.map, NamedType.map, ComponentType.map, Constraint.map, ConstraintSpec.map, IntersectionElements.map, Elements.map, Value.map, Tag.map, NamedBit.map, RangeEndpoint.map, GlobalModuleReference.map, SymbolsFromModule.map, Assignment.map, ModuleBody.map, ComponentTypeLists.map, ObjectIdElement.map, Ty.mapList_eq, NamedType.mapList_eq, ComponentType.mapList_eq, Elements.mapList_eq, IntersectionElements.mapList_eq, IntersectionElements.mapListList_eq, singleElementConstraint_map, List.map_append, List.map_cons, List.map_nil, Option.map_some, Option.map_none]

theorem ruleAgree_247 : RuleAgree f g 247 := by
  intro lhs rhs h p p' d d' v v' hp3 hp2 hpc hk hv
  cases h; exact True.intro

theorem ruleAgree_248 : RuleAgree f g 248 := by
  intro lhs rhs h p p' d d' v v' hp3 hp2 hpc hk hv
  cases h; exact True.intro

theorem ruleAgree_249 : RuleAgree f g 249 := by
  intro lhs rhs h p p' d d' v v' hp3 hp2 hpc hk hv
  cases h; exact True.intro

theorem ruleAgree_250 : RuleAgree f g 250 := by
  intro lhs rhs h p p' d d' v v' hp3 hp2 hpc hk hv
  cases h; exact True.intro

theorem ruleAgree_251 : RuleAgree f g 251 := by
  intro lhs rhs h p p' d d' v v' hp3 hp2 hpc hk hv
  cases h
  have h1 : (d 1).elements.map f g = (d' 1).elements := hk 0 _ rfl
  show (action 251 p d v).elements.map f g = (action 251 p' d' v').elements
  have e1 : (action 251 p d v).elements = ((d 1).elements) := rfl
  have e2 : (action 251 p' d' v').elements = ((d' 1).elements) := rfl
  rw [e1, e2] <;> simp only [← h1, Ty.map, NamedType.map, ComponentType.map, Constraint.map, ConstraintSpec.map, IntersectionElements.map, Elements.map, Value.map, Tag.map, NamedBit.map, RangeEndpoint.map, GlobalModuleReference.map, SymbolsFromModule.map, Assignment.map, ModuleBody.map, ComponentTypeLists.map, ObjectIdElement.map, Ty.mapList_eq, NamedType.mapList_eq, ComponentType.mapList_eq, Elements.mapList_eq, IntersectionElements.mapList_eq, IntersectionElements.mapListList_eq, singleElementConstraint_map, List.map_append, List.map_cons, List.map_nil, Option.map_some, Option.map_none]

theorem ruleAgree_252 : RuleAgree f g 252 := by
  intro lhs rhs h p p' d d' v v' hp3 hp2 hpc hk hv
  cases h
  have h2 : (d 2).elementSetSpec.map f g = (d' 2).elementSetSpec := hk 1 _ rfl
  show (action 252 p d v).elements.map f g = (action 252 p' d' v').elements
  have e1 : (action 252 p d v).elements = ((d 2).elementSetSpec) := rfl
  have e2 : (action 252 p' d' v').elements = ((d' 2).elementSetSpec) := rfl
  rw [e1, e2] <;> simp only [← h2, Ty.map, NamedType.map, ComponentType.map, Constraint.map, ConstraintSpec.map, IntersectionElements.map, Elements.map, Value.map, Tag.map, NamedBit.map, RangeEndpoint.map, GlobalModuleReference.map, SymbolsFromModule.map, Assignment.map, ModuleBody.map, ComponentTypeLists.map, ObjectIdElement.map, Ty.mapList_eq, NamedType.mapList_eq, ComponentType.mapList_eq, Elements.mapList_eq, IntersectionElements.mapList_eq, IntersectionElements.mapListList_eq, singleElementConstraint_map, List.map_append, List.map_cons, List.map_nil, Option.map_some, Option.map_none]

theorem ruleAgree_253 : RuleAgree f g 253 := by
  intro lhs rhs h p p' d d' v v' hp3 hp2 hpc hk hv
  cases h
  obtain ⟨rfl, rfl⟩ := hv (by simp)
  have h1 : (d 1).elements.map f g = (d' 1).elements := hk 0 _ rfl
  exact h1

theorem ruleAgree_254 : RuleAgree f g 254 := by
  intro lhs rhs h p p' d d' v v' hp3 hp2 hpc hk hv
  cases h
  obtain ⟨rfl, rfl⟩ := hv (by simp)
  have h1 : (d 1).elements.map f g = (d' 1).elements := hk 0 _ rfl
  exact h1

theorem ruleAgree_255 : RuleAgree f g 255 := by
  intro lhs rhs h p p' d d' v v' hp3 hp2 hpc hk hv
  cases h
  obtain ⟨rfl, rfl⟩ := hv (by simp)
  have h1 : (d 1).elements.map f g = (d' 1).elements := hk 0 _ rfl
  exact h1

theorem ruleAgree_256 : RuleAgree f g 256 := by
  intro lhs rhs h p p' d d' v v' hp3 hp2 hpc hk hv
  cases h
  obtain ⟨rfl, rfl⟩ := hv (by simp)
  have h1 : (d 1).elements.map f g = (d' 1).elements := hk 0 _ rfl
  exact h1

theorem ruleAgree_257 : RuleAgree f g 257 := by
  intro lhs rhs h p p' d d' v v' hp3 hp2 hpc hk hv
  cases h
  obtain ⟨rfl, rfl⟩ := hv (by simp)
  have h1 : (d 1).elements.map f g = (d' 1).elements := hk 0 _ rfl
  exact h1

theorem ruleAgree_258 : RuleAgree f g 258 := by
  intro lhs rhs h p p' d d' v v' hp3 hp2 hpc hk hv
  cases h
  have h1 : (d 1).value.map f = (d' 1).value := hk 0 _ rfl
  show (action 258 p d v).elements.map f g = (action 258 p' d' v').elements
  have e1 : (action 258 p d v).elements = (.singleValue (d 1).value) := rfl
  have e2 : (action 258 p' d' v').elements = (.singleValue (d' 1).value) := rfl
  rw [e1, e2] <;> simp only [← h1, Ty.map, NamedType.map, ComponentType.map, Constraint.map, ConstraintSpec.map, IntersectionElements.map, Elements.map, Value.map, Tag.map, NamedBit.map, RangeEndpoint.map, GlobalModuleReference.map, SymbolsFromModule.map, Assignment.map, ModuleBody.map, ComponentTypeLists.map, ObjectIdElement.map, Ty.mapList_eq, NamedType.mapList_eq, ComponentType.mapList_eq, Elements.mapList_eq, IntersectionElements.mapList_eq, IntersectionElements.mapListList_eq, singleElementConstraint_map, List.map_append, List.map_cons, List.map_nil, Option.map_some, Option.map_none]

theorem ruleAgree_259 : RuleAgree f g 259 := by
  intro lhs rhs h p p' d d' v v' hp3 hp2 hpc hk hv
  cases h
  have h1 : (d 1).rangeEndpoint.map f = (d' 1).rangeEndpoint := hk 0 _ rfl
  have h3 : (d 3).rangeEndpoint.map f = (d' 3).rangeEndpoint := hk 2 _ rfl
  show (action 259 p d v).elements.map f g = (action 259 p' d' v').elements
  have e1 : (action 259 p d v).elements = (.valueRange (d 1).rangeEndpoint (d 3).rangeEndpoint) := rfl
  have e2 : (action 259 p' d' v').elements = (.valueRange (d' 1).rangeEndpoint (d' 3).rangeEndpoint) := rfl
  rw [e1, e2] <;> simp only [← h1, ← h3, Ty.map, NamedType.map, ComponentType.map, Constraint.map, ConstraintSpec.map, IntersectionElements.map, Elements.map, Value.map, Tag.map, NamedBit.map, RangeEndpoint.map, GlobalModuleReference.map, SymbolsFromModule.map, Assignment.map, ModuleBody.map, ComponentTypeLists.map, ObjectIdElement.map, Ty.mapList_eq, NamedType.mapList_eq, ComponentType.mapList_eq, Elements.mapList_eq, IntersectionElements.mapList_eq, IntersectionElements.mapListList_eq, singleElementConstraint_map, List.map_append, List.map_cons, List.map_nil, Option.map_some, Option.map_none]

theorem ruleAgree_260 : RuleAgree f g 260 := by
  intro lhs rhs h p p' d d' v v' hp3 hp2 hpc hk hv
  cases h
  have h1 : (d 1).value.map f = (d' 1).value := hk 0 _ rfl
  show (action 260 p d v).rangeEndpoint.map f = (action 260 p' d' v').rangeEndpoint
  have e1 : (action 260 p d v).rangeEndpoint = ({ value := (d 1).value }) := rfl
  have e2 : (action 260 p' d' v').rangeEndpoint = ({ value := (d' 1).value }) := rfl
  rw [e1, e2] <;> simp only [← h1, Ty.map, NamedType.map, ComponentType.map, Constraint.map, ConstraintSpec.map, IntersectionElements.map, Elements.map, Value.map, Tag.map, NamedBit.map, RangeEndpoint.map, GlobalModuleReference.map, SymbolsFromModule.map, Assignment.map, ModuleBody.map, ComponentTypeLists.map, ObjectIdElement.map, Ty.mapList_eq, NamedType.mapList_eq, ComponentType.mapList_eq, Elements.mapList_eq, IntersectionElements.mapList_eq, IntersectionElements.mapListList_eq, singleElementConstraint_map, List.map_append, List.map_cons, List.map_nil, Option.map_some, Option.map_none]

theorem ruleAgree_261 : RuleAgree f g 261 := by
  intro lhs rhs h p p' d d' v v' hp3 hp2 hpc hk hv
  cases h
  have h1 : (d 1).value.map f = (d' 1).value := hk 0 _ rfl
  show (action 261 p d v).rangeEndpoint.map f = (action 261 p' d' v').rangeEndpoint
  have e1 : (action 261 p d v).rangeEndpoint = ({ value := (d 1).value, isOpen := true }) := rfl
  have e2 : (action 261 p' d' v').rangeEndpoint = ({ value := (d' 1).value, isOpen := true }) := rfl
  rw [e1, e2] <;> simp only [← h1, Ty.map, NamedType.map, ComponentType.map, Constraint.map, ConstraintSpec.map, IntersectionElements.map, Elements.map, Value.map, Tag.map, NamedBit.map, RangeEndpoint.map, GlobalModuleReference.map, SymbolsFromModule.map, Assignment.map, ModuleBody.map, ComponentTypeLists.map, ObjectIdElement.map, Ty.mapList_eq, NamedType.mapList_eq, ComponentType.mapList_eq, Elements.mapList_eq, IntersectionElements.mapList_eq, IntersectionElements.mapListList_eq, singleElementConstraint_map, List.map_append, List.map_cons, List.map_nil, Option.map_some, Option.map_none]

theorem ruleAgree_262 : RuleAgree f g 262 := by
  intro lhs rhs h p p' d d' v v' hp3 hp2 hpc hk hv
  cases h
  have h1 : (d 1).value.map f = (d' 1).value := hk 0 _ rfl
  show (action 262 p d v).rangeEndpoint.map f = (action 262 p' d' v').rangeEndpoint
  have e1 : (action 262 p d v).rangeEndpoint = ({ value := (d 1).value }) := rfl
  have e2 : (action 262 p' d' v').rangeEndpoint = ({ value := (d' 1).value }) := rfl
  rw [e1, e2] <;> simp only [← h1, Ty.map, NamedType.map, ComponentType.map, Constraint.map, ConstraintSpec.map, IntersectionElements.map, Elements.map, Value.map, Tag.map, NamedBit.map, RangeEndpoint.map, GlobalModuleReference.map, SymbolsFromModule.map, Assignment.map, ModuleBody.map, ComponentTypeLists.map, ObjectIdElement.map, Ty.mapList_eq, NamedType.mapList_eq, ComponentType.mapList_eq, Elements.mapList_eq, IntersectionElements.mapList_eq, IntersectionElements.mapListList_eq, singleElementConstraint_map, List.map_append, List.map_cons, List.map_nil, Option.map_some, Option.map_none]

theorem ruleAgree_263 : RuleAgree f g 263 := by
  intro lhs rhs h p p' d d' v v' hp3 hp2 hpc hk hv
  cases h
  have h2 : (d 2).value.map f = (d' 2).value := hk 1 _ rfl
  show (action 263 p d v).rangeEndpoint.map f = (action 263 p' d' v').rangeEndpoint
  have e1 : (action 263 p d v).rangeEndpoint = ({ value := (d 2).value, isOpen := true }) := rfl
  have e2 : (action 263 p' d' v').rangeEndpoint = ({ value := (d' 2).value, isOpen := true }) := rfl
  rw [e1, e2] <;> simp only [← h2, Ty.map, NamedType.map, ComponentType.map, Constraint.map, ConstraintSpec.map, IntersectionElements.map, Elements.map, Value.map, Tag.map, NamedBit.map, RangeEndpoint.map, GlobalModuleReference.map, SymbolsFromModule.map, Assignment.map, ModuleBody.map, ComponentTypeLists.map, ObjectIdElement.map, Ty.mapList_eq, NamedType.mapList_eq, ComponentType.mapList_eq, Elements.mapList_eq, IntersectionElements.mapList_eq, IntersectionElements.mapListList_eq, singleElementConstraint_map, List.map_append, List.map_cons, List.map_nil, Option.map_some, Option.map_none]

theorem ruleAgree_264 : RuleAgree f g 264 := by
  intro lhs rhs h p p' d d' v v' hp3 hp2 hpc hk hv
  cases h
  obtain ⟨rfl, rfl⟩ := hv (by simp)
  have h1 : (d 1).value.map f = (d' 1).value := hk 0 _ rfl
  exact h1

theorem ruleAgree_265 : RuleAgree f g 265 := by
  intro lhs rhs h p p' d d' v v' hp3 hp2 hpc hk hv
  cases h
  show (action 265 p d v).value.map f = (action 265 p' d' v').value
  have e1 : (action 265 p d v).value = (.nil) := rfl
  have e2 : (action 265 p' d' v').value = (.nil) := rfl
  rw [e1, e2] <;> simp only [Ty.map, NamedType.map, ComponentType.map, Constraint.map, ConstraintSpec.map, IntersectionElements.map, Elements.map, Value.map, Tag.map, NamedBit.map, RangeEndpoint.map, GlobalModuleReference.map, SymbolsFromModule.map, Assignment.map, ModuleBody.map, ComponentTypeLists.map, ObjectIdElement.map, Ty.mapList_eq, NamedType.mapList_eq, ComponentType.mapList_eq, Elements.mapList_eq, IntersectionElements.mapList_eq, IntersectionElements.mapListList_eq, singleElementConstraint_map, List.map_append, List.map_cons, List.map_nil, Option.map_some, Option.map_none]

theorem ruleAgree_266 : RuleAgree f g 266 := by
  intro lhs rhs h p p' d d' v v' hp3 hp2 hpc hk hv
  cases h
  obtain ⟨rfl, rfl⟩ := hv (by simp)
  have h1 : (d 1).value.map f = (d' 1).value := hk 0 _ rfl
  exact h1

theorem ruleAgree_267 : RuleAgree f g 267 := by
  intro lhs rhs h p p' d d' v v' hp3 hp2 hpc hk hv
  cases h
  show (action 267 p d v).value.map f = (action 267 p' d' v').value
  have e1 : (action 267 p d v).value = (.nil) := rfl
  have e2 : (action 267 p' d' v').value = (.nil) := rfl
  rw [e1, e2] <;> simp only [Ty.map, NamedType.map, ComponentType.map, Constraint.map, ConstraintSpec.map, IntersectionElements.map, Elements.map, Value.map, Tag.map, NamedBit.map, RangeEndpoint.map, GlobalModuleReference.map, SymbolsFromModule.map, Assignment.map, ModuleBody.map, ComponentTypeLists.map, ObjectIdElement.map, Ty.mapList_eq, NamedType.mapList_eq, ComponentType.mapList_eq, Elements.mapList_eq, IntersectionElements.mapList_eq, IntersectionElements.mapListList_eq, singleElementConstraint_map, List.map_append, List.map_cons, List.map_nil, Option.map_some, Option.map_none]

theorem ruleAgree_268 : RuleAgree f g 268 := by
  intro lhs rhs h p p' d d' v v' hp3 hp2 hpc hk hv
  cases h
  have h2 : (d 2).constraint.map f g = (d' 2).constraint := hk 1 _ rfl
  show (action 268 p d v).elements.map f g = (action 268 p' d' v').elements
  have e1 : (action 268 p d v).elements = (.size (d 2).constraint) := rfl
  have e2 : (action 268 p' d' v').elements = (.size (d' 2).constraint) := rfl
  rw [e1, e2] <;> simp only [← h2, Ty.map, NamedType.map, ComponentType.map, Constraint.map, ConstraintSpec.map, IntersectionElements.map, Elements.map, Value.map, Tag.map, NamedBit.map, RangeEndpoint.map, GlobalModuleReference.map, SymbolsFromModule.map, Assignment.map, ModuleBody.map, ComponentTypeLists.map, ObjectIdElement.map, Ty.mapList_eq, NamedType.mapList_eq, ComponentType.mapList_eq, Elements.mapList_eq, IntersectionElements.mapList_eq, IntersectionElements.mapListList_eq, singleElementConstraint_map, List.map_append, List.map_cons, List.map_nil, Option.map_some, Option.map_none]

theorem ruleAgree_269 : RuleAgree f g 269 := by
  intro lhs rhs h p p' d d' v v' hp3 hp2 hpc hk hv
  cases h
  have h1 : (d 1).type.map f g = (d' 1).type := hk 0 _ rfl
  show (action 269 p d v).elements.map f g = (action 269 p' d' v').elements
  have e1 : (action 269 p d v).elements = (.typeConstraint (d 1).type) := rfl
  have e2 : (action 269 p' d' v').elements = (.typeConstraint (d' 1).type) := rfl
  rw [e1, e2] <;> simp only [← h1, Ty.map, NamedType.map, ComponentType.map, Constraint.map, ConstraintSpec.map, IntersectionElements.map, Elements.map, Value.map, Tag.map, NamedBit.map, RangeEndpoint.map, GlobalModuleReference.map, SymbolsFromModule.map, Assignment.map, ModuleBody.map, ComponentTypeLists.map, ObjectIdElement.map, Ty.mapList_eq, NamedType.mapList_eq, ComponentType.mapList_eq, Elements.mapList_eq, IntersectionElements.mapList_eq, IntersectionElements.mapListList_eq, singleElementConstraint_map, List.map_append, List.map_cons, List.map_nil, Option.map_some, Option.map_none]

theorem ruleAgree_270 : RuleAgree f g 270 := by
  intro lhs rhs h p p' d d' v v' hp3 hp2 hpc hk hv
  cases h
  show (action 270 p d v).elements.map f g = (action 270 p' d' v').elements
  have e1 : (action 270 p d v).elements = (.inner) := rfl
  have e2 : (action 270 p' d' v').elements = (.inner) := rfl
  rw [e1, e2] <;> simp only [Ty.map, NamedType.map, ComponentType.map, Constraint.map, ConstraintSpec.map, IntersectionElements.map, Elements.map, Value.map, Tag.map, NamedBit.map, RangeEndpoint.map, GlobalModuleReference.map, SymbolsFromModule.map, Assignment.map, ModuleBody.map, ComponentTypeLists.map, ObjectIdElement.map, Ty.mapList_eq, NamedType.mapList_eq, ComponentType.mapList_eq, Elements.mapList_eq, IntersectionElements.mapList_eq, IntersectionElements.mapListList_eq, singleElementConstraint_map, List.map_append, List.map_cons, List.map_nil, Option.map_some, Option.map_none]

theorem ruleAgree_271 : RuleAgree f g 271 := by
  intro lhs rhs h p p' d d' v v' hp3 hp2 hpc hk hv
  cases h
  show (action 271 p d v).elements.map f g = (action 271 p' d' v').elements
  have e1 : (action 271 p d v).elements = (.inner) := rfl
  have e2 : (action 271 p' d' v').elements = (.inner) := rfl
  rw [e1, e2] <;> simp only [Ty.map, NamedType.map, ComponentType.map, Constraint.map, ConstraintSpec.map, IntersectionElements.map, Elements.map, Value.map, Tag.map, NamedBit.map, RangeEndpoint.map, GlobalModuleReference.map, SymbolsFromModule.map, Assignment.map, ModuleBody.map, ComponentTypeLists.map, ObjectIdElement.map, Ty.mapList_eq, NamedType.mapList_eq, ComponentType.mapList_eq, Elements.mapList_eq, IntersectionElements.mapList_eq, IntersectionElements.mapListList_eq, singleElementConstraint_map, List.map_append, List.map_cons, List.map_nil, Option.map_some, Option.map_none]

theorem ruleAgree_272 : RuleAgree f g 272 := by
  intro lhs rhs h p p' d d' v v' hp3 hp2 hpc hk hv
  cases h; exact True.intro

theorem ruleAgree_273 : RuleAgree f g 273 := by
  intro lhs rhs h p p' d d' v v' hp3 hp2 hpc hk hv
  cases h; exact True.intro

theorem ruleAgree_274 : RuleAgree f g 274 := by
  intro lhs rhs h p p' d d' v v' hp3 hp2 hpc hk hv
  cases h; exact True.intro

theorem ruleAgree_275 : RuleAgree f g 275 := by
  intro lhs rhs h p p' d d' v v' hp3 hp2 hpc hk hv
  cases h; exact True.intro

theorem ruleAgree_276 : RuleAgree f g 276 := by
  intro lhs rhs h p p' d d' v v' hp3 hp2 hpc hk hv
  cases h; exact True.intro

theorem ruleAgree_277 : RuleAgree f g 277 := by
  intro lhs rhs h p p' d d' v v' hp3 hp2 hpc hk hv
  cases h; exact True.intro

theorem ruleAgree_278 : RuleAgree f g 278 := by
  intro lhs rhs h p p' d d' v v' hp3 hp2 hpc hk hv
  cases h; exact True.intro

theorem ruleAgree_279 : RuleAgree f g 279 := by
  intro lhs rhs h p p' d d' v v' hp3 hp2 hpc hk hv
  cases h; exact True.intro

theorem ruleAgree_280 : RuleAgree f g 280 := by
  intro lhs rhs h p p' d d' v v' hp3 hp2 hpc hk hv
  cases h; exact True.intro

theorem ruleAgree_281 : RuleAgree f g 281 := by
  intro lhs rhs h p p' d d' v v' hp3 hp2 hpc hk hv
  cases h; exact True.intro

theorem ruleAgree_282 : RuleAgree f g 282 := by
  intro lhs rhs h p p' d d' v v' hp3 hp2 hpc hk hv
  cases h; exact True.intro

theorem ruleAgree_283 : RuleAgree f g 283 := by
  intro lhs rhs h p p' d d' v v' hp3 hp2 hpc hk hv
  cases h; exact True.intro

theorem ruleAgree_284 : RuleAgree f g 284 := by
  intro lhs rhs h p p' d d' v v' hp3 hp2 hpc hk hv
  cases h; exact True.intro

theorem ruleAgree_285 : RuleAgree f g 285 := by
  intro lhs rhs h p p' d d' v v' hp3 hp2 hpc hk hv
  cases h; exact True.intro

theorem ruleAgree_286 : RuleAgree f g 286 := by
  intro lhs rhs h p p' d d' v v' hp3 hp2 hpc hk hv
  cases h; exact True.intro

theorem ruleAgree_287 : RuleAgree f g 287 := by
  intro lhs rhs h p p' d d' v v' hp3 hp2 hpc hk hv
  cases h; exact True.intro

theorem ruleAgree_288 : RuleAgree f g 288 := by
  intro lhs rhs h p p' d d' v v' hp3 hp2 hpc hk hv
  cases h; exact True.intro

theorem ruleAgree_289 : RuleAgree f g 289 := by
  intro lhs rhs h p p' d d' v v' hp3 hp2 hpc hk hv
  cases h; exact True.intro

theorem ruleAgree_290 : RuleAgree f g 290 := by
  intro lhs rhs h p p' d d' v v' hp3 hp2 hpc hk hv
  cases h; exact True.intro

theorem ruleAgree_291 : RuleAgree f g 291 := by
  intro lhs rhs h p p' d d' v v' hp3 hp2 hpc hk hv
  cases h; exact True.intro

theorem ruleAgree (r : Nat) (h1 : 1 ≤ r) (h2 : r ≤ 291) : RuleAgree f g r :=
  match r, h1, h2 with
  | 1, _, _ => ruleAgree_1 f g
  | 2, _, _ => ruleAgree_2 f g
  | 3, _, _ => ruleAgree_3 f g
  | 4, _, _ => ruleAgree_4 f g
  | 5, _, _ => ruleAgree_5 f g
  | 6, _, _ => ruleAgree_6 f g
  | 7, _, _ => ruleAgree_7 f g
  | 8, _, _ => ruleAgree_8 f g
  | 9, _, _ => ruleAgree_9 f g
  | 10, _, _ => ruleAgree_10 f g
  | 11, _, _ => ruleAgree_11 f g
  | 12, _, _ => ruleAgree_12 f g
  | 13, _, _ => ruleAgree_13 f g
  | 14, _, _ => ruleAgree_14 f g
  | 15, _, _ => ruleAgree_15 f g
  | 16, _, _ => ruleAgree_16 f g
  | 17, _, _ => ruleAgree_17 f g
  | 18, _, _ => ruleAgree_18 f g
  | 19, _, _ => ruleAgree_19 f g
  | 20, _, _ => ruleAgree_20 f g
  | 21, _, _ => ruleAgree_21 f g
  | 22, _, _ => ruleAgree_22 f g
  | 23, _, _ => ruleAgree_23 f g
  | 24, _, _ => ruleAgree_24 f g
  | 25, _, _ => ruleAgree_25 f g
  | 26, _, _ => ruleAgree_26 f g
  | 27, _, _ => ruleAgree_27 f g
  | 28, _, _ => ruleAgree_28 f g
  | 29, _, _ => ruleAgree_29 f g
  | 30, _, _ => ruleAgree_30 f g
  | 31, _, _ => ruleAgree_31 f g
  | 32, _, _ => ruleAgree_32 f g
  | 33, _, _ => ruleAgree_33 f g
  | 34, _, _ => ruleAgree_34 f g
  | 35, _, _ => ruleAgree_35 f g
  | 36, _, _ => ruleAgree_36 f g
  | 37, _, _ => ruleAgree_37 f g
  | 38, _, _ => ruleAgree_38 f g
  | 39, _, _ => ruleAgree_39 f g
  | 40, _, _ => ruleAgree_40 f g
  | 41, _, _ => ruleAgree_41 f g
  | 42, _, _ => ruleAgree_42 f g
  | 43, _, _ => ruleAgree_43 f g
  | 44, _, _ => ruleAgree_44 f g
  | 45, _, _ => ruleAgree_45 f g
  | 46, _, _ => ruleAgree_46 f g
  | 47, _, _ => ruleAgree_47 f g
  | 48, _, _ => ruleAgree_48 f g
  | 49, _, _ => ruleAgree_49 f g
  | 50, _, _ => ruleAgree_50 f g
  | 51, _, _ => ruleAgree_51 f g
  | 52, _, _ => ruleAgree_52 f g
  | 53, _, _ => ruleAgree_53 f g
  | 54, _, _ => ruleAgree_54 f g
  | 55, _, _ => ruleAgree_55 f g
  | 56, _, _ => ruleAgree_56 f g
  | 57, _, _ => ruleAgree_57 f g
  | 58, _, _ => ruleAgree_58 f g
  | 59, _, _ => ruleAgree_59 f g
  | 60, _, _ => ruleAgree_60 f g
  | 61, _, _ => ruleAgree_61 f g
  | 62, _, _ => ruleAgree_62 f g
  | 63, _, _ => ruleAgree_63 f g
  | 64, _, _ => ruleAgree_64 f g
  | 65, _, _ => ruleAgree_65 f g
  | 66, _, _ => ruleAgree_66 f g
  | 67, _, _ => ruleAgree_67 f g
  | 68, _, _ => ruleAgree_68 f g
  | 69, _, _ => ruleAgree_69 f g
  | 70, _, _ => ruleAgree_70 f g
  | 71, _, _ => ruleAgree_71 f g
  | 72, _, _ => ruleAgree_72 f g
  | 73, _, _ => ruleAgree_73 f g
  | 74, _, _ => ruleAgree_74 f g
  | 75, _, _ => ruleAgree_75 f g
  | 76, _, _ => ruleAgree_76 f g
  | 77, _, _ => ruleAgree_77 f g
  | 78, _, _ => ruleAgree_78 f g
  | 79, _, _ => ruleAgree_79 f g
  | 80, _, _ => ruleAgree_80 f g
  | 81, _, _ => ruleAgree_81 f g
  | 82, _, _ => ruleAgree_82 f g
  | 83, _, _ => ruleAgree_83 f g
  | 84, _, _ => ruleAgree_84 f g
  | 85, _, _ => ruleAgree_85 f g
  | 86, _, _ => ruleAgree_86 f g
  | 87, _, _ => ruleAgree_87 f g
  | 88, _, _ => ruleAgree_88 f g
  | 89, _, _ => ruleAgree_89 f g
  | 90, _, _ => ruleAgree_90 f g
  | 91, _, _ => ruleAgree_91 f g
  | 92, _, _ => ruleAgree_92 f g
  | 93, _, _ => ruleAgree_93 f g
  | 94, _, _ => ruleAgree_94 f g
  | 95, _, _ => ruleAgree_95 f g
  | 96, _, _ => ruleAgree_96 f g
  | 97, _, _ => ruleAgree_97 f g
  | 98, _, _ => ruleAgree_98 f g
  | 99, _, _ => ruleAgree_99 f g
  | 100, _, _ => ruleAgree_100 f g
  | 101, _, _ => ruleAgree_101 f g
  | 102, _, _ => ruleAgree_102 f g
  | 103, _, _ => ruleAgree_103 f g
  | 104, _, _ => ruleAgree_104 f g
  | 105, _, _ => ruleAgree_105 f g
  | 106, _, _ => ruleAgree_106 f g
  | 107, _, _ => ruleAgree_107 f g
  | 108, _, _ => ruleAgree_108 f g
  | 109, _, _ => ruleAgree_109 f g
  | 110, _, _ => ruleAgree_110 f g
  | 111, _, _ => ruleAgree_111 f g
  | 112, _, _ => ruleAgree_112 f g
  | 113, _, _ => ruleAgree_113 f g
  | 114, _, _ => ruleAgree_114 f g
  | 115, _, _ => ruleAgree_115 f g
  | 116, _, _ => ruleAgree_116 f g
  | 117, _, _ => ruleAgree_117 f g
  | 118, _, _ => ruleAgree_118 f g
  | 119, _, _ => ruleAgree_119 f g
  | 120, _, _ => ruleAgree_120 f g
  | 121, _, _ => ruleAgree_121 f g
  | 122, _, _ => ruleAgree_122 f g
  | 123, _, _ => ruleAgree_123 f g
  | 124, _, _ => ruleAgree_124 f g
  | 125, _, _ => ruleAgree_125 f g
  | 126, _, _ => ruleAgree_126 f g
  | 127, _, _ => ruleAgree_127 f g
  | 128, _, _ => ruleAgree_128 f g
  | 129, _, _ => ruleAgree_129 f g
  | 130, _, _ => ruleAgree_130 f g
  | 131, _, _ => ruleAgree_131 f g
  | 132, _, _ => ruleAgree_132 f g
  | 133, _, _ => ruleAgree_133 f g
  | 134, _, _ => ruleAgree_134 f g
  | 135, _, _ => ruleAgree_135 f g
  | 136, _, _ => ruleAgree_136 f g
  | 137, _, _ => ruleAgree_137 f g
  | 138, _, _ => ruleAgree_138 f g
  | 139, _, _ => ruleAgree_139 f g
  | 140, _, _ => ruleAgree_140 f g
  | 141, _, _ => ruleAgree_141 f g
  | 142, _, _ => ruleAgree_142 f g
  | 143, _, _ => ruleAgree_143 f g
  | 144, _, _ => ruleAgree_144 f g
  | 145, _, _ => ruleAgree_145 f g
  | 146, _, _ => ruleAgree_146 f g
  | 147, _, _ => ruleAgree_147 f g
  | 148, _, _ => ruleAgree_148 f g
  | 149, _, _ => ruleAgree_149 f g
  | 150, _, _ => ruleAgree_150 f g
  | 151, _, _ => ruleAgree_151 f g
  | 152, _, _ => ruleAgree_152 f g
  | 153, _, _ => ruleAgree_153 f g
  | 154, _, _ => ruleAgree_154 f g
  | 155, _, _ => ruleAgree_155 f g
  | 156, _, _ => ruleAgree_156 f g
  | 157, _, _ => ruleAgree_157 f g
  | 158, _, _ => ruleAgree_158 f g
  | 159, _, _ => ruleAgree_159 f g
  | 160, _, _ => ruleAgree_160 f g
  | 161, _, _ => ruleAgree_161 f g
  | 162, _, _ => ruleAgree_162 f g
  | 163, _, _ => ruleAgree_163 f g
  | 164, _, _ => ruleAgree_164 f g
  | 165, _, _ => ruleAgree_165 f g
  | 166, _, _ => ruleAgree_166 f g
  | 167, _, _ => ruleAgree_167 f g
  | 168, _, _ => ruleAgree_168 f g
  | 169, _, _ => ruleAgree_169 f g
  | 170, _, _ => ruleAgree_170 f g
  | 171, _, _ => ruleAgree_171 f g
  | 172, _, _ => ruleAgree_172 f g
  | 173, _, _ => ruleAgree_173 f g
  | 174, _, _ => ruleAgree_174 f g
  | 175, _, _ => ruleAgree_175 f g
  | 176, _, _ => ruleAgree_176 f g
  | 177, _, _ => ruleAgree_177 f g
  | 178, _, _ => ruleAgree_178 f g
  | 179, _, _ => ruleAgree_179 f g
  | 180, _, _ => ruleAgree_180 f g
  | 181, _, _ => ruleAgree_181 f g
  | 182, _, _ => ruleAgree_182 f g
  | 183, _, _ => ruleAgree_183 f g
  | 184, _, _ => ruleAgree_184 f g
  | 185, _, _ => ruleAgree_185 f g
  | 186, _, _ => ruleAgree_186 f g
  | 187, _, _ => ruleAgree_187 f g
  | 188, _, _ => ruleAgree_188 f g
  | 189, _, _ => ruleAgree_189 f g
  | 190, _, _ => ruleAgree_190 f g
  | 191, _, _ => ruleAgree_191 f g
  | 192, _, _ => ruleAgree_192 f g
  | 193, _, _ => ruleAgree_193 f g
  | 194, _, _ => ruleAgree_194 f g
  | 195, _, _ => ruleAgree_195 f g
  | 196, _, _ => ruleAgree_196 f g
  | 197, _, _ => ruleAgree_197 f g
  | 198, _, _ => ruleAgree_198 f g
  | 199, _, _ => ruleAgree_199 f g
  | 200, _, _ => ruleAgree_200 f g
  | 201, _, _ => ruleAgree_201 f g
  | 202, _, _ => ruleAgree_202 f g
  | 203, _, _ => ruleAgree_203 f g
  | 204, _, _ => ruleAgree_204 f g
  | 205, _, _ => ruleAgree_205 f g
  | 206, _, _ => ruleAgree_206 f g
  | 207, _, _ => ruleAgree_207 f g
  | 208, _, _ => ruleAgree_208 f g
  | 209, _, _ => ruleAgree_209 f g
  | 210, _, _ => ruleAgree_210 f g
  | 211, _, _ => ruleAgree_211 f g
  | 212, _, _ => ruleAgree_212 f g
  | 213, _, _ => ruleAgree_213 f g
  | 214, _, _ => ruleAgree_214 f g
  | 215, _, _ => ruleAgree_215 f g
  | 216, _, _ => ruleAgree_216 f g
  | 217, _, _ => ruleAgree_217 f g
  | 218, _, _ => ruleAgree_218 f g
  | 219, _, _ => ruleAgree_219 f g
  | 220, _, _ => ruleAgree_220 f g
  | 221, _, _ => ruleAgree_221 f g
  | 222, _, _ => ruleAgree_222 f g
  | 223, _, _ => ruleAgree_223 f g
  | 224, _, _ => ruleAgree_224 f g
  | 225, _, _ => ruleAgree_225 f g
  | 226, _, _ => ruleAgree_226 f g
  | 227, _, _ => ruleAgree_227 f g
  | 228, _, _ => ruleAgree_228 f g
  | 229, _, _ => ruleAgree_229 f g
  | 230, _, _ => ruleAgree_230 f g
  | 231, _, _ => ruleAgree_231 f g
  | 232, _, _ => ruleAgree_232 f g
  | 233, _, _ => ruleAgree_233 f g
  | 234, _, _ => ruleAgree_234 f g
  | 235, _, _ => ruleAgree_235 f g
  | 236, _, _ => ruleAgree_236 f g
  | 237, _, _ => ruleAgree_237 f g
  | 238, _, _ => ruleAgree_238 f g
  | 239, _, _ => ruleAgree_239 f g
  | 240, _, _ => ruleAgree_240 f g
  | 241, _, _ => ruleAgree_241 f g
  | 242, _, _ => ruleAgree_242 f g
  | 243, _, _ => ruleAgree_243 f g
  | 244, _, _ => ruleAgree_244 f g
  | 245, _, _ => ruleAgree_245 f g
  | 246, _, _ => ruleAgree_246 f g
  | 247, _, _ => ruleAgree_247 f g
  | 248, _, _ => ruleAgree_248 f g
  | 249, _, _ => ruleAgree_249 f g
  | 250, _, _ => ruleAgree_250 f g
  | 251, _, _ => ruleAgree_251 f g
  | 252, _, _ => ruleAgree_252 f g
  | 253, _, _ => ruleAgree_253 f g
  | 254, _, _ => ruleAgree_254 f g
  | 255, _, _ => ruleAgree_255 f g
  | 256, _, _ => ruleAgree_256 f g
  | 257, _, _ => ruleAgree_257 f g
  | 258, _, _ => ruleAgree_258 f g
  | 259, _, _ => ruleAgree_259 f g
  | 260, _, _ => ruleAgree_260 f g
  | 261, _, _ => ruleAgree_261 f g
  | 262, _, _ => ruleAgree_262 f g
  | 263, _, _ => ruleAgree_263 f g
  | 264, _, _ => ruleAgree_264 f g
  | 265, _, _ => ruleAgree_265 f g
  | 266, _, _ => ruleAgree_266 f g
  | 267, _, _ => ruleAgree_267 f g
  | 268, _, _ => ruleAgree_268 f g
  | 269, _, _ => ruleAgree_269 f g
  | 270, _, _ => ruleAgree_270 f g
  | 271, _, _ => ruleAgree_271 f g
  | 272, _, _ => ruleAgree_272 f g
  | 273, _, _ => ruleAgree_273 f g
  | 274, _, _ => ruleAgree_274 f g
  | 275, _, _ => ruleAgree_275 f g
  | 276, _, _ => ruleAgree_276 f g
  | 277, _, _ => ruleAgree_277 f g
  | 278, _, _ => ruleAgree_278 f g
  | 279, _, _ => ruleAgree_279 f g
  | 280, _, _ => ruleAgree_280 f g
  | 281, _, _ => ruleAgree_281 f g
  | 282, _, _ => ruleAgree_282 f g
  | 283, _, _ => ruleAgree_283 f g
  | 284, _, _ => ruleAgree_284 f g
  | 285, _, _ => ruleAgree_285 f g
  | 286, _, _ => ruleAgree_286 f g
  | 287, _, _ => ruleAgree_287 f g
  | 288, _, _ => ruleAgree_288 f g
  | 289, _, _ => ruleAgree_289 f g
  | 290, _, _ => ruleAgree_290 f g
  | 291, _, _ => ruleAgree_291 f g
  | 0, h, _ => absurd h (by omega)
  | n + 292, _, h => absurd h (by omega)

end Asn1go.LR
