import Verif.Model.Ast

/-! Facts about the structural maps of the AST. -/

namespace Asn1go

variable {R R' D D' : Type} (f : R → R') (g : D → D')

theorem Ty.mapList_eq (l : List (Ty R D)) : Ty.mapList f g l = l.map (Ty.map f g) := by
  induction l with
  | nil => rfl
  | cons a l ih => simp [Ty.mapList, ih]

theorem NamedType.mapList_eq (l : List (NamedType R D)) : NamedType.mapList f g l = l.map (NamedType.map f g) := by
  induction l with
  | nil => rfl
  | cons a l ih => simp [NamedType.mapList, ih]

theorem ComponentType.mapList_eq (l : List (ComponentType R D)) :
    ComponentType.mapList f g l = l.map (ComponentType.map f g) := by
  induction l with
  | nil => rfl
  | cons a l ih => simp [ComponentType.mapList, ih]

theorem Elements.mapList_eq (l : List (Elements R D)) : Elements.mapList f g l = l.map (Elements.map f g) := by
  induction l with
  | nil => rfl
  | cons a l ih => simp [Elements.mapList, ih]

theorem IntersectionElements.mapList_eq (l : List (IntersectionElements R D)) :
    IntersectionElements.mapList f g l = l.map (IntersectionElements.map f g) := by
  induction l with
  | nil => rfl
  | cons a l ih => simp [IntersectionElements.mapList, ih]

theorem IntersectionElements.mapListList_eq (l : List (List (IntersectionElements R D))) :
    IntersectionElements.mapListList f g l = l.map (IntersectionElements.mapList f g) := by
  induction l with
  | nil => rfl
  | cons a l ih => simp [IntersectionElements.mapListList, ih]

theorem singleElementConstraint_map (e : Elements R D) :
    (singleElementConstraint e).map f g = singleElementConstraint (e.map f g) := rfl

section Comp

variable {R'' D'' : Type} (f' : R' → R'') (g' : D' → D'')

theorem ObjectIdElement.map_map (e : ObjectIdElement R) : (e.map f).map f' = e.map (fun x => f' (f x)) := by
  simp [ObjectIdElement.map, Option.map_map, Function.comp_def]

theorem Value.map_map (v : Value R) : (v.map f).map f' = v.map (fun x => f' (f x)) := by
  cases v <;> simp [Value.map, Function.comp_def, ObjectIdElement.map_map]

theorem Tag.map_map (v : Tag R) : (v.map f).map f' = v.map (fun x => f' (f x)) := by
  simp [Tag.map, Value.map_map]

theorem NamedBit.map_map (v : NamedBit R) : (v.map f).map f' = v.map (fun x => f' (f x)) := by
  simp [NamedBit.map, Value.map_map]

theorem RangeEndpoint.map_map (v : RangeEndpoint R) : (v.map f).map f' = v.map (fun x => f' (f x)) := by
  simp [RangeEndpoint.map, Value.map_map]

mutual

theorem Ty.map_map : ∀ t : Ty R D, (t.map f g).map f' g' = t.map (fun x => f' (f x)) (fun x => g' (g x))
  | .nil | .null | .objectIdentifier | .integer _ | .enumerated _ _ | .real | .boolean | .restrictedString _
  | .characterString | .octetString | .any _ | .ref _ => by simp [Ty.map]
  | .choice a e => by simp [Ty.map, NamedType.mapList_map a, Ty.mapList_map e]
  | .sequence a e => by simp [Ty.map, ComponentType.mapList_map a, ComponentType.mapList_map e]
  | .set a e => by simp [Ty.map, ComponentType.mapList_map a, ComponentType.mapList_map e]
  | .tagged t ty tt h => by simp [Ty.map, Tag.map_map, Ty.map_map ty]
  | .sequenceOf t => by simp [Ty.map, Ty.map_map t]
  | .setOf t => by simp [Ty.map, Ty.map_map t]
  | .bitString l => by simp [Ty.map, Function.comp_def, NamedBit.map_map]
  | .constrained t c => by simp [Ty.map, Ty.map_map t, Constraint.map_map c]
  | .named n => by simp [Ty.map, NamedType.map_map n]

theorem Ty.mapList_map : ∀ l : List (Ty R D),
    Ty.mapList f' g' (Ty.mapList f g l) = Ty.mapList (fun x => f' (f x)) (fun x => g' (g x)) l
  | [] => by simp [Ty.mapList]
  | t :: l => by simp [Ty.mapList, Ty.map_map t, Ty.mapList_map l]

theorem NamedType.map_map : ∀ t : NamedType R D, (t.map f g).map f' g' = t.map (fun x => f' (f x)) (fun x => g' (g x))
  | .mk i t => by simp [NamedType.map, Ty.map_map t]

theorem NamedType.mapList_map : ∀ l : List (NamedType R D),
    NamedType.mapList f' g' (NamedType.mapList f g l) = NamedType.mapList (fun x => f' (f x)) (fun x => g' (g x)) l
  | [] => by simp [NamedType.mapList]
  | t :: l => by simp [NamedType.mapList, NamedType.map_map t, NamedType.mapList_map l]

theorem ComponentType.map_map : ∀ t : ComponentType R D, (t.map f g).map f' g' = t.map (fun x => f' (f x)) (fun x => g' (g x))
  | .nil => by simp [ComponentType.map]
  | .named n o d => by simp [ComponentType.map, NamedType.map_map n, Option.map_map, Function.comp_def]
  | .componentsOf t => by simp [ComponentType.map, Ty.map_map t]

theorem ComponentType.mapList_map : ∀ l : List (ComponentType R D),
    ComponentType.mapList f' g' (ComponentType.mapList f g l) = ComponentType.mapList (fun x => f' (f x)) (fun x => g' (g x)) l
  | [] => by simp [ComponentType.mapList]
  | t :: l => by simp [ComponentType.mapList, ComponentType.map_map t, ComponentType.mapList_map l]

theorem Constraint.map_map : ∀ t : Constraint R D, (t.map f g).map f' g' = t.map (fun x => f' (f x)) (fun x => g' (g x))
  | .mk s => by simp [Constraint.map, ConstraintSpec.map_map s]

theorem ConstraintSpec.map_map : ∀ t : ConstraintSpec R D, (t.map f g).map f' g' = t.map (fun x => f' (f x)) (fun x => g' (g x))
  | .nil | .general => by simp [ConstraintSpec.map]
  | .subtype l => by simp [ConstraintSpec.map, Elements.mapList_map l]

theorem IntersectionElements.map_map : ∀ t : IntersectionElements R D,
    (t.map f g).map f' g' = t.map (fun x => f' (f x)) (fun x => g' (g x))
  | .mk a b => by simp [IntersectionElements.map, Elements.map_map a, Elements.map_map b]

theorem IntersectionElements.mapList_map : ∀ l : List (IntersectionElements R D),
    IntersectionElements.mapList f' g' (IntersectionElements.mapList f g l) =
      IntersectionElements.mapList (fun x => f' (f x)) (fun x => g' (g x)) l
  | [] => by simp [IntersectionElements.mapList]
  | t :: l => by simp [IntersectionElements.mapList, IntersectionElements.map_map t, IntersectionElements.mapList_map l]

theorem IntersectionElements.mapListList_map : ∀ l : List (List (IntersectionElements R D)),
    IntersectionElements.mapListList f' g' (IntersectionElements.mapListList f g l) =
      IntersectionElements.mapListList (fun x => f' (f x)) (fun x => g' (g x)) l
  | [] => by simp [IntersectionElements.mapListList]
  | t :: l => by
    simp [IntersectionElements.mapListList, IntersectionElements.mapList_map t, IntersectionElements.mapListList_map l]

theorem Elements.map_map : ∀ t : Elements R D, (t.map f g).map f' g' = t.map (fun x => f' (f x)) (fun x => g' (g x))
  | .nil | .inner => by simp [Elements.map]
  | .unions l => by simp [Elements.map, IntersectionElements.mapListList_map l]
  | .exclusions e => by simp [Elements.map, Elements.map_map e]
  | .singleValue v => by simp [Elements.map, Value.map_map]
  | .valueRange a b => by simp [Elements.map, RangeEndpoint.map_map]
  | .typeConstraint t => by simp [Elements.map, Ty.map_map t]
  | .size c => by simp [Elements.map, Constraint.map_map c]

theorem Elements.mapList_map : ∀ l : List (Elements R D),
    Elements.mapList f' g' (Elements.mapList f g l) = Elements.mapList (fun x => f' (f x)) (fun x => g' (g x)) l
  | [] => by simp [Elements.mapList]
  | t :: l => by simp [Elements.mapList, Elements.map_map t, Elements.mapList_map l]

end

theorem Assignment.map_map (t : Assignment R D) : (t.map f g).map f' g' = t.map (fun x => f' (f x)) (fun x => g' (g x)) := by
  cases t <;> simp [Assignment.map, Ty.map_map, Value.map_map]

theorem SymbolsFromModule.map_map (t : SymbolsFromModule R) : (t.map f).map f' = t.map (fun x => f' (f x)) := by
  simp [SymbolsFromModule.map, GlobalModuleReference.map, Value.map_map]

theorem ModuleBody.map_map (t : ModuleBody R D) : (t.map f g).map f' g' = t.map (fun x => f' (f x)) (fun x => g' (g x)) := by
  simp [ModuleBody.map, Assignment.map_map, SymbolsFromModule.map_map, Function.comp_def]

theorem ModuleDefinition.map_map (t : ModuleDefinition R D) :
    (t.map f g).map f' g' = t.map (fun x => f' (f x)) (fun x => g' (g x)) := by
  simp [ModuleDefinition.map, ModuleBody.map_map]

end Comp

theorem Assignment.name_map (t : Assignment R D) : (t.map f g).name = t.name := by
  cases t <;> rfl

end Asn1go
