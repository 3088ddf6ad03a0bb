import Verif.Proofs.LR.MapLemmas

/-! From equality of two syntax trees under some maps to equality under others. -/

namespace Asn1go

/-- Whatever is equal under `f` and `f'` is equal under `h` and `h'`. -/
def Follows {A A' B C : Type} (f : A → B) (f' : A' → B) (h : A → C) (h' : A' → C) : Prop := ∀ a a', f a = f' a' → h a = h' a'

theorem list_map_rel {A A' B C : Type} {f : A → B} {f' : A' → B} {h : A → C} {h' : A' → C} (r : Follows f f' h h') :
    ∀ {l : List A} {l' : List A'}, l.map f = l'.map f' → l.map h = l'.map h'
  | [], [], _ => rfl
  | [], _ :: _, e => by simp at e
  | _ :: _, [], e => by simp at e
  | a :: l, a' :: l', e => by
    simp only [List.map_cons, List.cons.injEq] at e ⊢
    exact ⟨r _ _ e.1, list_map_rel r e.2⟩

theorem option_map_rel {A A' B C : Type} {f : A → B} {f' : A' → B} {h : A → C} {h' : A' → C} (r : Follows f f' h h') :
    ∀ {l : Option A} {l' : Option A'}, l.map f = l'.map f' → l.map h = l'.map h'
  | none, none, _ => rfl
  | none, some _, e => by simp at e
  | some _, none, e => by simp at e
  | some a, some a', e => by
    simp only [Option.map_some, Option.some.injEq] at e ⊢
    exact r _ _ e

section

variable {R R' S U D D' E F : Type} {f : R → S} {f' : R' → S} {h : R → U} {h' : R' → U}
  {g : D → E} {g' : D' → E} {k : D → F} {k' : D' → F}

theorem ObjectIdElement.map_rel (r : Follows f f' h h') :
    Follows (ObjectIdElement.map f) (ObjectIdElement.map f') (ObjectIdElement.map h) (ObjectIdElement.map h') := by
  intro a a' e
  simp only [ObjectIdElement.map, ObjectIdElement.mk.injEq] at e ⊢
  exact ⟨e.1, e.2.1, option_map_rel r e.2.2⟩

theorem Value.map_rel (r : Follows f f' h h') : Follows (Value.map f) (Value.map f') (Value.map h) (Value.map h') := by
  intro a a' e
  cases a <;> cases a' <;> simp only [Value.map, reduceCtorEq, Value.number.injEq, Value.real.injEq, Value.boolean.injEq,
    Value.defined.injEq, Value.identifiedInteger.injEq, Value.objectIdentifier.injEq] at e ⊢ <;>
    first | exact e | exact list_map_rel (ObjectIdElement.map_rel r) e

theorem Tag.map_rel (r : Follows f f' h h') : Follows (Tag.map f) (Tag.map f') (Tag.map h) (Tag.map h') := by
  intro a a' e
  simp only [Tag.map, Tag.mk.injEq] at e ⊢
  exact ⟨e.1, Value.map_rel r _ _ e.2⟩

theorem NamedBit.map_rel (r : Follows f f' h h') : Follows (NamedBit.map f) (NamedBit.map f') (NamedBit.map h) (NamedBit.map h') := by
  intro a a' e
  simp only [NamedBit.map, NamedBit.mk.injEq] at e ⊢
  exact ⟨e.1, Value.map_rel r _ _ e.2⟩

theorem RangeEndpoint.map_rel (r : Follows f f' h h') :
    Follows (RangeEndpoint.map f) (RangeEndpoint.map f') (RangeEndpoint.map h) (RangeEndpoint.map h') := by
  intro a a' e
  simp only [RangeEndpoint.map, RangeEndpoint.mk.injEq] at e ⊢
  exact ⟨Value.map_rel r _ _ e.1, e.2⟩

mutual

theorem Ty.map_rel (r : Follows f f' h h') (q : Follows g g' k k') : ∀ (t : Ty R D) (t' : Ty R' D'),
    t.map f g = t'.map f' g' → t.map h k = t'.map h' k'
  | .nil, t', e | .null, t', e | .objectIdentifier, t', e | .integer _, t', e | .enumerated _ _, t', e | .real, t', e
  | .boolean, t', e | .restrictedString _, t', e | .characterString, t', e | .octetString, t', e | .any _, t', e | .ref _, t', e => by
    cases t' <;> simp only [Ty.map, reduceCtorEq, Ty.integer.injEq, Ty.enumerated.injEq, Ty.restrictedString.injEq, Ty.any.injEq,
      Ty.ref.injEq] at e ⊢
    all_goals exact e
  | .choice a x, t', e => by
    cases t' <;> simp only [Ty.map, reduceCtorEq, Ty.choice.injEq] at e ⊢
    exact ⟨NamedType.mapList_rel r q _ _ e.1, Ty.mapList_rel r q _ _ e.2⟩
  | .sequence a x, t', e => by
    cases t' <;> simp only [Ty.map, reduceCtorEq, Ty.sequence.injEq] at e ⊢
    exact ⟨ComponentType.mapList_rel r q _ _ e.1, ComponentType.mapList_rel r q _ _ e.2⟩
  | .set a x, t', e => by
    cases t' <;> simp only [Ty.map, reduceCtorEq, Ty.set.injEq] at e ⊢
    exact ⟨ComponentType.mapList_rel r q _ _ e.1, ComponentType.mapList_rel r q _ _ e.2⟩
  | .tagged t ty tt b, t', e => by
    cases t' <;> simp only [Ty.map, reduceCtorEq, Ty.tagged.injEq] at e ⊢
    exact ⟨Tag.map_rel r _ _ e.1, Ty.map_rel r q _ _ e.2.1, e.2.2⟩
  | .sequenceOf t, t', e => by
    cases t' <;> simp only [Ty.map, reduceCtorEq, Ty.sequenceOf.injEq] at e ⊢
    exact Ty.map_rel r q _ _ e
  | .setOf t, t', e => by
    cases t' <;> simp only [Ty.map, reduceCtorEq, Ty.setOf.injEq] at e ⊢
    exact Ty.map_rel r q _ _ e
  | .bitString l, t', e => by
    cases t' <;> simp only [Ty.map, reduceCtorEq, Ty.bitString.injEq] at e ⊢
    exact list_map_rel (NamedBit.map_rel r) e
  | .constrained t c, t', e => by
    cases t' <;> simp only [Ty.map, reduceCtorEq, Ty.constrained.injEq] at e ⊢
    exact ⟨Ty.map_rel r q _ _ e.1, Constraint.map_rel r q _ _ e.2⟩
  | .named n, t', e => by
    cases t' <;> simp only [Ty.map, reduceCtorEq, Ty.named.injEq] at e ⊢
    exact NamedType.map_rel r q _ _ e

theorem Ty.mapList_rel (r : Follows f f' h h') (q : Follows g g' k k') : ∀ (t : List (Ty R D)) (t' : List (Ty R' D')),
    Ty.mapList f g t = Ty.mapList f' g' t' → Ty.mapList h k t = Ty.mapList h' k' t'
  | [], t', e => by cases t' <;> simp_all [Ty.mapList]
  | t :: l, t', e => by
    cases t' <;> simp only [Ty.mapList, reduceCtorEq, List.cons.injEq] at e ⊢
    exact ⟨Ty.map_rel r q _ _ e.1, Ty.mapList_rel r q _ _ e.2⟩

theorem NamedType.map_rel (r : Follows f f' h h') (q : Follows g g' k k') : ∀ (t : NamedType R D) (t' : NamedType R' D'),
    t.map f g = t'.map f' g' → t.map h k = t'.map h' k'
  | .mk i t, .mk i' t', e => by
    simp only [NamedType.map, NamedType.mk.injEq] at e ⊢
    exact ⟨e.1, Ty.map_rel r q _ _ e.2⟩

theorem NamedType.mapList_rel (r : Follows f f' h h') (q : Follows g g' k k') : ∀ (t : List (NamedType R D)) (t' : List (NamedType R' D')),
    NamedType.mapList f g t = NamedType.mapList f' g' t' → NamedType.mapList h k t = NamedType.mapList h' k' t'
  | [], t', e => by cases t' <;> simp_all [NamedType.mapList]
  | t :: l, t', e => by
    cases t' <;> simp only [NamedType.mapList, reduceCtorEq, List.cons.injEq] at e ⊢
    exact ⟨NamedType.map_rel r q _ _ e.1, NamedType.mapList_rel r q _ _ e.2⟩

theorem ComponentType.map_rel (r : Follows f f' h h') (q : Follows g g' k k') : ∀ (t : ComponentType R D) (t' : ComponentType R' D'),
    t.map f g = t'.map f' g' → t.map h k = t'.map h' k'
  | .nil, t', e => by cases t' <;> simp only [ComponentType.map, reduceCtorEq] at e ⊢
  | .named n o d, t', e => by
    cases t' <;> simp only [ComponentType.map, reduceCtorEq, ComponentType.named.injEq] at e ⊢
    exact ⟨NamedType.map_rel r q _ _ e.1, e.2.1, option_map_rel q e.2.2⟩
  | .componentsOf t, t', e => by
    cases t' <;> simp only [ComponentType.map, reduceCtorEq, ComponentType.componentsOf.injEq] at e ⊢
    exact Ty.map_rel r q _ _ e

theorem ComponentType.mapList_rel (r : Follows f f' h h') (q : Follows g g' k k') :
    ∀ (t : List (ComponentType R D)) (t' : List (ComponentType R' D')),
    ComponentType.mapList f g t = ComponentType.mapList f' g' t' → ComponentType.mapList h k t = ComponentType.mapList h' k' t'
  | [], t', e => by cases t' <;> simp_all [ComponentType.mapList]
  | t :: l, t', e => by
    cases t' <;> simp only [ComponentType.mapList, reduceCtorEq, List.cons.injEq] at e ⊢
    exact ⟨ComponentType.map_rel r q _ _ e.1, ComponentType.mapList_rel r q _ _ e.2⟩

theorem Constraint.map_rel (r : Follows f f' h h') (q : Follows g g' k k') : ∀ (t : Constraint R D) (t' : Constraint R' D'),
    t.map f g = t'.map f' g' → t.map h k = t'.map h' k'
  | .mk s, .mk s', e => by
    simp only [Constraint.map, Constraint.mk.injEq] at e ⊢
    exact ConstraintSpec.map_rel r q _ _ e

theorem ConstraintSpec.map_rel (r : Follows f f' h h') (q : Follows g g' k k') : ∀ (t : ConstraintSpec R D) (t' : ConstraintSpec R' D'),
    t.map f g = t'.map f' g' → t.map h k = t'.map h' k'
  | .nil, t', e => by cases t' <;> simp only [ConstraintSpec.map, reduceCtorEq] at e ⊢
  | .general, t', e => by cases t' <;> simp only [ConstraintSpec.map, reduceCtorEq] at e ⊢
  | .subtype l, t', e => by
    cases t' <;> simp only [ConstraintSpec.map, reduceCtorEq, ConstraintSpec.subtype.injEq] at e ⊢
    exact Elements.mapList_rel r q _ _ e

theorem IntersectionElements.map_rel (r : Follows f f' h h') (q : Follows g g' k k') :
    ∀ (t : IntersectionElements R D) (t' : IntersectionElements R' D'), t.map f g = t'.map f' g' → t.map h k = t'.map h' k'
  | .mk a b, .mk a' b', e => by
    simp only [IntersectionElements.map, IntersectionElements.mk.injEq] at e ⊢
    exact ⟨Elements.map_rel r q _ _ e.1, Elements.map_rel r q _ _ e.2⟩

theorem IntersectionElements.mapList_rel (r : Follows f f' h h') (q : Follows g g' k k') :
    ∀ (t : List (IntersectionElements R D)) (t' : List (IntersectionElements R' D')),
    IntersectionElements.mapList f g t = IntersectionElements.mapList f' g' t' →
      IntersectionElements.mapList h k t = IntersectionElements.mapList h' k' t'
  | [], t', e => by cases t' <;> simp_all [IntersectionElements.mapList]
  | t :: l, t', e => by
    cases t' <;> simp only [IntersectionElements.mapList, reduceCtorEq, List.cons.injEq] at e ⊢
    exact ⟨IntersectionElements.map_rel r q _ _ e.1, IntersectionElements.mapList_rel r q _ _ e.2⟩

theorem IntersectionElements.mapListList_rel (r : Follows f f' h h') (q : Follows g g' k k') :
    ∀ (t : List (List (IntersectionElements R D))) (t' : List (List (IntersectionElements R' D'))),
    IntersectionElements.mapListList f g t = IntersectionElements.mapListList f' g' t' →
      IntersectionElements.mapListList h k t = IntersectionElements.mapListList h' k' t'
  | [], t', e => by cases t' <;> simp_all [IntersectionElements.mapListList]
  | t :: l, t', e => by
    cases t' <;> simp only [IntersectionElements.mapListList, reduceCtorEq, List.cons.injEq] at e ⊢
    exact ⟨IntersectionElements.mapList_rel r q _ _ e.1, IntersectionElements.mapListList_rel r q _ _ e.2⟩

theorem Elements.map_rel (r : Follows f f' h h') (q : Follows g g' k k') : ∀ (t : Elements R D) (t' : Elements R' D'),
    t.map f g = t'.map f' g' → t.map h k = t'.map h' k'
  | .nil, t', e => by cases t' <;> simp only [Elements.map, reduceCtorEq] at e ⊢
  | .inner, t', e => by cases t' <;> simp only [Elements.map, reduceCtorEq] at e ⊢
  | .unions l, t', e => by
    cases t' <;> simp only [Elements.map, reduceCtorEq, Elements.unions.injEq] at e ⊢
    exact IntersectionElements.mapListList_rel r q _ _ e
  | .exclusions x, t', e => by
    cases t' <;> simp only [Elements.map, reduceCtorEq, Elements.exclusions.injEq] at e ⊢
    exact Elements.map_rel r q _ _ e
  | .singleValue v, t', e => by
    cases t' <;> simp only [Elements.map, reduceCtorEq, Elements.singleValue.injEq] at e ⊢
    exact Value.map_rel r _ _ e
  | .valueRange a b, t', e => by
    cases t' <;> simp only [Elements.map, reduceCtorEq, Elements.valueRange.injEq] at e ⊢
    exact ⟨RangeEndpoint.map_rel r _ _ e.1, RangeEndpoint.map_rel r _ _ e.2⟩
  | .typeConstraint t, t', e => by
    cases t' <;> simp only [Elements.map, reduceCtorEq, Elements.typeConstraint.injEq] at e ⊢
    exact Ty.map_rel r q _ _ e
  | .size c, t', e => by
    cases t' <;> simp only [Elements.map, reduceCtorEq, Elements.size.injEq] at e ⊢
    exact Constraint.map_rel r q _ _ e

theorem Elements.mapList_rel (r : Follows f f' h h') (q : Follows g g' k k') : ∀ (t : List (Elements R D)) (t' : List (Elements R' D')),
    Elements.mapList f g t = Elements.mapList f' g' t' → Elements.mapList h k t = Elements.mapList h' k' t'
  | [], t', e => by cases t' <;> simp_all [Elements.mapList]
  | t :: l, t', e => by
    cases t' <;> simp only [Elements.mapList, reduceCtorEq, List.cons.injEq] at e ⊢
    exact ⟨Elements.map_rel r q _ _ e.1, Elements.mapList_rel r q _ _ e.2⟩

end

theorem Assignment.map_rel (r : Follows f f' h h') (q : Follows g g' k k') :
    Follows (Assignment.map f g) (Assignment.map f' g') (Assignment.map h k) (Assignment.map h' k') := by
  intro a a' e
  cases a <;> cases a' <;> simp only [Assignment.map, reduceCtorEq, Assignment.type.injEq, Assignment.value.injEq] at e ⊢
  · exact ⟨e.1, Ty.map_rel r q _ _ e.2⟩
  · exact ⟨e.1, Ty.map_rel r q _ _ e.2.1, Value.map_rel r _ _ e.2.2⟩

theorem SymbolsFromModule.map_rel (r : Follows f f' h h') :
    Follows (SymbolsFromModule.map f) (SymbolsFromModule.map f') (SymbolsFromModule.map h) (SymbolsFromModule.map h') := by
  intro a a' e
  simp only [SymbolsFromModule.map, GlobalModuleReference.map, SymbolsFromModule.mk.injEq, GlobalModuleReference.mk.injEq] at e ⊢
  exact ⟨e.1, e.2.1, Value.map_rel r _ _ e.2.2⟩

theorem ModuleDefinition.map_rel (r : Follows f f' h h') (q : Follows g g' k k') {m : ModuleDefinition R D} {m' : ModuleDefinition R' D'}
    (e : m.map f g = m'.map f' g') : m.map h k = m'.map h' k' := by
  simp only [ModuleDefinition.map, ModuleBody.map, ModuleDefinition.mk.injEq, ModuleBody.mk.injEq] at e ⊢
  exact ⟨e.1, e.2.1, e.2.2.1, list_map_rel (Assignment.map_rel r q) e.2.2.2.1, list_map_rel (SymbolsFromModule.map_rel r) e.2.2.2.2⟩

end

end Asn1go
