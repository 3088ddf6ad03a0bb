import Verif.Proofs.LR.NewRules
import Verif.Proofs.LR.MapLemmas
import Verif.Proofs.LR.Stack

/-! A tree with other names stands for the module with the other names. -/

namespace Asn1go.LR

open Asn1go Spec

/-! ### Following pointers -/

section Maps

variable {R R' D D' : Type} {f : Str → Str} {g : R → R} {h : D → D} {g' : R' → R'} {h' : D' → D'} {r r' : R → R'} {d d' : D → D'}

theorem element_map_new (hr : ∀ x, r' (g x) = g' (r x)) (e : ObjectIdElement R) : (newElement f g e).map r' = newElement f g' (e.map r) := by
  cases e with
  | mk n i x => cases x <;> simp [newElement, ObjectIdElement.map, hr]

theorem value_map_new (hr : ∀ x, r' (g x) = g' (r x)) (v : Value R) : (newValue f g v).map r' = newValue f g' (v.map r) := by
  cases v <;> simp [newValue, Value.map, element_map_new (f := f) hr]

theorem tag_map_new (hr : ∀ x, r' (g x) = g' (r x)) (v : Tag R) : (newTag f g v).map r' = newTag f g' (v.map r) := by
  simp [newTag, Tag.map, value_map_new (f := f) hr]

theorem bit_map_new (hr : ∀ x, r' (g x) = g' (r x)) (v : NamedBit R) : (newBit f g v).map r' = newBit f g' (v.map r) := by
  simp [newBit, NamedBit.map, value_map_new (f := f) hr]

theorem bound_map_new (hr : ∀ x, r' (g x) = g' (r x)) (v : RangeEndpoint R) : (newBound f g v).map r' = newBound f g' (v.map r) := by
  simp [newBound, RangeEndpoint.map, value_map_new (f := f) hr]

variable (hr : ∀ x, r' (g x) = g' (r x)) (hd : ∀ x, d' (h x) = h' (d x))

include hr hd

mutual

theorem ty_map_new : ∀ t : Ty R D, (newTy f g h t).map r' d' = newTy f g' h' (t.map r d)
  | .nil | .null | .objectIdentifier | .integer _ | .enumerated _ _ | .real | .boolean | .restrictedString _
  | .characterString | .octetString | .any _ | .ref _ => by simp [Ty.map, newTy]
  | .choice a e => by simp [Ty.map, newTy, nameds_map_new a, tys_map_new e]
  | .sequence a e => by simp [Ty.map, newTy, components_map_new a, components_map_new e]
  | .set a e => by simp [Ty.map, newTy, components_map_new a, components_map_new e]
  | .tagged t ty tt b => by simp [Ty.map, newTy, tag_map_new (f := f) hr, ty_map_new ty]
  | .sequenceOf t => by simp [Ty.map, newTy, ty_map_new t]
  | .setOf t => by simp [Ty.map, newTy, ty_map_new t]
  | .bitString l => by simp [Ty.map, newTy, bit_map_new (f := f) hr]
  | .constrained t c => by simp [Ty.map, newTy, ty_map_new t, constraint_map_new c]
  | .named n => by simp [Ty.map, newTy, named_map_new n]

theorem tys_map_new : ∀ l : List (Ty R D), Ty.mapList r' d' (newTys f g h l) = newTys f g' h' (Ty.mapList r d l)
  | [] => by simp [Ty.mapList, newTys]
  | t :: l => by simp [Ty.mapList, newTys, ty_map_new t, tys_map_new l]

theorem named_map_new : ∀ n : NamedType R D, (newNamed f g h n).map r' d' = newNamed f g' h' (n.map r d)
  | .mk i t => by simp [NamedType.map, newNamed, ty_map_new t]

theorem nameds_map_new : ∀ l : List (NamedType R D), NamedType.mapList r' d' (newNameds f g h l) = newNameds f g' h' (NamedType.mapList r d l)
  | [] => by simp [NamedType.mapList, newNameds]
  | t :: l => by simp [NamedType.mapList, newNameds, named_map_new t, nameds_map_new l]

theorem component_map_new : ∀ n : ComponentType R D, (newComponent f g h n).map r' d' = newComponent f g' h' (n.map r d)
  | .nil => by simp [ComponentType.map, newComponent]
  | .named n o x => by cases x <;> simp [ComponentType.map, newComponent, named_map_new n, hd]
  | .componentsOf t => by simp [ComponentType.map, newComponent, ty_map_new t]

theorem components_map_new : ∀ l : List (ComponentType R D), ComponentType.mapList r' d' (newComponents f g h l) = newComponents f g' h' (ComponentType.mapList r d l)
  | [] => by simp [ComponentType.mapList, newComponents]
  | t :: l => by simp [ComponentType.mapList, newComponents, component_map_new t, components_map_new l]

theorem constraint_map_new : ∀ c : Constraint R D, (newConstraint f g h c).map r' d' = newConstraint f g' h' (c.map r d)
  | .mk s => by simp [Constraint.map, newConstraint, spec_map_new s]

theorem spec_map_new : ∀ c : ConstraintSpec R D, (newSpec f g h c).map r' d' = newSpec f g' h' (c.map r d)
  | .nil | .general => by simp [ConstraintSpec.map, newSpec]
  | .subtype l => by simp [ConstraintSpec.map, newSpec, elementss_map_new l]

theorem part_map_new : ∀ c : IntersectionElements R D, (newPart f g h c).map r' d' = newPart f g' h' (c.map r d)
  | .mk a b => by simp [IntersectionElements.map, newPart, elements_map_new a, elements_map_new b]

theorem parts_map_new : ∀ l : List (IntersectionElements R D),
    IntersectionElements.mapList r' d' (newParts f g h l) = newParts f g' h' (IntersectionElements.mapList r d l)
  | [] => by simp [IntersectionElements.mapList, newParts]
  | t :: l => by simp [IntersectionElements.mapList, newParts, part_map_new t, parts_map_new l]

theorem union_map_new : ∀ l : List (List (IntersectionElements R D)),
    IntersectionElements.mapListList r' d' (newUnion f g h l) = newUnion f g' h' (IntersectionElements.mapListList r d l)
  | [] => by simp [IntersectionElements.mapListList, newUnion]
  | t :: l => by simp [IntersectionElements.mapListList, newUnion, parts_map_new t, union_map_new l]

theorem elements_map_new : ∀ c : Elements R D, (newElements f g h c).map r' d' = newElements f g' h' (c.map r d)
  | .nil | .inner => by simp [Elements.map, newElements]
  | .unions l => by simp [Elements.map, newElements, union_map_new l]
  | .exclusions e => by simp [Elements.map, newElements, elements_map_new e]
  | .singleValue v => by simp [Elements.map, newElements, value_map_new (f := f) hr]
  | .valueRange a b => by simp [Elements.map, newElements, bound_map_new (f := f) hr]
  | .typeConstraint t => by simp [Elements.map, newElements, ty_map_new t]
  | .size c => by simp [Elements.map, newElements, constraint_map_new c]

theorem elementss_map_new : ∀ l : List (Elements R D), Elements.mapList r' d' (newElementss f g h l) = newElementss f g' h' (Elements.mapList r d l)
  | [] => by simp [Elements.mapList, newElementss]
  | t :: l => by simp [Elements.mapList, newElementss, elements_map_new t, elementss_map_new l]

end

theorem assignment_map_new (a : Assignment R D) : (newAssignment f g h a).map r' d' = newAssignment f g' h' (a.map r d) := by
  cases a <;> simp [newAssignment, Assignment.map, ty_map_new (f := f) hr hd, value_map_new (f := f) hr]

theorem module_map_new (m : ModuleDefinition R D) : (newModule f g h m).map r' d' = newModule f g' h' (m.map r d) := by
  simp [newModule, ModuleDefinition.map, newBody, ModuleBody.map, assignment_map_new (f := f) hr hd, newFrom, SymbolsFromModule.map, newGlobal, GlobalModuleReference.map,
    value_map_new (f := f) hr]

end Maps

/-! ### Trees -/

variable (f : Str → Str)

mutual

/-- The tree of the tokens with the new names. -/
def newTree : Tree → Tree
  | .leaf c p => .leaf (newToken f (c, p)).1 (newToken f (c, p)).2
  | .node r kids => .node r (newTrees kids)

def newTrees : List Tree → List Tree
  | [] => []
  | t :: l => newTree t :: newTrees l

end

theorem newToken_code (t : Token) : (newToken f t).1 = t.1 := by
  obtain ⟨c, p⟩ := t
  cases p <;> rfl

mutual

theorem derives_new : ∀ {X : Sym} {toks : List Token} {t : Tree}, Derives X toks t → Derives X (toks.map (newToken f)) (newTree f t)
  | _, _, _, .leaf c p => by
    cases p <;> exact .leaf _ _
  | _, _, _, .node r lhs rhs toks kids h1 h2 h3 => by
    rw [newTree]
    exact .node r lhs rhs _ _ h1 h2 (derivesList_new h3)

theorem derivesList_new : ∀ {X : List Sym} {toks : List Token} {l : List Tree}, DerivesList X toks l → DerivesList X (toks.map (newToken f)) (newTrees f l)
  | _, _, _, .nil => by simpa [newTrees] using DerivesList.nil
  | _, _, _, .cons X l a b t ts h1 h2 => by
    rw [newTrees, List.map_append]
    exact .cons _ _ _ _ _ _ (derives_new h1) (derivesList_new h2)

end

mutual

theorem tokens_new : ∀ t : Tree, (newTree f t).tokens = t.tokens.map (newToken f)
  | .leaf c p => by simp [newTree, Tree.tokens]
  | .node r kids => by rw [newTree, Tree.tokens, Tree.tokens, tokensList_new kids]

theorem tokensList_new : ∀ l : List Tree, Tree.tokensList (newTrees f l) = (Tree.tokensList l).map (newToken f)
  | [] => by simp [newTrees, Tree.tokensList]
  | t :: l => by simp [newTrees, Tree.tokensList, tokens_new t, tokensList_new l]

end

theorem firstCode_new (next : Int) (l : List Token) : firstCode next (l.map (newToken f)) = firstCode next l := by
  cases l with
  | nil => rfl
  | cons t l => exact newToken_code f t

mutual

theorem preferred_new : ∀ (t : Tree) (p : Place) (next : Int), t.Preferred p next → (newTree f t).Preferred p next
  | .leaf _ _, _, _, _ => by simp [newTree, Tree.Preferred]
  | .node r kids, p, next, h => by
    rw [Tree.Preferred] at h
    rw [newTree, Tree.Preferred]
    exact ⟨h.1, preferredList_new kids _ _ _ _ h.2⟩

theorem preferredList_new : ∀ (l : List Tree) (r : Nat) (p : Place) (next : Int) (i : Nat), Tree.PreferredList r p next i l → Tree.PreferredList r p next i (newTrees f l)
  | [], _, _, _, _, _ => by simp [newTrees, Tree.PreferredList]
  | t :: l, r, p, next, i, h => by
    rw [Tree.PreferredList] at h
    rw [newTrees, Tree.PreferredList, tokensList_new, firstCode_new]
    exact ⟨preferred_new t _ _ h.1, preferredList_new l _ _ _ _ h.2⟩

end

mutual

theorem peak_new : ∀ (t : Tree) (p : Nat), (newTree f t).peak p = t.peak p
  | .leaf _ _, _ => by simp [newTree, Tree.peak]
  | .node r kids, p => by rw [newTree, Tree.peak, Tree.peak, peakList_new kids]

theorem peakList_new : ∀ (l : List Tree) (p : Nat), Tree.peakList p (newTrees f l) = Tree.peakList p l
  | [], _ => by simp [newTrees, Tree.peakList]
  | t :: l, p => by rw [newTrees, Tree.peakList, Tree.peakList, peak_new t, peakList_new l]

end

/-- A reference with the new names, when it is a pointer. -/
def newRef : RefPtr → RefPtr
  | .slot s => .slot s
  | .copy d => .copy (newDefined f d)

variable {f} (hf : Rewording f)

include hf

theorem leafValue_new (t : Token) : leafValue (newToken f t).2 = newSym f (newRef f) id (leafValue t.2 : RawSym) := by
  obtain ⟨c, p⟩ := t
  have h := newSym_empty (R := RefPtr) (D := Slot) (g := newRef f) (h := id) hf
  cases p with
  | none => exact h.symm
  | name w => exact congrArg (fun v : RawSym => { v with name := f w }) h.symm
  | number r n => exact congrArg (fun v : RawSym => { v with numberRepr := r, number := n }) h.symm

theorem dollars_new (l : List RawSym) : dollars (l.map (newSym f (newRef f) id)) = fun i => newSym f (newRef f) id (dollars l i) := by
  funext i
  have h := newSym_empty (R := RefPtr) (D := Slot) (g := newRef f) (h := id) hf
  simp only [dollars, List.getElem?_map]
  cases l[i - 1]? with
  | none => exact h.symm
  | some v => rfl

theorem head_new (l : List RawSym) : (l.map (newSym f (newRef f) id)).headD {} = newSym f (newRef f) id (l.headD {}) := by
  cases l with
  | nil => exact (newSym_empty hf).symm
  | cons v l => rfl

mutual

theorem placed_new : ∀ {X : Sym} {toks : List Token} {t : Tree}, Derives X toks t → ∀ k p, (newTree f t).placed k p = newSym f (newRef f) id (t.placed k p)
  | _, _, _, .leaf c w, k, p => by
    rw [newTree, Tree.placed, Tree.placed]
    exact leafValue_new hf (c, w)
  | _, _, _, .node r lhs rhs toks kids h1 h2 h3, k, p => by
    rw [newTree, Tree.placed, Tree.placed, placedList_new h3, peakList_new, dollars_new hf, head_new hf]
    exact action_new hf r h1 (ruleOf_le h2) _ _ ⟨rfl, rfl, fun _ => rfl⟩ _ _

theorem placedList_new : ∀ {X : List Sym} {toks : List Token} {l : List Tree}, DerivesList X toks l → ∀ k p,
    Tree.placedList k p (newTrees f l) = (Tree.placedList k p l).map (newSym f (newRef f) id)
  | _, _, _, .nil, k, p => by simp [newTrees, Tree.placedList]
  | _, _, _, .cons X l a b t ts h1 h2, k, p => by
    rw [newTrees, Tree.placedList, Tree.placedList, placed_new h1, peak_new, placedList_new h2, List.map_cons]

end

omit hf in
/-- What a node writes, with the new names. -/
def newWrite (f : Str → Str) (w : Write) : Write := ⟨w.idx, w.value.map (newValue f (newRef f)), w.defined.map (newDefined f)⟩

mutual

theorem writes_new : ∀ {X : Sym} {toks : List Token} {t : Tree}, Derives X toks t → ∀ k p, (newTree f t).writes k p = (t.writes k p).map (newWrite f)
  | _, _, _, .leaf c w, k, p => by
    rw [newTree, Tree.writes, Tree.writes]
    simp [newWrite, newValue, newDefined, hf.empty]
  | _, _, _, .node r lhs rhs toks kids h1 h2 h3, k, p => by
    have h := placed_new hf (.node r lhs rhs toks kids h1 h2 h3) k p
    rw [newTree] at h
    rw [newTree, Tree.writes, Tree.writes, writesList_new h3, h, List.map_append]
    congr 1
    by_cases a : lhsOf r ∈ valueNTs <;> by_cases b : lhsOf r = NT.«DefinedValue» <;> simp [a, b, newWrite, newSym]

theorem writesList_new : ∀ {X : List Sym} {toks : List Token} {l : List Tree}, DerivesList X toks l → ∀ k p,
    Tree.writesList k p (newTrees f l) = (Tree.writesList k p l).map (newWrite f)
  | _, _, _, .nil, k, p => by simp [newTrees, Tree.writesList]
  | _, _, _, .cons X l a b t ts h1 h2, k, p => by
    rw [newTrees, Tree.writesList, Tree.writesList, writes_new h1, peak_new, writesList_new h2, List.map_append]

end

omit hf in
theorem lastValue_new (i : Nat) : ∀ (l : List Write) (a : Value RefPtr),
    (l.map (newWrite f)).foldl (fun a w => if w.idx = i then w.value.getD a else a) (newValue f (newRef f) a) =
      newValue f (newRef f) (l.foldl (fun a w => if w.idx = i then w.value.getD a else a) a)
  | [], _ => rfl
  | w :: l, a => by
    rw [List.map_cons, List.foldl_cons, List.foldl_cons, ← lastValue_new i l]
    congr 1
    by_cases h : w.idx = i
    · rw [if_pos h, if_pos (show (newWrite f w).idx = i from h)]
      cases hv : w.value <;> simp [newWrite, hv]
    · rw [if_neg h, if_neg (show ¬ (newWrite f w).idx = i from h)]

omit hf in
theorem lastDefined_new (i : Nat) : ∀ (l : List Write) (a : DefinedValue),
    (l.map (newWrite f)).foldl (fun a w => if w.idx = i then w.defined.getD a else a) (newDefined f a) =
      newDefined f (l.foldl (fun a w => if w.idx = i then w.defined.getD a else a) a)
  | [], _ => rfl
  | w :: l, a => by
    rw [List.map_cons, List.foldl_cons, List.foldl_cons, ← lastDefined_new i l]
    congr 1
    by_cases h : w.idx = i
    · rw [if_pos h, if_pos (show (newWrite f w).idx = i from h)]
      cases hv : w.defined <;> simp [newWrite, hv]
    · rw [if_neg h, if_neg (show ¬ (newWrite f w).idx = i from h)]

section

variable {X : Sym} {toks : List Token} {t : Tree} (hd : Derives X toks t)

include hd

theorem memory_new : (newTree f t).memory = ⟨t.memory.top, t.memory.writes.map (newWrite f)⟩ := by
  simp only [Tree.memory, peak_new, writes_new hf hd]

theorem upTo_new (n : Nat) : (newTree f t).memory.upTo n = (t.memory.upTo n).map (newWrite f) := by
  rw [memory_new hf hd]
  simp only [Memory.upTo, List.takeWhile_map]
  rfl

theorem value_new (s : Slot) : (newTree f t).memory.value s = newValue f (newRef f) (t.memory.value s) := by
  have ht : (newTree f t).memory.top = t.memory.top := by rw [memory_new hf hd]
  simp only [Memory.value, upTo_new hf hd, ht]
  split
  · exact lastValue_new _ _ .nil
  · rfl

theorem defined_new (s : Slot) : (newTree f t).memory.defined s = newDefined f (t.memory.defined s) := by
  have ht : (newTree f t).memory.top = t.memory.top := by rw [memory_new hf hd]
  have he : newDefined f {} = {} := by simp [newDefined, hf.empty]
  simp only [Memory.defined, upTo_new hf hd, ht]
  split
  · have := lastDefined_new (f := f) s.idx (t.memory.upTo s.gen) {}
    rw [he] at this
    exact this
  · exact he.symm

theorem ref_new (x : RefPtr) : (newTree f t).memory.ref (newRef f x) = newDefined f (t.memory.ref x) := by
  cases x with
  | slot s => exact defined_new hf hd s
  | copy d => rfl

theorem deref_new (s : Slot) : (newTree f t).memory.deref s = newValue f (newDefined f) (t.memory.deref s) := by
  simp only [Memory.deref, value_new hf hd]
  exact value_map_new (f := f) (ref_new hf hd) _

/-- The tree with the new names stands for the module with the new names. -/
theorem exact_new : (newTree f t).exact = reworded f t.exact := by
  cases hd with
  | leaf c p =>
    simp [newTree, Tree.exact, reworded, newModule, newModuleIdentifier, newBody, hf.empty]
  | node r lhs rhs toks kids h1 h2 h3 =>
    have hd := Derives.node r lhs rhs toks kids h1 h2 h3
    have hr := ref_new hf hd
    have hs := deref_new hf hd
    rw [newTree] at hr hs ⊢
    simp only [Tree.exact]
    rw [placedList_new hf h3, dollars_new hf]
    exact module_map_new (f := f) (g := newRef f) (h := id) hr hs (moduleOf (dollars (Tree.placedList 0 1 kids)))

end

end Asn1go.LR
