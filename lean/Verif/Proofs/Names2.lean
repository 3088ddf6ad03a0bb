import Verif.Proofs.Names
import Verif.Proofs.Notation.Backward3
import Verif.Proofs.LR.Kept

/-! The names and numbers that the pointers of a module point to. -/

namespace Asn1go.Names

open Spec Notation Print LR Asn1go.Notation

variable {u : Unicode}

section

variable {R D : Type} {r r' : R → List Atom} {d d' : D → List Atom}

/-! ### Changing what is behind pointers -/

theorem value_mono (hr : ∀ x, G u (r x) → G u (r' x)) (v : Value R) (h : G u (valueAtoms r v)) : G u (valueAtoms r' v) := by
  cases v with
  | objectIdentifier l =>
    simp only [valueAtoms, G.flat] at h ⊢
    intro e he
    have := h e he
    obtain ⟨n, i, _ | x⟩ := e
    · exact this
    · simp only [G.append] at this ⊢
      exact ⟨this.1, hr x this.2⟩
  | _ => exact h

section

variable (hr : ∀ x, G u (r x) → G u (r' x)) (hd : ∀ x, G u (d x) → G u (d' x))
include hr hd

mutual

theorem ty_mono : ∀ t : Ty R D, G u (tyAtoms r d t) → G u (tyAtoms r' d' t)
  | .nil, h => h
  | .null, h => h
  | .objectIdentifier, h => h
  | .integer l, h => h
  | .enumerated a b, h => h
  | .real, h => h
  | .boolean, h => h
  | .choice a e, h => by
    simp only [tyAtoms, G.append] at h ⊢
    exact ⟨namedList_mono a h.1, tyList_mono e h.2⟩
  | .restrictedString n, h => h
  | .characterString, h => h
  | .octetString, h => h
  | .sequence a e, h => by
    simp only [tyAtoms, G.append] at h ⊢
    exact ⟨componentList_mono a h.1, componentList_mono e h.2⟩
  | .set a e, h => by
    simp only [tyAtoms, G.append] at h ⊢
    exact ⟨componentList_mono a h.1, componentList_mono e h.2⟩
  | .tagged t ty _ _, h => by
    simp only [tyAtoms, G.append] at h ⊢
    exact ⟨value_mono hr _ h.1, ty_mono ty h.2⟩
  | .sequenceOf t, h => by
    simp only [tyAtoms] at h ⊢
    exact ty_mono t h
  | .setOf t, h => by
    simp only [tyAtoms] at h ⊢
    exact ty_mono t h
  | .any s, h => h
  | .bitString l, h => by
    simp only [tyAtoms, G.flat, G.cons] at h ⊢
    exact fun x hx => ⟨(h x hx).1, value_mono hr _ (h x hx).2⟩
  | .constrained t c, h => by
    simp only [tyAtoms, G.append] at h ⊢
    exact ⟨ty_mono t h.1, constraint_mono c h.2⟩
  | .ref s, h => h
  | .named n, h => by
    simp only [tyAtoms] at h ⊢
    exact named_mono n h

theorem tyList_mono : ∀ l : List (Ty R D), G u (tyListAtoms r d l) → G u (tyListAtoms r' d' l)
  | [], h => h
  | t :: l, h => by
    simp only [tyListAtoms, G.append] at h ⊢
    exact ⟨ty_mono t h.1, tyList_mono l h.2⟩

theorem named_mono : ∀ t : NamedType R D, G u (namedAtoms r d t) → G u (namedAtoms r' d' t)
  | .mk s t, h => by
    simp only [namedAtoms, G.cons] at h ⊢
    exact ⟨h.1, ty_mono t h.2⟩

theorem namedList_mono : ∀ l : List (NamedType R D), G u (namedListAtoms r d l) → G u (namedListAtoms r' d' l)
  | [], h => h
  | t :: l, h => by
    simp only [namedListAtoms, G.append] at h ⊢
    exact ⟨named_mono t h.1, namedList_mono l h.2⟩

theorem component_mono : ∀ t : ComponentType R D, G u (componentAtoms r d t) → G u (componentAtoms r' d' t)
  | .nil, h => h
  | .named n o none, h => by
    simp only [componentAtoms] at h ⊢
    exact named_mono n h
  | .named n o (some x), h => by
    simp only [componentAtoms, G.append] at h ⊢
    exact ⟨named_mono n h.1, hd x h.2⟩
  | .componentsOf t, h => by
    simp only [componentAtoms] at h ⊢
    exact ty_mono t h

theorem componentList_mono : ∀ l : List (ComponentType R D), G u (componentListAtoms r d l) → G u (componentListAtoms r' d' l)
  | [], h => h
  | t :: l, h => by
    simp only [componentListAtoms, G.append] at h ⊢
    exact ⟨component_mono t h.1, componentList_mono l h.2⟩

theorem constraint_mono : ∀ c : Constraint R D, G u (constraintAtoms r d c) → G u (constraintAtoms r' d' c)
  | .mk s, h => by
    simp only [constraintAtoms] at h ⊢
    exact spec_mono s h

theorem spec_mono : ∀ s : ConstraintSpec R D, G u (specAtoms r d s) → G u (specAtoms r' d' s)
  | .nil, h => h
  | .subtype l, h => by
    simp only [specAtoms] at h ⊢
    exact elementsList_mono l h
  | .general, h => h

theorem part_mono : ∀ t : IntersectionElements R D, G u (partAtoms r d t) → G u (partAtoms r' d' t)
  | .mk a b, h => by
    simp only [partAtoms, G.append] at h ⊢
    exact ⟨elements_mono a h.1, elements_mono b h.2⟩

theorem partList_mono : ∀ l : List (IntersectionElements R D), G u (partListAtoms r d l) → G u (partListAtoms r' d' l)
  | [], h => h
  | t :: l, h => by
    simp only [partListAtoms, G.append] at h ⊢
    exact ⟨part_mono t h.1, partList_mono l h.2⟩

theorem union_mono : ∀ l : List (List (IntersectionElements R D)), G u (unionAtoms r d l) → G u (unionAtoms r' d' l)
  | [], h => h
  | t :: l, h => by
    simp only [unionAtoms, G.append] at h ⊢
    exact ⟨partList_mono t h.1, union_mono l h.2⟩

theorem elements_mono : ∀ e : Elements R D, G u (elementsAtoms r d e) → G u (elementsAtoms r' d' e)
  | .nil, h => h
  | .unions l, h => by
    simp only [elementsAtoms] at h ⊢
    exact union_mono l h
  | .exclusions e, h => by
    simp only [elementsAtoms] at h ⊢
    exact elements_mono e h
  | .singleValue v, h => by
    simp only [elementsAtoms] at h ⊢
    exact value_mono hr v h
  | .valueRange a b, h => by
    simp only [elementsAtoms, G.append] at h ⊢
    exact ⟨value_mono hr _ h.1, value_mono hr _ h.2⟩
  | .typeConstraint t, h => by
    simp only [elementsAtoms] at h ⊢
    exact ty_mono t h
  | .size c, h => by
    simp only [elementsAtoms] at h ⊢
    exact constraint_mono c h
  | .inner, h => h

theorem elementsList_mono : ∀ l : List (Elements R D), G u (elementsListAtoms r d l) → G u (elementsListAtoms r' d' l)
  | [], h => h
  | t :: l, h => by
    simp only [elementsListAtoms, G.append] at h ⊢
    exact ⟨elements_mono t h.1, elementsList_mono l h.2⟩

end

theorem module_mono (m : ModuleDefinition R D) (h : G u (moduleAtoms r d m)) : G u (moduleAtoms r' d' m) := by
  simp only [moduleAtoms, G.cons, G.append, G.flat (f := importAtoms _), G.flat (f := assignmentAtoms _ _)] at h ⊢
  refine ⟨h.1, ⟨h.2.1.1, fun i hi => ?_⟩, fun a ha => ?_⟩
  · have := h.2.1.2 i hi
    simp only [importAtoms, G.append, G.cons] at this ⊢
    exact ⟨this.1, this.2.1, value_mono hr _ this.2.2⟩
  · have := h.2.2 a ha
    cases a with
    | nil => exact this
    | type s t =>
      simp only [assignmentAtoms, G.cons] at this ⊢
      exact ⟨this.1, ty_mono hr hd t this.2⟩
    | value s t v =>
      simp only [assignmentAtoms, G.cons, G.append] at this ⊢
      exact ⟨this.1, ty_mono hr hd t this.2.1, value_mono hr v this.2.2⟩

end

end

/-! ### Values at nodes of derivations -/

section

variable {R D : Type} {L : Links R D} {simple : Bool} {r : R → List Atom} {d : D → List Atom}

/-- The value of a node whose nonterminal has the type `<Value>`. -/
theorem node_value_g (hL : LinksGood u L r d) {n k : Nat} {a : List Token} {p : Spec.Place} {next : Int} {s : SymType R D}
    (h : Rs L simple n (.n k) a p next s) (hk : k ∈ valueNTs) (hf : F u a) : G u (valueAtoms r s.value) := by
  have real : ∀ {n p next a s}, Rs L simple n (.n NT.NumericRealValue) a p next s → F u a → G u (valueAtoms r s.value) := fun h hf => by
    rcases split_NumericRealValue h.succ with ⟨_, _, _, rfl, h4, rfl⟩ | ⟨_, _, _, rfl, h4, rfl⟩
    · exact real_g (real_bk h4) hf
    · simp only [F.cons] at hf
      have := real_g (real_bk h4) hf.2
      exact this
  have special : ∀ {n p next a s}, Rs L simple n (.n NT.SpecialRealValue) a p next s → G u (valueAtoms r s.value) := fun h => by
    rcases split_SpecialRealValue h.succ with ⟨_, rfl, rfl⟩ | ⟨_, rfl, rfl⟩ <;> exact G.nil
  have int : ∀ {n p next a s}, Rs L simple n (.n NT.IntegerValue) a p next s → F u a → G u (valueAtoms r s.value) := fun h hf => by
    rcases split_IntegerValue h.succ with ⟨_, _, _, rfl, h3, rfl⟩ | ⟨_, _, _, rfl, h3, rfl⟩
    · exact G.cons.2 ⟨signed_g (signed_bk h3) hf, G.nil⟩
    · obtain ⟨w, rfl, e⟩ := identifier_lower h3
      simp only [F.cons] at hf
      subst e
      exact G.cons.2 ⟨good_lower hf.1, G.nil⟩
  have bool : ∀ {n p next a s}, Rs L simple n (.n NT.BooleanValue) a p next s → G u (valueAtoms r s.value) := fun h => by
    rcases split_BooleanValue h.succ with ⟨_, rfl, rfl⟩ | ⟨_, rfl, rfl⟩ <;> exact G.nil
  have reals : ∀ {n p next a s}, Rs L simple n (.n NT.RealValue) a p next s → F u a → G u (valueAtoms r s.value) := fun h hf => by
    rcases split_RealValue h.succ with ⟨_, _, _, rfl, h3, rfl⟩ | ⟨_, _, _, rfl, h3, rfl⟩
    · exact real h3 hf
    · exact special h3
  have oid : ∀ {n p next a s}, Rs L simple n (.n NT.ObjectIdentifierValue) a p next s → F u a →
      G u (valueAtoms r (.objectIdentifier s.objectIdentifierValue)) := fun h hf => oid_g hL (oid_bk h) hf
  simp only [valueNTs, List.mem_cons, List.not_mem_nil, or_false] at hk
  rcases hk with rfl | rfl | rfl | rfl | rfl | rfl | rfl | rfl | rfl | rfl | rfl
  · rcases split_BuiltinValue h.succ with ⟨_, _, _, rfl, h2, rfl⟩ | ⟨_, _, _, rfl, h2, rfl⟩ | ⟨_, _, _, rfl, h2, rfl⟩ | ⟨_, _, _, rfl, h2, rfl⟩
    · exact bool h2
    · exact int h2 hf
    · exact oid h2 hf
    · exact reals h2 hf
  · exact value_g hL (value_bk h) hf
  · exact int h hf
  · exact reals h hf
  · exact bool h
  · exact real h hf
  · exact special h
  · exact lower_g hL (lowerBound_bk h) hf
  · exact upper_g hL (upperBound_bk h) hf
  · rcases split_ClassNumber h.succ with ⟨_, _, _, rfl, h3, rfl⟩ | ⟨_, _, _, rfl, h3, rfl⟩
    · obtain ⟨w, m, rfl, e⟩ := number_num h3
      simp only [F.cons] at hf
      refine G.cons.2 ⟨?_, G.nil⟩
      show (Atom.number (SymType.number _)).Good u
      rw [show ∀ x : SymType R D, dollars [x] 1 = x from fun _ => rfl, e]
      exact good_num hf.1
    · exact defined_g (defined_bk h3) hf
  · rcases split_AssignedIdentifier h.succ with ⟨_, _, _, rfl, h3, rfl⟩ | ⟨_, _, _, rfl, h3, rfl⟩ | ⟨_, rfl, rfl⟩
    · exact oid h3 hf
    · exact defined_g (defined_bk h3) hf
    · exact G.nil

end

/-! ### What is written to the stack -/

/-- Pointers into the stack show nothing. -/
def hidden : Links (Option DefinedValue) Unit := ⟨fun _ => none, some, fun _ => ()⟩

/-- A copied reference is known. -/
def seen : RefPtr → Option DefinedValue
  | .slot _ => none
  | .copy d => some d

/-- The names of a known reference. -/
def seenAtoms : Option DefinedValue → List Atom
  | none => []
  | some d => definedAtoms d

theorem hidden_good : LinksGood u hidden seenAtoms (fun _ => []) := ⟨fun _ _ => G.nil, fun _ h => h, fun _ _ => G.nil⟩

mutual

theorem placed_agree : ∀ {X : Sym} {toks : List Token} {t : Tree}, Derives X toks t → ∀ k p : Nat,
    agree seen (fun _ => ()) (fieldOf X) (t.placed k p) (t.eval (pointers hidden))
  | _, _, _, .leaf code w, _, _ => by
    simp only [Tree.placed, Tree.eval, leafValue, fieldOf]
    split
    · rfl
    · split
      · rfl
      · trivial
  | _, _, _, .node r lhs rhs toks kids hr hrule hk, k, p => by
    rw [Tree.placed, eval_node]
    refine ruleAgree seen (fun _ => ()) r hr (ruleOf_le hrule) lhs rhs hrule _ _ _ _ _ _ (fun _ => rfl) (fun _ => rfl) (fun _ => rfl)
      (placedList_agree hk k p) ?_
    intro hne
    cases hk with
    | nil => exact absurd rfl hne
    | cons => simp only [Tree.placedList]; exact ⟨rfl, rfl⟩

theorem placedList_agree : ∀ {rhs : List Sym} {toks : List Token} {kids : List Tree}, DerivesList rhs toks kids → ∀ (k p : Nat),
    ∀ i X, rhs[i]? = some X → agree seen (fun _ => ()) (fieldOf X) (dollars (Tree.placedList k p kids) (i + 1))
      (dollars (kids.map (Tree.eval (pointers hidden))) (i + 1))
  | _, _, _, .nil, _, _ => fun i X h => by simp at h
  | _, _, _, .cons X l a b t ts ht hts, k, p => fun i Y h => by
    cases i with
    | zero =>
      simp at h
      subst h
      exact placed_agree ht k p
    | succ i =>
      have := placedList_agree hts (max k (t.peak p)) (p + 1) i Y (by simpa using h)
      simpa [dollars, Tree.placedList] using this

end

/-- What a write leaves is good. -/
def GoodWrite (u : Unicode) (w : Write) : Prop :=
  (∀ v, w.value = some v → G u (valueAtoms (seenAtoms ∘ seen) v)) ∧ ∀ d, w.defined = some d → G u (shownAtoms d)

theorem shown_of_defined {x : DefinedValue} (h : G u (definedAtoms x)) : G u (shownAtoms x) := by
  unfold shownAtoms
  split
  · exact G.nil
  · exact h

mutual

theorem writes_good : ∀ {X : Sym} {toks : List Token} {t : Tree}, Derives X toks t → ∀ (q : Spec.Place) (next : Int), t.Preferred q next →
    Sane toks → F u toks → ∀ k p : Nat, ∀ w ∈ t.writes k p, GoodWrite u w
  | _, _, _, .leaf code x, _, _, _, _, _, _, _ => fun w hw => by
    simp only [Tree.writes, List.mem_singleton] at hw
    subst hw
    refine ⟨fun v hv => ?_, fun d hd => ?_⟩
    · simp only [Option.some.injEq] at hv
      subst hv
      exact G.nil
    · simp only [Option.some.injEq] at hd
      subst hd
      exact G.nil
  | _, _, _, .node r lhs rhs toks kids hr hrule hk, q, next, hp, hs, hf, k, p => fun w hw => by
    have hp0 := hp
    rw [Tree.Preferred] at hp
    have hd : Derives (.n lhs) toks (.node r kids) := .node r lhs rhs toks kids hr hrule hk
    have hrs : Rs hidden false (sizeOf (Tree.node r kids)) (.n lhs) toks q next (Tree.eval (pointers hidden) (.node r kids)) :=
      ⟨hs, _, Nat.le_refl _, hd, hp0, by simp, rfl⟩
    have hlhs : lhsOf r = lhs := by unfold lhsOf; rw [hrule]; rfl
    rw [Tree.writes] at hw
    rcases List.mem_append.1 hw with hw | hw
    · exact writesList_good hk r q next 0 hp.2 hs hf k p w hw
    · simp only [List.mem_singleton] at hw
      subst hw
      have ha := placed_agree hd k p
      refine ⟨fun v hv => ?_, fun d hd' => ?_⟩
      · simp only [hlhs] at hv
        split at hv
        · rename_i hm
          simp only [Option.some.injEq] at hv
          subst hv
          rw [valueNT_field lhs hm] at ha
          have ha : (Tree.placed k p (.node r kids)).value.map seen = _ := ha
          rw [← valueAtoms_map, ha]
          exact node_value_g hidden_good hrs hm hf
        · simp at hv
      · simp only [hlhs] at hd'
        split at hd'
        · rename_i hm
          simp only [Option.some.injEq] at hd'
          subst hd' hm
          rw [definedNT_field] at ha
          have ha : (Tree.placed k p (.node r kids)).definedValue = _ := ha
          rw [ha]
          exact shown_of_defined (defined_g (defined_bk hrs) hf)
        · simp at hd'

theorem writesList_good : ∀ {rhs : List Sym} {toks : List Token} {kids : List Tree}, DerivesList rhs toks kids → ∀ (r : Nat) (q : Spec.Place)
    (next : Int) (i : Nat), Tree.PreferredList r q next i kids → Sane toks → F u toks → ∀ k p : Nat, ∀ w ∈ Tree.writesList k p kids, GoodWrite u w
  | _, _, _, .nil, _, _, _, _, _, _, _, _, _ => fun w hw => by simp [Tree.writesList] at hw
  | _, _, _, .cons X l a b t ts ht hts, r, q, next, i, hp, hs, hf, k, p => fun w hw => by
    rw [Tree.PreferredList] at hp
    rw [Tree.writesList] at hw
    rw [F.append] at hf
    have hsa : Sane a := hs.left
    have hsb : Sane b := hs.right
    rcases List.mem_append.1 hw with hw | hw
    · exact writes_good ht _ _ hp.1 hsa hf.1 k p w hw
    · exact writesList_good hts r q next (i + 1) hp.2 hsb hf.2 _ _ w hw

end

theorem lastValue_good (i : Nat) : ∀ (l : List Write) (v : Value RefPtr), (∀ w ∈ l, GoodWrite u w) → G u (valueAtoms (seenAtoms ∘ seen) v) →
    G u (valueAtoms (seenAtoms ∘ seen) (l.foldl (fun a w => if w.idx = i then w.value.getD a else a) v))
  | [], v, _, hv => hv
  | w :: l, v, h, hv => by
    refine lastValue_good i l _ (fun w hw => h w (List.mem_cons_of_mem _ hw)) ?_
    simp only
    split
    · cases hw : w.value with
      | none => exact hv
      | some v' => exact (h w (by simp)).1 v' hw
    · exact hv

theorem lastDefined_good (i : Nat) : ∀ (l : List Write) (d : DefinedValue), (∀ w ∈ l, GoodWrite u w) → G u (shownAtoms d) →
    G u (shownAtoms (l.foldl (fun a w => if w.idx = i then w.defined.getD a else a) d))
  | [], v, _, hv => hv
  | w :: l, v, h, hv => by
    refine lastDefined_good i l _ (fun w hw => h w (List.mem_cons_of_mem _ hw)) ?_
    simp only
    split
    · cases hw : w.defined with
      | none => exact hv
      | some v' => exact (h w (by simp)).2 v' hw
    · exact hv

/-- All names and numbers of the module a caller sees are good, those behind pointers too. -/
theorem exact_good {toks : List Token} {t : Tree} (h : Derives (.n NT.ModuleDefinition) toks t) (hp : t.IsPreferred) (hs : Sane toks)
    (hf : F u toks) : G u (moduleAtoms shownAtoms (valueAtoms shownAtoms) t.exact) := by
  have hw : ∀ w ∈ t.memory.writes, GoodWrite u w := writes_good h _ _ hp hs hf 0 1
  have hupto : ∀ g, ∀ w ∈ t.memory.upTo g, GoodWrite u w := fun g w hm => hw w (List.takeWhile_subset _ hm)
  have hdef : ∀ p, G u (shownAtoms (t.memory.defined p)) := fun p => by
    unfold Memory.defined
    split
    · exact lastDefined_good _ _ _ (hupto _) G.nil
    · exact G.nil
  have href : ∀ x, G u ((seenAtoms ∘ seen) x) → G u ((shownAtoms ∘ t.memory.ref) x) := fun x hx => by
    cases x with
    | slot s => exact hdef s
    | copy d => exact shown_of_defined hx
  have hval : ∀ p, G u (valueAtoms shownAtoms (t.memory.deref p)) := fun p => by
    unfold Memory.deref
    rw [valueAtoms_map]
    refine value_mono href _ ?_
    unfold Memory.value
    split
    · exact lastValue_good _ _ _ (hupto _) G.nil
    · exact G.nil
  have hm : G u (moduleAtoms seenAtoms (fun _ => []) (t.module (pointers hidden))) := module_g hidden_good (module_bk (simple := false) hs h hp (by simp)) hf
  obtain ⟨kids, rfl, hd⟩ := inv_ModuleDefinition h
  have hkids := placedList_agree hd 0 1
  have k1 : (dollars (Tree.placedList 0 1 kids) 1).moduleIdentifier = _ := hkids 0 _ rfl
  have k3 : (dollars (Tree.placedList 0 1 kids) 3).tagDefault = _ := hkids 2 _ rfl
  have k4 : (dollars (Tree.placedList 0 1 kids) 4).extensionDefault = _ := hkids 3 _ rfl
  have k7 : (dollars (Tree.placedList 0 1 kids) 7).moduleBody.map seen (fun _ => ()) = _ := hkids 6 _ rfl
  have he : (moduleOf (dollars (Tree.placedList 0 1 kids))).map seen (fun _ => ()) = Tree.module (pointers hidden) (.node 1 kids) := by
    simp only [Tree.module, evalList_eq, moduleOf, ModuleDefinition.map, k1, k3, k4, k7]
  simp only [Tree.exact]
  rw [moduleAtoms_map]
  rw [← he, moduleAtoms_map] at hm
  exact module_mono href (fun x _ => hval x) _ hm

end Asn1go.Names
