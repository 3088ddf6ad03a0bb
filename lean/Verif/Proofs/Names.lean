import Verif.Spec.Names
import Verif.Spec.Notation
import Verif.Proofs.Print.Complete

/-! The names and numbers of a module come from its tokens. -/

namespace Asn1go.Names

open Spec Notation Print

variable {u : Unicode}

/-- All are good. -/
def G (u : Unicode) (l : List Atom) : Prop := ∀ x ∈ l, x.Good u

theorem G.nil : G u [] := by simp [G]
theorem G.cons {x : Atom} {l : List Atom} : G u (x :: l) ↔ x.Good u ∧ G u l := by simp [G]
theorem G.append {a b : List Atom} : G u (a ++ b) ↔ G u a ∧ G u b := by simp [G, or_imp, forall_and]

theorem G.flat {α : Type} {l : List α} {f : α → List Atom} : G u (l.flatMap f) ↔ ∀ x ∈ l, G u (f x) := by
  simp only [G, List.mem_flatMap]
  exact ⟨fun h x hx y hy => h y ⟨x, hx, hy⟩, fun h y ⟨x, hx, hy⟩ => h x hx y hy⟩

theorem good_upper {s : Str} (h : Fine u (upper s)) : (Atom.upper s).Good u := by
  generalize ht : upper s = t at h
  cases h with
  | upper c w h1 h2 h3 => simp at ht; subst ht; exact ⟨h1, by simp [h2]⟩
  | lower c w h1 h2 => exact absurd (congrArg Prod.fst ht) (show Tok.TYPEORMODULEREFERENCE ≠ Tok.VALUEIDENTIFIER by decide)
  | number r n h => simp at ht
  | word code => simp at ht

theorem good_lower {s : Str} (h : Fine u (lower s)) : (Atom.lower s).Good u := by
  generalize ht : lower s = t at h
  cases h with
  | upper c w h1 h2 h3 => exact absurd (congrArg Prod.fst ht) (show Tok.VALUEIDENTIFIER ≠ Tok.TYPEORMODULEREFERENCE by decide)
  | lower c w h1 h2 => simp at ht; subst ht; exact ⟨h1, by simp [h2]⟩
  | number r n h => simp at ht
  | word code => simp at ht

theorem num_lt {s : Str} {n : Nat} (h : Fine u (num s n)) : n < 9223372036854775808 := by
  generalize ht : num s n = t at h
  cases h with
  | upper c w h1 h2 h3 => simp at ht
  | lower c w h1 h2 => simp at ht
  | number r k h => simp at ht; omega
  | word code => simp at ht

theorem good_num {s : Str} {n : Nat} (h : Fine u (num s n)) : (Atom.number n).Good u := by
  have := num_lt h
  exact ⟨by omega, by omega⟩

theorem good_neg {s : Str} {n : Nat} (h : Fine u (num s n)) : (Atom.number (-n)).Good u := by
  have := num_lt h
  exact ⟨by omega, by omega⟩

theorem good_zero : (Atom.number 0).Good u := ⟨by omega, by omega⟩

theorem opt_nil {k : Str → Atom} : G u (optionalName k []) := G.nil

theorem opt_good {k : Str → Atom} {s : Str} (h : (k s).Good u) : G u (optionalName k s) := by
  cases s with
  | nil => exact G.nil
  | cons c l => exact G.cons.2 ⟨h, G.nil⟩

theorem time_good {s : Str} (h : s ∈ [c! "GeneralizedTime", c! "UTCTime"]) : (Atom.upper s).Good u := by
  have hl : ∀ c : Char, ((65 ≤ c.toNat && c.toNat ≤ 90) || (97 ≤ c.toNat && c.toNat ≤ 122)) = true → u.isLetter c = true := fun c hc => by
    rw [u.letter_ascii c (by simp at hc; omega)]; exact hc
  have hw : Word u s ∧ s.head?.map u.isUpper = some true := by
    simp only [List.mem_cons, List.not_mem_nil, or_false] at h
    rcases h with rfl | rfl
    · exact ⟨⟨⟨_, _, rfl, hl _ (by decide)⟩, fun c hc => .inl (hl c ((by decide : ∀ c ∈ c! "GeneralizedTime", ((65 ≤ c.toNat && c.toNat ≤ 90) || (97 ≤ c.toNat && c.toNat ≤ 122)) = true) c hc)),
        by decide, by decide⟩, by simp [u.upper_ascii 'G' (by decide)]⟩
    · exact ⟨⟨⟨_, _, rfl, hl _ (by decide)⟩, fun c hc => .inl (hl c ((by decide : ∀ c ∈ c! "UTCTime", ((65 ≤ c.toNat && c.toNat ≤ 90) || (97 ≤ c.toNat && c.toNat ≤ 122)) = true) c hc)),
        by decide, by decide⟩, by simp [u.upper_ascii 'U' (by decide)]⟩
  exact hw

theorem defined_g {a : List Token} {d : DefinedValue} (h : DefinedText a d) (hf : F u a) : G u (definedAtoms d) := by
  cases h with
  | ext m v =>
    simp only [F.cons] at hf
    exact G.append.2 ⟨opt_good (good_upper hf.1), G.cons.2 ⟨good_lower hf.2.2.1, G.nil⟩⟩
  | plain v =>
    simp only [F.cons] at hf
    exact G.append.2 ⟨opt_nil, G.cons.2 ⟨good_lower hf.1, G.nil⟩⟩

theorem signed_g {a : List Token} {n : Int} (h : SignedText a n) (hf : F u a) : (Atom.number n).Good u := by
  cases h with
  | pos r n => simp only [F.cons] at hf; exact good_num hf.1
  | neg r n => simp only [F.cons] at hf; exact good_neg hf.2.1

theorem namedNumber_g {a : List Token} {n : NamedNumber} (h : NamedNumberText a n) (hf : F u a) : G u (numberAtoms n) := by
  cases h with
  | number s a n h => simp only [F.cons, F.append] at hf; exact G.cons.2 ⟨good_lower hf.1, G.cons.2 ⟨signed_g h hf.2.2.1, G.nil⟩⟩
  | defined s a d h => simp only [F.cons, F.append] at hf; exact G.cons.2 ⟨good_lower hf.1, defined_g h hf.2.2.1⟩

theorem namedNumbers_g {a : List Token} {l : List NamedNumber} (h : NamedNumbersText a l) (hf : F u a) : G u (l.flatMap numberAtoms) := by
  induction h with
  | one a x h => simpa using namedNumber_g h hf
  | snoc a b l x h1 h2 ih =>
    simp only [F.cons, F.append] at hf
    rw [List.flatMap_append]
    exact G.append.2 ⟨ih hf.1, by simpa using namedNumber_g h2 hf.2.2⟩

theorem enumItem_g {a : List Token} {x : EnumerationItem} (h : EnumItemText a x) (hf : F u a) : G u (itemAtoms x) := by
  cases h with
  | number a x h => exact namedNumber_g h hf
  | name s => simp only [F.cons] at hf; exact G.cons.2 ⟨good_lower hf.1, G.nil⟩

theorem enum_g {a : List Token} {l : List EnumerationItem} (h : EnumText a l) (hf : F u a) : G u (l.flatMap itemAtoms) := by
  induction h with
  | one a x h => simpa using enumItem_g h hf
  | cons a b x l h1 h2 ih =>
    simp only [F.cons, F.append] at hf
    rw [List.flatMap_cons]
    exact G.append.2 ⟨enumItem_g h1 hf.1, ih hf.2.2⟩

theorem exponent_g {a : List Token} {n : Int} (h : ExponentText a n) (hf : F u a) : (Atom.number n).Good u := by
  cases h with
  | pos r n => simp only [F.cons] at hf; exact good_num hf.1
  | neg r n => simp only [F.cons] at hf; exact good_neg hf.2.1

theorem real_g {a : List Token} {x : GoReal} (h : RealText a x) (hf : F u a) : G u (realAtoms x) := by
  cases h with
  | fraction r s i f => simp only [F.cons] at hf; exact G.cons.2 ⟨good_num hf.1, G.cons.2 ⟨good_num hf.2.2.1, G.cons.2 ⟨good_zero, G.nil⟩⟩⟩
  | both r s i f a e h =>
    simp only [F.cons] at hf
    exact G.cons.2 ⟨good_num hf.1, G.cons.2 ⟨good_num hf.2.2.1, G.cons.2 ⟨exponent_g h hf.2.2.2.2, G.nil⟩⟩⟩
  | exponent r i a e h =>
    simp only [F.cons] at hf
    exact G.cons.2 ⟨good_num hf.1, G.cons.2 ⟨good_zero, G.cons.2 ⟨exponent_g h hf.2.2, G.nil⟩⟩⟩

section

variable {R D : Type} {L : Links R D} {simple : Bool} {r : R → List Atom} {d : D → List Atom}

/-- What pointers show has good names and numbers. -/
structure LinksGood (u : Unicode) (L : Links R D) (r : R → List Atom) (d : D → List Atom) : Prop where
  head : ∀ x, G u (definedAtoms x) → G u (r (L.head x))
  copy : ∀ x, G u (definedAtoms x) → G u (r (L.copy x))
  default : ∀ v, G u (valueAtoms r v) → G u (d (L.default v))

variable (hL : LinksGood u L r d)

/-- The names and numbers of a component of an object identifier value. -/
def oidAtoms (r : R → List Atom) (e : ObjectIdElement R) : List Atom := optionalName .lower e.name ++ [.number e.id] ++ match e.reference with
    | none => []
    | some x => r x

include hL

theorem oidElement_g {a : List Token} {e : ObjectIdElement R} (h : OidElementText L a e) (hf : F u a) : G u (oidAtoms r e) := by
  cases h with
  | number s n => simp only [F.cons] at hf; simp only [oidAtoms, G.append, G.cons]; exact ⟨⟨opt_nil, good_num hf.1, G.nil⟩, G.nil⟩
  | nameNumber s t n =>
    simp only [F.cons] at hf; simp only [oidAtoms, G.append, G.cons]; exact ⟨⟨opt_good (good_lower hf.1), good_num hf.2.2.1, G.nil⟩, G.nil⟩
  | nameDefined s a d h =>
    simp only [F.cons, F.append] at hf; simp only [oidAtoms, G.append, G.cons]
    exact ⟨⟨opt_good (good_lower hf.1), good_zero, G.nil⟩, hL.copy _ (defined_g h hf.2.2.1)⟩

theorem oidComponent_g {a : List Token} {e : ObjectIdElement R} (h : OidComponentText L a e) (hf : F u a) : G u (oidAtoms r e) := by
  cases h with
  | element _ h => exact oidElement_g hL h hf
  | defined x h => simp only [oidAtoms, G.append, G.cons]; exact ⟨⟨opt_nil, good_zero, G.nil⟩, hL.copy _ (defined_g h hf)⟩

theorem oidComponents_g {a : List Token} {l : List (ObjectIdElement R)} (h : OidComponentsText L a l) (hf : F u a) : G u (l.flatMap (oidAtoms r)) := by
  induction h with
  | one a e h => simpa using oidComponent_g hL h hf
  | cons a b e l h1 h2 ih =>
    simp only [F.append] at hf
    rw [List.flatMap_cons]
    exact G.append.2 ⟨oidComponent_g hL h1 hf.1, ih hf.2⟩

theorem oid_g {a : List Token} {l : List (ObjectIdElement R)} (h : OidText L simple a l) (hf : F u a) : G u (l.flatMap (oidAtoms r)) := by
  cases h with
  | one a e h => simp only [F.cons, F.append] at hf; simpa using oidComponent_g hL h hf.2.1
  | many a b e l h1 h2 =>
    simp only [F.cons, F.append] at hf
    rw [List.flatMap_cons]
    exact G.append.2 ⟨oidElement_g hL h1 hf.2.1, oidComponents_g hL h2 hf.2.2.1⟩
  | head a b x l _ h1 h2 =>
    simp only [F.cons, F.append] at hf
    rw [List.flatMap_cons]
    refine G.append.2 ⟨?_, oidComponents_g hL h2 hf.2.2.1⟩
    simp only [oidAtoms, G.append, G.cons]
    exact ⟨⟨opt_nil, good_zero, G.nil⟩, hL.head _ (defined_g h1 hf.2.1)⟩

theorem value_g {a : List Token} {v : Value R} (h : ValueText L simple a v) (hf : F u a) : G u (valueAtoms r v) := by
  cases h with
  | true => exact G.nil
  | false => exact G.nil
  | number a n h => exact G.cons.2 ⟨signed_g h hf, G.nil⟩
  | name s => simp only [F.cons] at hf; exact G.cons.2 ⟨good_lower hf.1, G.nil⟩
  | oid a l h => exact oid_g hL h hf
  | real a x h => exact real_g h hf
  | minusReal a x h => simp only [F.cons] at hf; exact (real_g h hf.2 : G u (realAtoms x))
  | plusInfinity => exact G.nil
  | minusInfinity => exact G.nil

omit hL in
theorem namedBit_g {a : List Token} {b : NamedBit R} (h : NamedBitText a b) (hf : F u a) : G u (.lower b.name :: valueAtoms r b.index) := by
  cases h with
  | number s t n => simp only [F.cons] at hf; exact G.cons.2 ⟨good_lower hf.1, G.cons.2 ⟨good_num hf.2.2.1, G.nil⟩⟩
  | defined s a d h => simp only [F.cons, F.append] at hf; exact G.cons.2 ⟨good_lower hf.1, defined_g h hf.2.2.1⟩

omit hL in
theorem namedBits_g {a : List Token} {l : List (NamedBit R)} (h : NamedBitsText a l) (hf : F u a) :
    G u (l.flatMap fun b => .lower b.name :: valueAtoms r b.index) := by
  induction h with
  | one a x h => simpa using namedBit_g h hf
  | snoc a b l x h1 h2 ih =>
    simp only [F.cons, F.append] at hf
    rw [List.flatMap_append]
    exact G.append.2 ⟨ih hf.1, by simpa using namedBit_g h2 hf.2.2⟩

omit hL in
theorem tag_g {a : List Token} {g : Tag R} (h : TagText a g) (hf : F u a) : G u (valueAtoms r g.classNumber) := by
  cases h with
  | number a c s n h => simp only [F.cons, F.append] at hf; exact G.cons.2 ⟨good_num hf.2.2.1, G.nil⟩
  | defined a b c d h1 h2 => simp only [F.cons, F.append] at hf; exact defined_g h2 hf.2.2.1

theorem lower_g {a : List Token} {v : Value R} (h : LowerText L simple a v) (hf : F u a) : G u (valueAtoms r v) := by
  cases h with
  | value a v h => exact value_g hL h hf
  | min => exact G.nil

theorem upper_g {a : List Token} {v : Value R} (h : UpperText L simple a v) (hf : F u a) : G u (valueAtoms r v) := by
  cases h with
  | value a v h => exact value_g hL h hf
  | max => exact G.nil

theorem range_g {a : List Token} {v w : RangeEndpoint R} (h : RangeText L simple a v w) (hf : F u a) :
    G u (valueAtoms r v.value ++ valueAtoms r w.value) := by
  cases h <;> rename_i h1 h2 <;> simp only [F.cons, F.append] at hf
  · exact G.append.2 ⟨lower_g hL h1 hf.1, upper_g hL h2 hf.2.2⟩
  · exact G.append.2 ⟨lower_g hL h1 hf.1, upper_g hL h2 hf.2.2.2⟩
  · exact G.append.2 ⟨lower_g hL h1 hf.1, upper_g hL h2 hf.2.2.2⟩
  · exact G.append.2 ⟨lower_g hL h1 hf.1, upper_g hL h2 hf.2.2.2.2⟩

omit hL in
theorem namedListAtoms_append (a b : List (NamedType R D)) : namedListAtoms r d (a ++ b) = namedListAtoms r d a ++ namedListAtoms r d b := by
  induction a with
  | nil => simp [namedListAtoms]
  | cons x l ih => simp [namedListAtoms, ih]

omit hL in
theorem componentListAtoms_append (a b : List (ComponentType R D)) :
    componentListAtoms r d (a ++ b) = componentListAtoms r d a ++ componentListAtoms r d b := by
  induction a with
  | nil => simp [componentListAtoms]
  | cons x l ih => simp [componentListAtoms, ih]

omit hL in
theorem partListAtoms_append (a b : List (IntersectionElements R D)) : partListAtoms r d (a ++ b) = partListAtoms r d a ++ partListAtoms r d b := by
  induction a with
  | nil => simp [partListAtoms]
  | cons x l ih => simp [partListAtoms, ih]

omit hL in
theorem unionAtoms_append (a b : List (List (IntersectionElements R D))) : unionAtoms r d (a ++ b) = unionAtoms r d a ++ unionAtoms r d b := by
  induction a with
  | nil => simp [unionAtoms]
  | cons x l ih => simp [unionAtoms, ih]

omit hL in
theorem named_types (l : List (NamedType R D)) : tyListAtoms r d (l.map .named) = namedListAtoms r d l := by
  induction l with
  | nil => simp [tyListAtoms, namedListAtoms]
  | cons x l ih => simp [tyListAtoms, namedListAtoms, tyAtoms, ih]

mutual

theorem type_g : ∀ {c : Bool} {a : List Token} {t : Ty R D}, TypeText L simple c a t → F u a → G u (tyAtoms r d t)
  | _, _, _, .boolean _, _ => by simp only [tyAtoms]; exact G.nil
  | _, _, _, .integer _, _ => by simp only [tyAtoms]; exact G.nil
  | _, _, _, .integerNames _ a l h, hf => by
    simp only [F.cons, F.append] at hf
    simp only [tyAtoms]
    exact namedNumbers_g h hf.2.2.1
  | _, _, _, .enumerated _ a l h, hf => by
    simp only [F.cons, F.append] at hf
    simp only [tyAtoms, List.flatMap_nil, List.append_nil]
    exact enum_g h hf.2.2.1
  | _, _, _, .real _, _ => by simp only [tyAtoms]; exact G.nil
  | _, _, _, .bitString _, _ => by simp only [tyAtoms]; exact G.nil
  | _, _, _, .bitStringNames _ a l h, hf => by
    simp only [F.cons, F.append] at hf
    simp only [tyAtoms]
    exact namedBits_g h hf.2.2.2.1
  | _, _, _, .octetString _, _ => by simp only [tyAtoms]; exact G.nil
  | _, _, _, .null _, _ => by simp only [tyAtoms]; exact G.nil
  | _, _, _, .objectIdentifier _, _ => by simp only [tyAtoms]; exact G.nil
  | _, _, _, .any _, _ => by simp only [tyAtoms]; exact G.nil
  | _, _, _, .anyDefinedBy _ s, hf => by
    simp only [F.cons, F.append] at hf
    simp only [tyAtoms]
    exact opt_good (good_lower hf.2.2.2.1)
  | _, _, _, .string _ code _, _ => by simp only [tyAtoms]; exact G.nil
  | _, _, _, .characterString _, _ => by simp only [tyAtoms]; exact G.nil
  | _, _, _, .generalizedTime _, _ => by simp only [tyAtoms, G.cons]; exact ⟨time_good (by simp), G.nil⟩
  | _, _, _, .utcTime _, _ => by simp only [tyAtoms, G.cons]; exact ⟨time_good (by simp), G.nil⟩
  | _, _, _, .ref _ s, hf => by
    simp only [F.cons] at hf
    simp only [tyAtoms, G.cons]
    exact ⟨good_upper hf.1, G.nil⟩
  | _, _, _, .choice _ a l h, hf => by
    simp only [F.cons, F.append] at hf
    simp only [tyAtoms, tyListAtoms, List.append_nil]
    exact namedTypes_g h hf.2.2.1
  | _, _, _, .choiceMore _ a b x l e h1 h2 h3, hf => by
    simp only [F.cons, F.append] at hf
    simp only [tyAtoms, G.append]
    exact ⟨namedTypes_g h1 hf.2.2.1, alternatives_g h3 hf.2.2.2.2.2.2.1⟩
  | _, _, _, .choiceOpen _ b x e h2 h3, hf => by
    simp only [F.cons, F.append] at hf
    simp only [tyAtoms, namedListAtoms, List.nil_append]
    exact alternatives_g h3 hf.2.2.2.2.1
  | _, _, _, .sequence _ a l e h, hf => by
    simp only [F.cons, F.append] at hf
    simp only [tyAtoms, G.append]
    exact body_g h hf.2.2.1
  | _, _, _, .set _ a l e h, hf => by
    simp only [F.cons, F.append] at hf
    simp only [tyAtoms, G.append]
    exact body_g h hf.2.2.1
  | _, _, _, .tagged a b x g i hh t h1 h2 h3, hf => by
    simp only [F.append] at hf
    simp only [tyAtoms, G.append]
    exact ⟨tag_g h1 hf.1, type_g h3 hf.2.2⟩
  | _, _, _, .sequenceOf a t h, hf => by
    simp only [F.cons] at hf
    simp only [tyAtoms]
    exact elementType_g h hf.2.2
  | _, _, _, .setOf a t h, hf => by
    simp only [F.cons] at hf
    simp only [tyAtoms]
    exact elementType_g h hf.2.2
  | _, _, _, .constrained _ a b t k h1 h2, hf => by
    simp only [F.append] at hf
    simp only [tyAtoms, G.append]
    exact ⟨type_g h1 hf.1, constraint_g h2 hf.2⟩
  | _, _, _, .constrainedSequenceOf a b t k h1 h2, hf => by
    simp only [F.cons, F.append] at hf
    simp only [tyAtoms, G.append]
    exact ⟨elementType_g h2 hf.2.2.2, ofConstraint_g h1 hf.2.1⟩
  | _, _, _, .constrainedSetOf a b t k h1 h2, hf => by
    simp only [F.cons, F.append] at hf
    simp only [tyAtoms, G.append]
    exact ⟨elementType_g h2 hf.2.2.2, ofConstraint_g h1 hf.2.1⟩

theorem elementType_g : ∀ {a : List Token} {t : Ty R D}, ElementTypeText L simple a t → F u a → G u (tyAtoms r d t)
  | _, _, .type a t h, hf => type_g h hf
  | _, _, .named a n h, hf => by simp only [tyAtoms]; exact namedType_g h hf

theorem ofConstraint_g : ∀ {a : List Token} {k : Constraint R D}, OfConstraintText L simple a k → F u a → G u (constraintAtoms r d k)
  | _, _, .constraint a k h, hf => constraint_g h hf
  | _, _, .size a k h, hf => by
    simp only [F.cons] at hf
    simp only [constraintAtoms, specAtoms, elementsListAtoms, elementsAtoms, unionAtoms, partListAtoms, partAtoms, List.append_nil]
    exact constraint_g h hf.2

theorem namedType_g : ∀ {a : List Token} {n : NamedType R D}, NamedTypeText L simple a n → F u a → G u (namedAtoms r d n)
  | _, _, .mk s a t h, hf => by
    simp only [F.cons] at hf
    simp only [namedAtoms, G.cons]
    exact ⟨good_lower hf.1, type_g h hf.2⟩

theorem namedTypes_g : ∀ {a : List Token} {l : List (NamedType R D)}, NamedTypesText L simple a l → F u a → G u (namedListAtoms r d l)
  | _, _, .one a x h, hf => by simp only [namedListAtoms, List.append_nil]; exact namedType_g h hf
  | _, _, .snoc a b l x h1 h2, hf => by
    simp only [F.cons, F.append] at hf
    simp only [namedListAtoms_append, namedListAtoms, List.append_nil, G.append]
    exact ⟨namedTypes_g h1 hf.1, namedType_g h2 hf.2.2⟩

theorem alternatives_g : ∀ {a : List Token} {l : List (Ty R D)}, AlternativesText L simple a l → F u a → G u (tyListAtoms r d l)
  | _, _, .none, hf => by simp only [tyListAtoms]; exact G.nil
  | _, _, .some a l h, hf => by
    simp only [F.cons] at hf
    rw [named_types]
    exact namedTypes_g h hf.2

theorem component_g : ∀ {a : List Token} {x : ComponentType R D}, ComponentText L simple a x → F u a → G u (componentAtoms r d x)
  | _, _, .required a n h, hf => by simp only [componentAtoms]; exact namedType_g h hf
  | _, _, .optional a n h, hf => by
    simp only [F.append] at hf
    simp only [componentAtoms]; exact namedType_g h hf.1
  | _, _, .default a b n v _ h1 h2, hf => by
    simp only [F.cons, F.append] at hf
    simp only [componentAtoms, G.append]
    exact ⟨namedType_g h1 hf.1, hL.default _ (value_g hL h2 hf.2.2)⟩
  | _, _, .componentsOf a t h, hf => by
    simp only [F.cons] at hf
    simp only [componentAtoms]; exact type_g h hf.2.2

theorem components_g : ∀ {a : List Token} {l : List (ComponentType R D)}, ComponentsText L simple a l → F u a → G u (componentListAtoms r d l)
  | _, _, .one a x h, hf => by simp only [componentListAtoms, List.append_nil]; exact component_g h hf
  | _, _, .snoc a b l x h1 h2, hf => by
    simp only [F.cons, F.append] at hf
    simp only [componentListAtoms_append, componentListAtoms, List.append_nil, G.append]
    exact ⟨components_g h1 hf.1, component_g h2 hf.2.2⟩

theorem addition_g : ∀ {a : List Token} {l : List (ComponentType R D)}, AdditionText L simple a l → F u a → G u (componentListAtoms r d l)
  | _, _, .component a x h, hf => by simp only [componentListAtoms, List.append_nil]; exact component_g h hf
  | _, _, .group a b l _ _, hf => by simp only [componentListAtoms]; exact G.nil

theorem additions_g : ∀ {a : List Token} {l : List (ComponentType R D)}, AdditionsText L simple a l → F u a → G u (componentListAtoms r d l)
  | _, _, .one a l h, hf => addition_g h hf
  | _, _, .snoc a b l m h1 h2, hf => by
    simp only [F.cons, F.append] at hf
    simp only [componentListAtoms_append, G.append]
    exact ⟨additions_g h1 hf.1, addition_g h2 hf.2.2⟩

theorem body_g : ∀ {a : List Token} {l e : List (ComponentType R D)}, BodyText L simple a l e → F u a →
    G u (componentListAtoms r d l) ∧ G u (componentListAtoms r d e)
  | _, _, _, .empty, hf => by simp only [componentListAtoms]; exact ⟨G.nil, G.nil⟩
  | _, _, _, .ellipsis b _, hf => by simp only [componentListAtoms]; exact ⟨G.nil, G.nil⟩
  | _, _, _, .twoEllipses b _, hf => by simp only [componentListAtoms]; exact ⟨G.nil, G.nil⟩
  | _, _, _, .components a l h, hf => ⟨components_g h hf, by simp only [componentListAtoms]; exact G.nil⟩
  | _, _, _, .extensible a b l h _, hf => by
    simp only [F.cons, F.append] at hf
    exact ⟨components_g h hf.1, by simp only [componentListAtoms]; exact G.nil⟩
  | _, _, _, .extended a b x l e h1 _ h3, hf => by
    simp only [F.cons, F.append] at hf
    exact ⟨components_g h1 hf.1, additions_g h3 hf.2.2.2.2.2⟩

theorem constraint_g : ∀ {a : List Token} {k : Constraint R D}, ConstraintText L simple a k → F u a → G u (constraintAtoms r d k)
  | _, _, .mk a b l h _, hf => by
    simp only [F.cons, F.append] at hf
    simp only [constraintAtoms, specAtoms]
    exact sets_g h hf.2.1

theorem sets_g : ∀ {a : List Token} {l : List (Elements R D)}, SetsText L simple a l → F u a → G u (elementsListAtoms r d l)
  | _, _, .one a e h, hf => by simp only [elementsListAtoms, List.append_nil]; exact set_g h hf
  | _, _, .extensible a e h, hf => by
    simp only [F.append] at hf
    simp only [elementsListAtoms, List.append_nil]; exact set_g h hf.1
  | _, _, .extended a b e f h1 h2, hf => by
    simp only [F.cons, F.append] at hf
    simp only [elementsListAtoms, List.append_nil, G.append]
    exact ⟨set_g h1 hf.1, set_g h2 hf.2.2.2.2⟩

theorem set_g : ∀ {a : List Token} {e : Elements R D}, SetText L simple a e → F u a → G u (elementsAtoms r d e)
  | _, _, .unions a l h, hf => by simp only [elementsAtoms]; exact unions_g h hf
  | _, _, .allExcept a e h, hf => by
    simp only [F.cons] at hf
    simp only [elementsAtoms]; exact elements_g h hf.2.2

theorem unions_g : ∀ {a : List Token} {l : List (List (IntersectionElements R D))}, UnionsText L simple a l → F u a → G u (unionAtoms r d l)
  | _, _, .one a x h, hf => by simp only [unionAtoms, List.append_nil]; exact intersections_g h hf
  | _, _, .snoc code a b l x h1 _ h2, hf => by
    simp only [F.cons, F.append] at hf
    simp only [unionAtoms_append, unionAtoms, List.append_nil, G.append]
    exact ⟨unions_g h1 hf.1, intersections_g h2 hf.2.2⟩

theorem intersections_g : ∀ {a : List Token} {l : List (IntersectionElements R D)}, IntersectionsText L simple a l → F u a → G u (partListAtoms r d l)
  | _, _, .one a x h, hf => by simp only [partListAtoms, List.append_nil]; exact except_g h hf
  | _, _, .snoc code a b l x h1 _ h2, hf => by
    simp only [F.cons, F.append] at hf
    simp only [partListAtoms_append, partListAtoms, List.append_nil, G.append]
    exact ⟨intersections_g h1 hf.1, except_g h2 hf.2.2⟩

theorem except_g : ∀ {a : List Token} {x : IntersectionElements R D}, ExceptText L simple a x → F u a → G u (partAtoms r d x)
  | _, _, .plain a e h, hf => by simp only [partAtoms, elementsAtoms, List.append_nil]; exact elements_g h hf
  | _, _, .except a b e f h1 h2, hf => by
    simp only [F.cons, F.append] at hf
    simp only [partAtoms, G.append]
    exact ⟨elements_g h1 hf.1, elements_g h2 hf.2.2⟩

theorem elements_g : ∀ {a : List Token} {e : Elements R D}, ElementsText L simple a e → F u a → G u (elementsAtoms r d e)
  | _, _, .value a v h, hf => by simp only [elementsAtoms]; exact value_g hL h hf
  | _, _, .range a v w h, hf => by simp only [elementsAtoms]; exact range_g hL h hf
  | _, _, .size a k h, hf => by
    simp only [F.cons] at hf
    simp only [elementsAtoms]; exact constraint_g h hf.2
  | _, _, .type a t h, hf => by simp only [elementsAtoms]; exact type_g h hf
  | _, _, .component a k _, hf => by simp only [elementsAtoms]; exact G.nil
  | _, _, .components a _, hf => by simp only [elementsAtoms]; exact G.nil
  | _, _, .someComponents a _, hf => by simp only [elementsAtoms]; exact G.nil
  | _, _, .parentheses a e h, hf => by
    simp only [F.cons, F.append] at hf
    exact set_g h hf.2.1

end

theorem assignment_g {a : List Token} {x : Assignment R D} (h : AssignmentText L simple a x) (hf : F u a) : G u (assignmentAtoms r d x) := by
  cases h with
  | type s a t h =>
    simp only [F.cons] at hf
    simp only [assignmentAtoms, G.cons]
    exact ⟨good_upper hf.1, type_g hL h hf.2.2⟩
  | value s a b t v h1 h2 =>
    simp only [F.cons, F.append] at hf
    simp only [assignmentAtoms, G.cons, G.append]
    exact ⟨good_lower hf.1, type_g hL h1 hf.2.1, value_g hL h2 hf.2.2.2⟩

theorem assignments_g {a : List Token} {l : List (Assignment R D)} (h : AssignmentsText L simple a l) (hf : F u a) :
    G u (l.flatMap (assignmentAtoms r d)) := by
  induction h with
  | one a x h => simpa using assignment_g hL h hf
  | snoc a b l x h1 h2 ih =>
    simp only [F.append] at hf
    rw [List.flatMap_append]
    exact G.append.2 ⟨ih hf.1, by simpa using assignment_g hL h2 hf.2⟩

omit hL in
theorem symbols_g {a : List Token} {l : List Symbol} (h : SymbolsText a l) (hf : F u a) : G u (l.flatMap symbolAtoms) := by
  have one : ∀ {a x}, SymbolText a x → F u a → G u (symbolAtoms x) := fun h hf => by
    cases h with
    | type s => simp only [F.cons] at hf; exact G.cons.2 ⟨good_upper hf.1, G.nil⟩
    | value s => simp only [F.cons] at hf; exact G.cons.2 ⟨good_lower hf.1, G.nil⟩
  induction h with
  | one a x h => simpa using one h hf
  | snoc a b l x h1 h2 ih =>
    simp only [F.cons, F.append] at hf
    rw [List.flatMap_append]
    exact G.append.2 ⟨ih hf.1, by simpa using one h2 hf.2.2⟩

theorem from_g {c : Bool} {a : List Token} {x : SymbolsFromModule R} (h : FromText L simple c a x) (hf : F u a) : G u (importAtoms r x) := by
  cases h with
  | oid _ a b l s o h1 h2 =>
    simp only [F.cons, F.append] at hf
    simp only [importAtoms, G.append, G.cons]
    exact ⟨symbols_g h1 hf.1, good_upper hf.2.2.1, oid_g hL h2 hf.2.2.2⟩
  | defined _ a b l s x h1 h2 =>
    simp only [F.cons, F.append] at hf
    simp only [importAtoms, G.append, G.cons]
    exact ⟨symbols_g h1 hf.1, good_upper hf.2.2.1, defined_g h2 hf.2.2.2⟩
  | none a l s h1 =>
    simp only [F.cons, F.append] at hf
    simp only [importAtoms, G.append, G.cons]
    exact ⟨symbols_g h1 hf.1, good_upper hf.2.2.1, G.nil⟩

theorem froms_g {c : Bool} {a : List Token} {l : List (SymbolsFromModule R)} (h : FromsText L simple c a l) (hf : F u a) :
    G u (l.flatMap (importAtoms r)) := by
  induction h with
  | one _ a x h => simpa using from_g hL h hf
  | snoc _ a b l x h1 h2 ih =>
    simp only [F.append] at hf
    rw [List.flatMap_append]
    exact G.append.2 ⟨ih hf.1, by simpa using from_g hL h2 hf.2⟩

omit hL in
theorem identifier_g {a : List Token} {l : List DefinitiveObjIdComponent} (h : IdentifierText a l) (hf : F u a) :
    G u (l.flatMap fun c => optionalName .lower c.name ++ [.number c.id]) := by
  have one : ∀ {a x}, DefinitiveText a x → F u a → G u (optionalName .lower x.name ++ [.number x.id]) := fun h hf => by
    cases h with
    | name s => simp only [F.cons] at hf; exact G.append.2 ⟨opt_good (good_lower hf.1), G.cons.2 ⟨good_zero, G.nil⟩⟩
    | number s n => simp only [F.cons] at hf; exact G.append.2 ⟨opt_nil, G.cons.2 ⟨good_num hf.1, G.nil⟩⟩
    | both s t n => simp only [F.cons] at hf; exact G.append.2 ⟨opt_good (good_lower hf.1), G.cons.2 ⟨good_num hf.2.2.1, G.nil⟩⟩
  cases h with
  | none => exact G.nil
  | some a l h =>
    simp only [F.cons, F.append] at hf
    replace hf := hf.2.1
    induction h with
    | one a x h => simpa using one h hf
    | cons a b x l h1 h2 ih =>
      simp only [F.append] at hf
      rw [List.flatMap_cons]
      exact G.append.2 ⟨one h1 hf.1, ih hf.2⟩

theorem module_g {a : List Token} {m : ModuleDefinition R D} (h : ModuleText L simple a m) (hf : F u a) : G u (moduleAtoms r d m) := by
  obtain ⟨s, a, b, x, e, i, g, y, m, h1, h2, h3, h4⟩ := h
  simp only [F.cons, F.append] at hf
  obtain ⟨hs, ha, -, -, -, -, -, he, -⟩ := hf
  simp only [moduleAtoms, G.cons, G.append]
  refine ⟨good_upper hs, ⟨identifier_g h1 ha, ?_⟩, ?_⟩
  · cases h4 with
    | empty => exact G.nil
    | some a b x i l h5 h6 h7 =>
      simp only [F.append] at he
      cases h6 with
      | none => exact G.nil
      | empty => exact G.nil
      | some a l h => simp only [F.cons, F.append] at he; exact froms_g hL h he.2.1.2.1
  · cases h4 with
    | empty => exact G.nil
    | some a b x i l h5 h6 h7 =>
      simp only [F.append] at he
      exact assignments_g hL h7 he.2.2

end

/-! ### Names do not depend on what pointers point to -/

section

variable {R R' D D' : Type} (f : R → R') (g : D → D') (r : R' → List Atom) (d : D' → List Atom)

theorem valueAtoms_map (v : Value R) : valueAtoms r (v.map f) = valueAtoms (r ∘ f) v := by
  cases v with
  | objectIdentifier l =>
    simp only [Value.map, valueAtoms, List.flatMap_map]
    congr 1
    funext e
    obtain ⟨n, i, _ | x⟩ := e <;> rfl
  | _ => rfl

mutual

theorem tyAtoms_map : ∀ t : Ty R D, tyAtoms r d (t.map f g) = tyAtoms (r ∘ f) (d ∘ g) t
  | .nil => rfl
  | .null => rfl
  | .objectIdentifier => rfl
  | .integer l => rfl
  | .enumerated a b => rfl
  | .real => rfl
  | .boolean => rfl
  | .choice a e => by simp only [Ty.map, tyAtoms, namedListAtoms_map a, tyListAtoms_map e]
  | .restrictedString n => rfl
  | .characterString => rfl
  | .octetString => rfl
  | .sequence a e => by simp only [Ty.map, tyAtoms, componentListAtoms_map a, componentListAtoms_map e]
  | .set a e => by simp only [Ty.map, tyAtoms, componentListAtoms_map a, componentListAtoms_map e]
  | .tagged t ty tt h => by simp only [Ty.map, tyAtoms, tyAtoms_map ty, Tag.map, valueAtoms_map]
  | .sequenceOf t => by simp only [Ty.map, tyAtoms, tyAtoms_map t]
  | .setOf t => by simp only [Ty.map, tyAtoms, tyAtoms_map t]
  | .any s => rfl
  | .bitString l => by simp only [Ty.map, tyAtoms, List.flatMap_map, NamedBit.map, valueAtoms_map]
  | .constrained t c => by simp only [Ty.map, tyAtoms, tyAtoms_map t, constraintAtoms_map c]
  | .ref s => rfl
  | .named n => by simp only [Ty.map, tyAtoms, namedAtoms_map n]

theorem tyListAtoms_map : ∀ l : List (Ty R D), tyListAtoms r d (Ty.mapList f g l) = tyListAtoms (r ∘ f) (d ∘ g) l
  | [] => rfl
  | t :: l => by simp only [Ty.mapList, tyListAtoms, tyAtoms_map t, tyListAtoms_map l]

theorem namedAtoms_map : ∀ t : NamedType R D, namedAtoms r d (t.map f g) = namedAtoms (r ∘ f) (d ∘ g) t
  | .mk s t => by simp only [NamedType.map, namedAtoms, tyAtoms_map t]

theorem namedListAtoms_map : ∀ l : List (NamedType R D), namedListAtoms r d (NamedType.mapList f g l) = namedListAtoms (r ∘ f) (d ∘ g) l
  | [] => rfl
  | t :: l => by simp only [NamedType.mapList, namedListAtoms, namedAtoms_map t, namedListAtoms_map l]

theorem componentAtoms_map : ∀ t : ComponentType R D, componentAtoms r d (t.map f g) = componentAtoms (r ∘ f) (d ∘ g) t
  | .nil => rfl
  | .named n o none => by simp only [ComponentType.map, Option.map_none, componentAtoms, namedAtoms_map n]
  | .named n o (some x) => by simp only [ComponentType.map, Option.map_some, componentAtoms, namedAtoms_map n, Function.comp]
  | .componentsOf t => by simp only [ComponentType.map, componentAtoms, tyAtoms_map t]

theorem componentListAtoms_map : ∀ l : List (ComponentType R D),
    componentListAtoms r d (ComponentType.mapList f g l) = componentListAtoms (r ∘ f) (d ∘ g) l
  | [] => rfl
  | t :: l => by simp only [ComponentType.mapList, componentListAtoms, componentAtoms_map t, componentListAtoms_map l]

theorem constraintAtoms_map : ∀ c : Constraint R D, constraintAtoms r d (c.map f g) = constraintAtoms (r ∘ f) (d ∘ g) c
  | .mk s => by simp only [Constraint.map, constraintAtoms, specAtoms_map s]

theorem specAtoms_map : ∀ s : ConstraintSpec R D, specAtoms r d (s.map f g) = specAtoms (r ∘ f) (d ∘ g) s
  | .nil => rfl
  | .subtype l => by simp only [ConstraintSpec.map, specAtoms, elementsListAtoms_map l]
  | .general => rfl

theorem partAtoms_map : ∀ t : IntersectionElements R D, partAtoms r d (t.map f g) = partAtoms (r ∘ f) (d ∘ g) t
  | .mk a b => by simp only [IntersectionElements.map, partAtoms, elementsAtoms_map a, elementsAtoms_map b]

theorem partListAtoms_map : ∀ l : List (IntersectionElements R D),
    partListAtoms r d (IntersectionElements.mapList f g l) = partListAtoms (r ∘ f) (d ∘ g) l
  | [] => rfl
  | t :: l => by simp only [IntersectionElements.mapList, partListAtoms, partAtoms_map t, partListAtoms_map l]

theorem unionAtoms_map : ∀ l : List (List (IntersectionElements R D)),
    unionAtoms r d (IntersectionElements.mapListList f g l) = unionAtoms (r ∘ f) (d ∘ g) l
  | [] => rfl
  | t :: l => by simp only [IntersectionElements.mapListList, unionAtoms, partListAtoms_map t, unionAtoms_map l]

theorem elementsAtoms_map : ∀ e : Elements R D, elementsAtoms r d (e.map f g) = elementsAtoms (r ∘ f) (d ∘ g) e
  | .nil => rfl
  | .unions l => by simp only [Elements.map, elementsAtoms, unionAtoms_map l]
  | .exclusions e => by simp only [Elements.map, elementsAtoms, elementsAtoms_map e]
  | .singleValue v => by simp only [Elements.map, elementsAtoms, valueAtoms_map]
  | .valueRange a b => by simp only [Elements.map, elementsAtoms, RangeEndpoint.map, valueAtoms_map]
  | .typeConstraint t => by simp only [Elements.map, elementsAtoms, tyAtoms_map t]
  | .size c => by simp only [Elements.map, elementsAtoms, constraintAtoms_map c]
  | .inner => rfl

theorem elementsListAtoms_map : ∀ l : List (Elements R D), elementsListAtoms r d (Elements.mapList f g l) = elementsListAtoms (r ∘ f) (d ∘ g) l
  | [] => rfl
  | t :: l => by simp only [Elements.mapList, elementsListAtoms, elementsAtoms_map t, elementsListAtoms_map l]

end

theorem moduleAtoms_map (m : ModuleDefinition R D) : moduleAtoms r d (m.map f g) = moduleAtoms (r ∘ f) (d ∘ g) m := by
  have h1 : ∀ i : SymbolsFromModule R, importAtoms r (i.map f) = importAtoms (r ∘ f) i := fun i => by
    simp only [importAtoms, SymbolsFromModule.map, GlobalModuleReference.map, valueAtoms_map]
  have h2 : ∀ a : Assignment R D, assignmentAtoms r d (a.map f g) = assignmentAtoms (r ∘ f) (d ∘ g) a := fun a => by
    cases a <;> simp only [assignmentAtoms, Assignment.map, valueAtoms_map, tyAtoms_map]
  simp only [moduleAtoms, ModuleDefinition.map, ModuleBody.map, List.flatMap_map, h1, h2]

end

end Asn1go.Names
