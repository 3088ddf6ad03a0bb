import Verif.Proofs.Codegen.Order
import Verif.Spec.Integers

/-! The code generator with `int64` and with `*big.Int`. -/

namespace Asn1go.CG

open Spec

variable {c : GenCtx} {u : Casing}

/-- The call of `requireModule` for math/big. -/
abbrev bigCall : Event := .require (c! "math/big")

/-- The context with another representation. -/
abbrev withRepr (c : GenCtx) (r : Str) : GenCtx := { c with integerRepr := r }

/-- Both need more fuel, or both give results that are related, with the same calls but those for math/big. -/
inductive BigAlike {α β : Type} (R : α → β → Prop) : Gen α → Gen β → Prop
  | none : BigAlike R none none
  | some (a : α) (b : β) (l : List Event) : R a b → BigAlike R (some (a, l.filter (· ≠ bigCall))) (some (b, l))

theorem BigAlike.pure {α β : Type} {R : α → β → Prop} {a : α} {b : β} (h : R a b) : BigAlike R (pure a) (pure b) := .some _ _ [] h

theorem BigAlike.bind {α β γ δ : Type} {R : α → β → Prop} {S : γ → δ → Prop} {x : Gen α} {y : Gen β} {f : α → Gen γ} {g : β → Gen δ}
    (h : BigAlike R x y) (hf : ∀ a b, R a b → BigAlike S (f a) (g b)) : BigAlike S (x >>= f) (y >>= g) := by
  show BigAlike S (Gen.bind x f) (Gen.bind y g)
  cases h with
  | none => exact .none
  | some a b l h1 =>
    have := hf a b h1
    simp only [Gen.bind]
    revert this
    generalize f a = p
    generalize g b = q
    intro h3
    cases h3 with
    | none => exact .none
    | some c d k h4 =>
      simp only
      rw [← List.filter_append]
      exact .some _ _ _ h4

/-- A computation that does not call for math/big. -/
theorem BigAlike.refl {α : Type} (x : Gen α) (h : ∀ a l, x = .some (a, l) → bigCall ∉ l) : BigAlike Eq x x := by
  cases x with
  | none => exact .none
  | some q =>
    obtain ⟨a, l⟩ := q
    have h1 := BigAlike.some (R := Eq) a a l rfl
    rwa [List.filter_eq_self.2 (fun e he => by
      rw [decide_eq_true_eq]
      rintro rfl
      exact h a l rfl he)] at h1

theorem BigAlike.error (e : GenErr) : BigAlike Eq (appendError e) (appendError e) :=
  .refl _ fun _ _ h => by cases h; simp

theorem BigAlike.require (m : Str) (h : m ≠ c! "math/big") : BigAlike Eq (requireModule m) (requireModule m) :=
  .refl _ fun _ _ h' => by cases h'; simpa using h.symm

/-! ### What does not depend on the representation -/

theorem resolve_big (n : Str) (r r' : Str) : BigAlike Eq (resolveTypeReference (withRepr c r) n) (resolveTypeReference (withRepr c r') n) := by
  unfold resolveTypeReference
  simp only
  split
  · exact .none
  · split
    · exact .pure rfl
    · split
      · exact .pure rfl
      · exact .bind (.error _) fun _ _ _ => .pure rfl

theorem special_big (r : Str) (t : MTy) :
    BigAlike (fun x y => x = y ∧ ∀ e, x = some e → TypeBig u e e) (generateSpecialCase r t) (generateSpecialCase r t) := by
  unfold generateSpecialCase
  split
  · exact .bind (.require _ (by decide)) fun _ _ _ => .pure ⟨rfl, fun e h => by cases h; exact .other _ (by decide)⟩
  · split
    · exact .bind (.require _ (by decide)) fun _ _ _ => .pure ⟨rfl, fun e h => by cases h; exact .other _ (by decide)⟩
    · exact .pure ⟨rfl, nofun⟩

theorem taggedWith_big {f g : Str → Gen Bool} (hf : ∀ n, BigAlike Eq (f n) (g n)) : ∀ t : MTy, BigAlike Eq (taggedWith f t) (taggedWith g t)
  | .constrained t _ => by simp only [taggedWith]; exact taggedWith_big hf t
  | .ref n => by
    simp only [taggedWith]
    split
    · exact .pure rfl
    · exact hf n
  | .tagged _ _ _ _ | .boolean | .integer _ | .characterString | .real | .octetString | .sequence _ _ | .set _ _ | .sequenceOf _ | .setOf _
  | .restrictedString _ | .bitString _ | .enumerated _ _ | .any _ | .objectIdentifier | .choice _ _ | .null | .nil | .named _ => .pure rfl

theorem tagged_big (r r' : Str) : ∀ (k : Nat) (t : MTy),
    BigAlike Eq (taggedChoiceTypeAlternative (withRepr c r) k t) (taggedChoiceTypeAlternative (withRepr c r') k t)
  | 0, t => taggedWith_big (fun _ => .none) t
  | k + 1, t => by
    refine taggedWith_big (fun n => ?_) t
    refine .bind (resolve_big n r r') fun x y h => ?_
    subst h
    cases x with
    | none => exact .pure rfl
    | some q => exact tagged_big r r' k q.2

theorem hasTagged_big (r r' : Str) : ∀ l : List MNamed, BigAlike Eq (hasTaggedAlternatives (withRepr c r) l) (hasTaggedAlternatives (withRepr c r') l)
  | [] => .pure rfl
  | _ :: l => by
    refine .bind (tagged_big r r' _ _) fun a b hab => ?_
    subst hab
    split
    · exact .pure rfl
    · exact hasTagged_big r r' l

theorem explicit_big (name : Str) (k : Int) : BigAlike Eq (explicitComponents name k) (explicitComponents name k) := by
  unfold explicitComponents
  split
  · exact .bind (.error _) fun _ _ _ => .pure rfl
  · exact .pure rfl

theorem tags_big (r r' name : Str) : ∀ t : MTy, BigAlike Eq (tagComponents (withRepr c r) name t) (tagComponents (withRepr c r') name t)
  | .tagged g t _ _ => by
    refine .bind (R := Eq) ?_ fun a b hab => .bind (R := Eq) ?_ fun a' b' hab' => .bind (tags_big r r' name t) fun x y hxy => .pure (by subst hab hab' hxy; rfl)
    · exact explicit_big _ _
    · generalize g.classNumber = v
      unfold tagNumber
      split
      · exact .pure rfl
      · exact .bind (.error _) fun _ _ _ => .pure rfl
  | .constrained t _ => by simp only [tagComponents]; exact tags_big r r' name t
  | .boolean | .integer _ | .characterString | .real | .octetString | .sequence _ _ | .set _ _ | .sequenceOf _ | .setOf _ | .ref _
  | .restrictedString _ | .bitString _ | .enumerated _ _ | .any _ | .objectIdentifier | .choice _ _ | .null | .nil | .named _ => .pure rfl

theorem kind_big (r r' : Str) (t : MTy) : BigAlike Eq (kindComponents (withRepr c r) t) (kindComponents (withRepr c r') t) := by
  cases t with
  | ref n =>
    simp only [kindComponents]
    repeat' split
    all_goals first | exact .none | exact .pure rfl
  | restrictedString k =>
    simp only [kindComponents]
    repeat' split
    all_goals exact .pure rfl
  | _ => exact .pure rfl

theorem asn1Tag_big (r r' name : Str) (t : MTy) (o : Bool) (d : Option (Value DefinedValue)) :
    BigAlike Eq (asn1TagFromType (withRepr c r) name t o d) (asn1TagFromType (withRepr c r') name t o d) := by
  refine .bind (tags_big r r' name t) fun x y hxy => ?_
  subst hxy
  exact .bind (kind_big r r' x.2) fun a b hab => .pure (by rw [hab])

/-! ### Types -/

theorem fields_big_append {a a' b b' : List GoField} (h : FieldsBig u a a') (h' : FieldsBig u b b') : FieldsBig u (a ++ b) (a' ++ b') := by
  induction a generalizing a' with
  | nil => cases h; exact h'
  | cons x a ih => cases h with | cons _ _ _ _ _ _ h1 h2 => exact .cons _ _ _ _ _ _ h1 (ih h2)

/-- Bodies of type declarations. -/
abbrev BodyBig (u : Casing) (x y : GoExpr × Bool) : Prop := TypeBig u x.1 y.1 ∧ x.2 = y.2

mutual

theorem body_big : ∀ t : MTy, BigAlike (BodyBig c.u) (generateTypeBody (withRepr c IntegerReprInt64) t) (generateTypeBody (withRepr c IntegerReprBigInt) t)
  | .sequence a b =>
    .bind (comps_big a) fun _ _ h1 => .bind (comps_big b) fun _ _ h2 => .pure ⟨.struct _ _ (fields_big_append h1 h2), rfl⟩
  | .set a b =>
    .bind (comps_big a) fun _ _ h1 => .bind (comps_big b) fun _ _ h2 => .pure ⟨.struct _ _ (fields_big_append h1 h2), rfl⟩
  | .sequenceOf t => .bind (body_big t) fun _ _ h => .pure ⟨.array _ _ h.1, h.2⟩
  | .setOf t => .bind (body_big t) fun _ _ h => .pure ⟨.array _ _ h.1, rfl⟩
  | .tagged _ t _ _ => by simp only [generateTypeBody]; exact body_big t
  | .constrained t _ => by simp only [generateTypeBody]; exact body_big t
  | .ref n => by
    refine .bind (resolve_big n _ _) fun x y h => ?_
    subst h
    cases x with
    | none => exact .pure ⟨.name n, rfl⟩
    | some q =>
      obtain ⟨r, t⟩ := q
      refine .bind (special_big (u := c.u) r t) fun x y h => ?_
      obtain ⟨rfl, h⟩ := h
      cases x with
      | none => exact .pure ⟨.name n, rfl⟩
      | some e => exact .pure ⟨h e rfl, rfl⟩
  | .choice x e => by
    refine .bind (hasTagged_big _ _ x) fun a b hab => ?_
    subst hab
    split
    · exact .pure ⟨.other _ (by decide), rfl⟩
    · exact only_big x
  | .integer _ => .some _ _ [bigCall] ⟨.int, rfl⟩
  | .bitString _ | .enumerated _ _ | .objectIdentifier => .bind (.require _ (by decide)) fun _ _ _ => .pure ⟨.other _ (by decide), rfl⟩
  | .null | .nil | .named _ => .bind (.error .unsupported) fun _ _ _ => .pure ⟨.nil, rfl⟩
  | .any _ => .pure ⟨.iface, rfl⟩
  | .octetString => .pure ⟨.array _ _ (.other _ (by decide)), rfl⟩
  | .boolean | .characterString | .real | .restrictedString _ => .pure ⟨.other _ (by decide), rfl⟩

theorem only_big : ∀ x : List MNamed,
    BigAlike (BodyBig c.u) (generateOnlyAlternative (withRepr c IntegerReprInt64) x) (generateOnlyAlternative (withRepr c IntegerReprBigInt) x)
  | [] => .pure ⟨.iface, rfl⟩
  | [.mk _ t] => by simp only [generateOnlyAlternative]; exact body_big t
  | .mk _ _ :: .mk _ _ :: _ => .pure ⟨.iface, rfl⟩

theorem comps_big : ∀ x : List MComponent,
    BigAlike (FieldsBig c.u) (generateFields (withRepr c IntegerReprInt64) x) (generateFields (withRepr c IntegerReprBigInt) x)
  | [] => .pure .nil
  | .named (.mk n t) o d :: r => by
    refine .bind (body_big t) fun _ _ h4 => .bind (asn1Tag_big _ _ n t o d) fun a b h5 => .bind (comps_big r) fun _ _ h6 => .pure ?_
    subst h5
    exact .cons _ _ _ _ _ _ h4.1 h6
  | .componentsOf _ :: r => .bind (.error .componentsOf) fun _ _ _ => comps_big r
  | .nil :: r => by simp only [generateFields]; exact comps_big r

end

/-! ### Declarations -/

theorem isStruct_big {e e' : GoExpr} (h : TypeBig u e e') : isStruct e = isStruct e' := by
  cases h <;> rfl

theorem typeDecl_big (n : Str) (t : MTy) :
    BigAlike (DeclBig c.u) (generateTypeDecl (withRepr c IntegerReprInt64) n t) (generateTypeDecl (withRepr c IntegerReprBigInt) n t) := by
  refine .bind (body_big t) fun x y hxy => ?_
  obtain ⟨e, b⟩ := x
  obtain ⟨e', b'⟩ := y
  obtain ⟨h1, h2⟩ := hxy
  simp only at h1 h2
  subst h2
  cases b with
  | true => exact .pure (.type _ _ (.cons (.mk _ _ _ _ h1) (.cons (.mk _ _ _ _ (.set n)) .nil)))
  | false =>
    refine .pure ?_
    rw [isStruct_big h1]
    exact .type _ _ (.cons (.mk _ _ _ _ h1) .nil)

theorem number_big (x : Int) : ValueBig u (numberToExpr x IntegerReprInt64) (numberToExpr x IntegerReprBigInt) := by
  unfold numberToExpr
  rw [if_neg (by decide), if_pos rfl]
  exact .int x

theorem value_big (n : Str) (t : MTy) (v : Value DefinedValue) :
    BigAlike (Option.Rel (DeclBig c.u)) (tryGenerateValueAssignment (withRepr c IntegerReprInt64) n t v)
      (tryGenerateValueAssignment (withRepr c IntegerReprBigInt) n t v) := by
  cases v with
  | number x => exact .bind (body_big t) fun _ _ h => .pure (.some (.var _ _ (.cons (.mk _ _ _ _ _ h.1 (number_big x)) .nil)))
  | boolean b => exact .bind (body_big t) fun _ _ h => .pure (.some (.var _ _ (.cons (.mk _ _ _ _ _ h.1 (.bool b)) .nil)))
  | real x => exact .bind (body_big t) fun _ _ h => .pure (.some (.var _ _ (.cons (.mk _ _ _ _ _ h.1 (.real x)) .nil)))
  | _ => exact .pure .none

theorem numbers_big (n : Str) : ∀ x : List NamedNumber,
    BigAlike (List.Forall₂ (VarBig c.u)) (namedNumberSpecs (withRepr c IntegerReprInt64) n x) (namedNumberSpecs (withRepr c IntegerReprBigInt) n x)
  | [] => .pure .nil
  | k :: x => by
    refine .bind (R := ValueBig c.u) ?_ fun _ _ h => .bind (numbers_big n x) fun _ _ h' => .pure (.cons (.mk _ _ _ _ _ (.name n) h) h')
    cases hk : k.value with
    | nil => exact .pure .nil
    | number z => exact .pure (number_big z)
    | defined d =>
      simp only [namedNumberExpr]
      split
      · exact .bind (.error _) fun _ _ _ => .pure (.name d.valueName)
      · exact .pure (.name d.valueName)

theorem values_big (n : Str) (t : MTy) :
    BigAlike (Option.Rel (DeclBig c.u)) (generateAssociatedValues (withRepr c IntegerReprInt64) n t) (generateAssociatedValues (withRepr c IntegerReprBigInt) n t) := by
  unfold generateAssociatedValues
  split
  · split
    · exact .pure .none
    · exact .bind (numbers_big n _) fun _ _ h => .pure (.some (.var _ _ h))
  · exact .pure .none

theorem optionList_rel {α β : Type} {R : α → β → Prop} {x : Option α} {y : Option β} (h : Option.Rel R x y) : List.Forall₂ R x.toList y.toList := by
  cases h with
  | none => exact .nil
  | some h => exact .cons h .nil

theorem decls_big : ∀ x : List MAssignment,
    BigAlike (List.Forall₂ (DeclBig c.u)) (generateDeclarations (withRepr c IntegerReprInt64) x) (generateDeclarations (withRepr c IntegerReprBigInt) x)
  | [] => .pure .nil
  | .type n t :: x => .bind (typeDecl_big n t) fun _ _ h1 => .bind (values_big n t) fun _ _ h2 => .bind (decls_big x) fun _ _ h3 =>
      .pure (.cons h1 (List.rel_append (optionList_rel h2) h3))
  | .value n t v :: x => .bind (value_big n t v) fun _ _ h1 => .bind (decls_big x) fun _ _ h2 => .pure (List.rel_append (optionList_rel h1) h2)
  | .nil :: x => by simp only [generateDeclarations]; exact decls_big x

/-! ### Calls -/

theorem errors_big : ∀ l : List Event, errorsOf (l.filter (· ≠ bigCall)) = errorsOf l
  | [] => rfl
  | .error e :: l => by
    rw [List.filter_cons_of_pos (by simp), errorsOf, errorsOf, errors_big l]
  | .require m :: l => by
    by_cases h : m = c! "math/big"
    · rw [List.filter_cons_of_neg (by simp [h]), errorsOf, errors_big l]
    · rw [List.filter_cons_of_pos (by simp [h]), errorsOf, errorsOf, errors_big l]

theorem required_big : ∀ (l : List Event) (acc : List Str),
    requiredFrom (acc.filter (· ≠ c! "math/big")) (l.filter (· ≠ bigCall)) = (requiredFrom acc l).filter (· ≠ c! "math/big")
  | [], _ => rfl
  | .error e :: l, acc => by
    rw [List.filter_cons_of_pos (by simp), requiredFrom, requiredFrom, required_big l]
  | .require m :: l, acc => by
    by_cases h : m = c! "math/big"
    · subst h
      rw [List.filter_cons_of_neg (by simp), requiredFrom, ← required_big l]
      congr 1
      split
      · rfl
      · simp
    · rw [List.filter_cons_of_pos (by simp [h]), requiredFrom, requiredFrom, ← required_big l]
      congr 1
      have hc : (acc.filter (· ≠ c! "math/big")).contains m = acc.contains m := by
        rw [Bool.eq_iff_iff]
        simp [h]
      rw [hc]
      split
      · rfl
      · rw [List.filter_append]
        simp [h]

end Asn1go.CG
