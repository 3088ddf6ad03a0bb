import Verif.Proofs.Codegen.Order
import Verif.Spec.Renamed

/-! The code generator treats renamed modules alike. -/

namespace Asn1go.CG

open Spec

variable {ref ident : Str → Str} {u : Casing}

/-! ### Computations alike -/

/-- Calls of `appendError` and `requireModule`, renamed. -/
inductive EventRenamed (ref ident : Str → Str) : Event → Event → Prop
  | error (e e' : GenErr) : ErrRenamed ref ident e e' → EventRenamed ref ident (.error e) (.error e')
  | require (m : Str) : EventRenamed ref ident (.require m) (.require m)

/-- Both need more fuel, or both give results that are alike, with the same calls. -/
inductive Alike (ref ident : Str → Str) {α β : Type} (R : α → β → Prop) : Gen α → Gen β → Prop
  | none : Alike ref ident R none none
  | some (a : α) (b : β) (l l' : List Event) : R a b → List.Forall₂ (EventRenamed ref ident) l l' → Alike ref ident R (some (a, l)) (some (b, l'))

theorem Alike.pure {α β : Type} {R : α → β → Prop} {a : α} {b : β} (h : R a b) : Alike ref ident R (pure a) (pure b) := .some _ _ _ _ h .nil

theorem Alike.bind {α β γ δ : Type} {R : α → β → Prop} {S : γ → δ → Prop} {x : Gen α} {y : Gen β} {f : α → Gen γ} {g : β → Gen δ}
    (h : Alike ref ident R x y) (hf : ∀ a b, R a b → Alike ref ident S (f a) (g b)) : Alike ref ident S (x >>= f) (y >>= g) := by
  show Alike ref ident S (Gen.bind x f) (Gen.bind y g)
  cases h with
  | none => exact .none
  | some a b l l' h1 h2 =>
    have := hf a b h1
    simp only [Gen.bind]
    revert this
    generalize f a = p
    generalize g b = q
    intro h3
    cases h3 with
    | none => exact .none
    | some c d k k' h4 h5 => exact .some _ _ _ _ h4 (List.rel_append h2 h5)

theorem Alike.mono {α β : Type} {R S : α → β → Prop} {x : Gen α} {y : Gen β} (h : Alike ref ident R x y) (hs : ∀ a b, R a b → S a b) : Alike ref ident S x y := by
  cases h with
  | none => exact .none
  | some a b l l' h1 h2 => exact .some _ _ _ _ (hs _ _ h1) h2

theorem Alike.error {e e' : GenErr} (h : ErrRenamed ref ident e e') : Alike ref ident (fun _ _ => True) (appendError e) (appendError e') :=
  .some _ _ _ _ trivial (.cons (.error _ _ h) .nil)

theorem Alike.require (m : Str) : Alike ref ident (fun _ _ => True) (requireModule m) (requireModule m) := .some _ _ _ _ trivial (.cons (.require _) .nil)

/-! ### References -/

section

variable (hk : Keeps ref)
include hk

theorem keeps_time (n : Str) : (ref n = GeneralizedTimeName ↔ n = GeneralizedTimeName) ∧ (ref n = UTCTimeName ↔ n = UTCTimeName) := by
  refine ⟨⟨fun h => hk.different (h.trans hk.generalized.symm), ?_⟩, ⟨fun h => hk.different (h.trans hk.utc.symm), ?_⟩⟩
  · rintro rfl; exact hk.generalized
  · rintro rfl; exact hk.utc

theorem get_renamed (n : Str) : ∀ {l l' : List MAssignment}, List.Forall₂ (AssignmentRenamed ref ident) l l' →
    Option.Rel (AssignmentRenamed ref ident) (assignmentGet l n) (assignmentGet l' (ref n))
  | _, _, .nil => .none
  | _, _, .cons (a := a) (b := b) h t => by
    have hn : b.name = ref a.name := by cases h <;> rfl
    unfold assignmentGet
    rw [hn]
    by_cases hx : a.name = n
    · rw [if_pos (by simpa using hx), if_pos (by simp [hx])]
      exact .some h
    · rw [if_neg (by simpa using hx), if_neg (by simpa using fun h => hx (hk.different h))]
      exact get_renamed n t

omit hk in
theorem wrapper_renamed : ∀ {t t' : MTy}, TyRenamed ref ident t t' → TyRenamed ref ident (removeWrapperTypes t) (removeWrapperTypes t')
  | .tagged _ t _ _, _, h => by cases h with | tagged _ _ _ _ _ _ _ _ h => simp only [removeWrapperTypes]; exact wrapper_renamed h
  | .constrained t _, _, h => by cases h with | constrained _ _ _ _ h => simp only [removeWrapperTypes]; exact wrapper_renamed h
  | .boolean, _, h | .integer _, _, h | .characterString, _, h | .real, _, h | .octetString, _, h | .sequence _ _, _, h | .set _ _, _, h | .sequenceOf _, _, h
  | .setOf _, _, h | .ref _, _, h | .restrictedString _, _, h | .bitString _, _, h | .enumerated _ _, _, h | .any _, _, h | .objectIdentifier, _, h
  | .choice _ _, _, h | .null, _, h | .nil, _, h | .named _, _, h => by
    cases h <;> (simp only [removeWrapperTypes]; constructor <;> assumption)

variable {l l' : List MAssignment} (hl : List.Forall₂ (AssignmentRenamed ref ident) l l')
include hl

/-- The assignments found are alike. -/
theorem leaf_renamed : ∀ (k : Nat) (n : Str), Option.Rel (fun x y => y.1 = ref x.1 ∧ TyRenamed ref ident x.2 y.2) (unwrapToLeafType l k n) (unwrapToLeafType l' k (ref n))
  | 0, _ => .none
  | k + 1, n => by
    unfold unwrapToLeafType assignmentGetType
    have h := get_renamed hk n hl
    generalize assignmentGet l n = x at h
    generalize assignmentGet l' (ref n) = y at h
    cases h with
    | none => exact .some ⟨rfl, .nil⟩
    | some h =>
      cases h with
      | value n t t' v v' _ _ => exact .some ⟨rfl, .nil⟩
      | type r t t' h =>
        simp only
        have hw := wrapper_renamed h
        generalize removeWrapperTypes t = s at hw
        generalize removeWrapperTypes t' = s' at hw
        cases hw with
        | ref n' => exact leaf_renamed k n'
        | _ => exact .some ⟨rfl, h⟩

omit hk hl in
theorem nil_renamed {t t' : MTy} (h : TyRenamed ref ident t t') : isNilTy t' = isNilTy t := by
  cases h <;> rfl

omit hl in
theorem useful_renamed (r : Str) : lookupUsefulType (ref r) = lookupUsefulType r := by
  unfold lookupUsefulType
  by_cases h : r = GeneralizedTimeName
  · rw [if_pos h, if_pos ((keeps_time hk r).1.2 h)]
  · rw [if_neg h, if_neg (mt (keeps_time hk r).1.1 h)]

omit hk hl in
theorem useful_same (r : Str) : TyRenamed ref ident (lookupUsefulType r) (lookupUsefulType r) := by
  unfold lookupUsefulType
  split
  · exact .tagged _ _ _ _ _ _ _ (.number _) (.restrictedString _)
  · exact .nil

/-- What references are resolved to. -/
abbrev Resolved (ref ident : Str → Str) : Option (Str × MTy) → Option (Str × MTy) → Prop := Option.Rel fun x y => y.1 = ref x.1 ∧ TyRenamed ref ident x.2 y.2

variable {c : GenCtx}

theorem resolve_renamed (n : Str) : Alike ref ident (Resolved ref ident) (resolveTypeReference (onto c l) n) (resolveTypeReference (onto c l') (ref n)) := by
  unfold resolveTypeReference
  have h := leaf_renamed hk hl c.fuel n
  simp only
  generalize unwrapToLeafType l c.fuel n = x at h
  generalize unwrapToLeafType l' c.fuel (ref n) = y at h
  cases h with
  | none => exact .none
  | @some x y h =>
    obtain ⟨r, t⟩ := x
    obtain ⟨r', t'⟩ := y
    obtain ⟨h1, h2⟩ := h
    simp only at h1 h2
    subst h1
    simp only [nil_renamed h2, useful_renamed hk]
    split
    · exact .pure (.some ⟨rfl, h2⟩)
    · split
      · exact .pure (.some ⟨rfl, useful_same r⟩)
      · exact .bind (.error (.unresolved n)) fun _ _ _ => .pure .none

omit hl in
theorem special_renamed {r : Str} {t t' : MTy} (h : TyRenamed ref ident t t') :
    Alike ref ident (Option.Rel (ExprRenamed ref ident u)) (generateSpecialCase r t) (generateSpecialCase (ref r) t') := by
  unfold generateSpecialCase
  have h1 : (ref r = GeneralizedTimeName ∨ ref r = UTCTimeName) ↔ (r = GeneralizedTimeName ∨ r = UTCTimeName) := by
    rw [(keeps_time hk r).1, (keeps_time hk r).2]
  simp only [h1]
  split
  · exact .bind (.require _) fun _ _ _ => .pure (.some (.own _ (by decide)))
  · have hw := wrapper_renamed h
    generalize removeWrapperTypes t = s at hw
    generalize removeWrapperTypes t' = s' at hw
    cases hw with
    | bitString => exact .bind (.require _) fun _ _ _ => .pure (.some (.own _ (by decide)))
    | _ => exact .pure .none

omit hl in
theorem taggedWith_renamed {f g : Str → Gen Bool} (hf : ∀ n, Alike ref ident Eq (f n) (g (ref n))) :
    ∀ {t t' : MTy}, TyRenamed ref ident t t' → Alike ref ident Eq (taggedWith f t) (taggedWith g t')
  | .constrained t _, _, h => by cases h with | constrained _ _ _ _ h => simp only [taggedWith]; exact taggedWith_renamed hf h
  | .ref n, _, h => by
    cases h
    have h1 : (ref n = GeneralizedTimeName ∨ ref n = UTCTimeName) ↔ (n = GeneralizedTimeName ∨ n = UTCTimeName) := by
      rw [(keeps_time hk n).1, (keeps_time hk n).2]
    simp only [taggedWith, h1]
    split
    · exact .pure rfl
    · exact hf n
  | .tagged _ _ _ _, _, h
  | .boolean, _, h | .integer _, _, h | .characterString, _, h | .real, _, h | .octetString, _, h | .sequence _ _, _, h | .set _ _, _, h | .sequenceOf _, _, h
  | .setOf _, _, h | .restrictedString _, _, h | .bitString _, _, h | .enumerated _ _, _, h | .any _, _, h | .objectIdentifier, _, h
  | .choice _ _, _, h | .null, _, h | .nil, _, h | .named _, _, h => by
    cases h <;> exact .pure rfl

theorem tagged_renamed : ∀ (k : Nat) {t t' : MTy}, TyRenamed ref ident t t' →
    Alike ref ident Eq (taggedChoiceTypeAlternative (onto c l) k t) (taggedChoiceTypeAlternative (onto c l') k t')
  | 0, _, _, h => taggedWith_renamed hk (fun _ => .none) h
  | k + 1, _, _, h => by
    refine taggedWith_renamed hk (fun n => ?_) h
    refine .bind (resolve_renamed hk hl n) fun x y h => ?_
    cases h with
    | none => exact .pure rfl
    | some h => exact tagged_renamed k h.2

theorem hasTagged_renamed : ∀ {x y : List MNamed}, AltsRenamed ref ident x y →
    Alike ref ident Eq (hasTaggedAlternatives (onto c l) x) (hasTaggedAlternatives (onto c l') y)
  | [], _, h => by cases h; exact .pure rfl
  | .mk _ _ :: _, _, h => by
    cases h with
    | cons _ _ _ _ _ _ h1 h2 =>
      refine .bind (tagged_renamed hk hl _ h1) fun a b hab => ?_
      subst hab
      split
      · exact .pure rfl
      · exact hasTagged_renamed h2

/-! ### Tags -/

omit hk hl in
theorem tagNumber_renamed {v v' : Value DefinedValue} (h : ValueAs v v') : Alike ref ident Eq (tagNumber v) (tagNumber v') := by
  have key : ∀ w : Value DefinedValue, (∀ n, w ≠ .number n) → tagNumber w = (do appendError .tagNotNumber; pure []) := by
    intro w hw
    cases w with
    | number n => exact absurd rfl (hw n)
    | _ => rfl
  cases h with
  | number n => exact .pure rfl
  | boolean b => exact .bind (.error .tagNotNumber) fun _ _ _ => .pure rfl
  | real x => exact .bind (.error .tagNotNumber) fun _ _ _ => .pure rfl
  | other _ _ h1 _ _ h2 _ _ =>
    rw [key _ h1, key _ h2]
    exact .bind (.error .tagNotNumber) fun _ _ _ => .pure rfl

omit hk hl in
theorem explicit_renamed (name : Str) (k : Int) : Alike ref ident Eq (explicitComponents name k) (explicitComponents (ident name) k) := by
  unfold explicitComponents
  split
  · exact .bind (.error (.automaticTags _)) fun _ _ _ => .pure rfl
  · exact .pure rfl

omit hk hl in
theorem tags_renamed (name : Str) : ∀ {t t' : MTy}, TyRenamed ref ident t t' →
    Alike ref ident (fun x y => x.1 = y.1 ∧ TyRenamed ref ident x.2 y.2) (tagComponents (onto c l) name t) (tagComponents (onto c l') (ident name) t')
  | .tagged _ t _ _, _, h => by
    cases h with
    | tagged _ _ _ _ _ _ _ hv h =>
      refine .bind (explicit_renamed _ _) fun a b hab => .bind (tagNumber_renamed hv) fun a' b' hab' => .bind (tags_renamed name h) fun x y hxy => .pure ?_
      subst hab hab'
      exact ⟨by rw [hxy.1], hxy.2⟩
  | .constrained t _, _, h => by cases h with | constrained _ _ _ _ h => simp only [tagComponents]; exact tags_renamed name h
  | .boolean, _, h | .integer _, _, h | .characterString, _, h | .real, _, h | .octetString, _, h | .sequence _ _, _, h | .set _ _, _, h | .sequenceOf _, _, h
  | .setOf _, _, h | .ref _, _, h | .restrictedString _, _, h | .bitString _, _, h | .enumerated _ _, _, h | .any _, _, h | .objectIdentifier, _, h
  | .choice _ _, _, h | .null, _, h | .nil, _, h | .named _, _, h => by
    cases h <;> exact .pure ⟨rfl, by constructor <;> assumption⟩

theorem kind_renamed {t t' : MTy} (h : TyRenamed ref ident t t') : Alike ref ident Eq (kindComponents (onto c l) t) (kindComponents (onto c l') t') := by
  cases h with
  | ref n =>
    simp only [kindComponents]
    have h := leaf_renamed hk hl c.fuel n
    generalize unwrapToLeafType l c.fuel n = x at h
    generalize unwrapToLeafType l' c.fuel (ref n) = y at h
    cases h with
    | none => exact .none
    | @some x y h =>
      obtain ⟨r, t⟩ := x
      obtain ⟨r', t'⟩ := y
      obtain ⟨h1, h2⟩ := h
      simp only at h1 h2
      subst h1
      simp only [(keeps_time hk r).1, (keeps_time hk r).2]
      repeat' split
      all_goals exact .pure rfl
  | restrictedString k =>
    simp only [kindComponents]
    repeat' split
    all_goals exact .pure rfl
  | _ => exact .pure rfl

omit hk hl in
theorem option_renamed (o : Bool) {d d' : Option (Value DefinedValue)} (h : DefaultAs d d') : optionComponents o d = optionComponents o d' := by
  cases h with
  | none => rfl
  | some v w h =>
    cases h with
    | other _ _ h1 _ _ h2 _ _ =>
      unfold optionComponents
      congr 2
      cases v <;> cases w <;> first | rfl | exact absurd rfl (h1 _) | exact absurd rfl (h2 _)
    | _ => rfl

theorem asn1Tag_renamed (name : Str) {t t' : MTy} (h : TyRenamed ref ident t t') (o : Bool) {d d' : Option (Value DefinedValue)} (hd : DefaultAs d d') :
    Alike ref ident Eq (asn1TagFromType (onto c l) name t o d) (asn1TagFromType (onto c l') (ident name) t' o d') := by
  refine .bind (tags_renamed name h) fun x y hxy => .bind (kind_renamed hk hl hxy.2) fun a b hab => .pure ?_
  rw [option_renamed o hd, hxy.1, hab]

/-! ### Types -/

omit hk hl in
theorem fields_joined {a a' b b' : List GoField} (h : FieldsRenamed ref ident u a a') (h' : FieldsRenamed ref ident u b b') :
    FieldsRenamed ref ident u (a ++ b) (a' ++ b') := by
  induction a generalizing a' with
  | nil => cases h; exact h'
  | cons x a ih => cases h with | cons _ _ _ _ _ _ h1 h2 => exact .cons _ _ _ _ _ _ h1 (ih h2)

/-- Bodies of type declarations that are alike. -/
abbrev BodyRenamed (ref ident : Str → Str) (u : Casing) (x y : GoExpr × Bool) : Prop := ExprRenamed ref ident u x.1 y.1 ∧ x.2 = y.2

mutual

theorem body_renamed : ∀ {t t' : MTy}, TyRenamed ref ident t t' →
    Alike ref ident (BodyRenamed ref ident c.u) (generateTypeBody (onto c l) t) (generateTypeBody (onto c l') t')
  | .sequence a b, _, h => by
    cases h with
    | sequence _ _ _ _ h1 h2 =>
      exact .bind (comps_renamed h1) fun _ _ h3 => .bind (comps_renamed h2) fun _ _ h4 => .pure ⟨.struct _ _ (fields_joined h3 h4), rfl⟩
  | .set a b, _, h => by
    cases h with
    | set _ _ _ _ h1 h2 =>
      exact .bind (comps_renamed h1) fun _ _ h3 => .bind (comps_renamed h2) fun _ _ h4 => .pure ⟨.struct _ _ (fields_joined h3 h4), rfl⟩
  | .sequenceOf t, _, h => by
    cases h with
    | sequenceOf _ _ h => exact .bind (body_renamed h) fun _ _ h => .pure ⟨.array _ _ h.1, h.2⟩
  | .setOf t, _, h => by
    cases h with
    | setOf _ _ h => exact .bind (body_renamed h) fun _ _ h => .pure ⟨.array _ _ h.1, rfl⟩
  | .tagged _ t _ _, _, h => by cases h with | tagged _ _ _ _ _ _ _ _ h => simp only [generateTypeBody]; exact body_renamed h
  | .constrained t _, _, h => by cases h with | constrained _ _ _ _ h => simp only [generateTypeBody]; exact body_renamed h
  | .ref n, _, h => by
    cases h
    refine .bind (resolve_renamed hk hl n) fun x y h => ?_
    cases h with
    | none => exact .pure ⟨.type n, rfl⟩
    | @some x y h =>
      obtain ⟨r, t⟩ := x
      obtain ⟨r', t'⟩ := y
      obtain ⟨h1, h2⟩ := h
      simp only at h1 h2
      subst h1
      refine .bind (special_renamed (u := c.u) hk h2) fun x y h => ?_
      cases h with
      | none => exact .pure ⟨.type n, rfl⟩
      | some h => exact .pure ⟨h, rfl⟩
  | .choice x e, _, h => by
    cases h with
    | choice _ _ _ _ h =>
      refine .bind (hasTagged_renamed hk hl h) fun a b hab => ?_
      subst hab
      split
      · exact .pure ⟨.own _ (by decide), rfl⟩
      · exact only_renamed h
  | .integer _, _, h => by
    cases h
    simp only [generateTypeBody]
    split
    · exact .pure ⟨.own _ (by decide), rfl⟩
    · split
      · exact .bind (.require _) fun _ _ _ => .pure ⟨.star _ _ (.own _ (by decide)), rfl⟩
      · exact .bind (.error (.unknownIntMode _)) fun _ _ _ => .pure ⟨.own _ (by decide), rfl⟩
  | .bitString _, _, h | .enumerated _ _, _, h | .objectIdentifier, _, h => by
    cases h; exact .bind (.require _) fun _ _ _ => .pure ⟨.own _ (by decide), rfl⟩
  | .null, _, h | .nil, _, h | .named _, _, h => by
    cases h; exact .bind (.error .unsupported) fun _ _ _ => .pure ⟨.nil, rfl⟩
  | .any _, _, h => by cases h; exact .pure ⟨.iface, rfl⟩
  | .octetString, _, h => by cases h; exact .pure ⟨.array _ _ (.own _ (by decide)), rfl⟩
  | .boolean, _, h | .characterString, _, h | .real, _, h | .restrictedString _, _, h => by
    cases h; exact .pure ⟨.own _ (by decide), rfl⟩

theorem only_renamed : ∀ {x y : List MNamed}, AltsRenamed ref ident x y →
    Alike ref ident (BodyRenamed ref ident c.u) (generateOnlyAlternative (onto c l) x) (generateOnlyAlternative (onto c l') y)
  | [], _, h => by cases h; exact .pure ⟨.iface, rfl⟩
  | [.mk _ t], _, h => by
    cases h with
    | cons _ _ _ _ _ _ h1 h2 => cases h2; exact body_renamed h1
  | .mk _ _ :: .mk _ _ :: _, _, h => by
    cases h with
    | cons _ _ _ _ _ _ h1 h2 => cases h2; exact .pure ⟨.iface, rfl⟩

theorem comps_renamed : ∀ {x y : List MComponent}, ComponentsRenamed ref ident x y →
    Alike ref ident (FieldsRenamed ref ident c.u) (generateFields (onto c l) x) (generateFields (onto c l') y)
  | [], _, h => by cases h; exact .pure .nil
  | .named (.mk n t) o d :: r, _, h => by
    cases h with
    | named _ _ _ _ _ _ _ _ h1 h2 h3 =>
      refine .bind (body_renamed h1) fun _ _ h4 => .bind (asn1Tag_renamed hk hl n h1 o h2) fun a b h5 => .bind (comps_renamed h3) fun _ _ h6 => .pure ?_
      subst h5
      exact .cons _ _ _ _ _ _ h4.1 h6
  | .componentsOf _ :: r, _, h => by
    cases h with
    | componentsOf _ _ _ _ h => exact .bind (.error .componentsOf) fun _ _ _ => comps_renamed h
  | .nil :: r, _, h => by
    cases h with
    | absent _ _ h => simp only [generateFields]; exact comps_renamed h

end

/-! ### Declarations -/

omit hk hl in
theorem isStruct_renamed {e e' : GoExpr} (h : ExprRenamed ref ident u e e') : isStruct e = isStruct e' := by
  cases h <;> rfl

theorem typeDecl_renamed (n : Str) {t t' : MTy} (h : TyRenamed ref ident t t') :
    Alike ref ident (DeclRenamed ref ident c.u) (generateTypeDecl (onto c l) n t) (generateTypeDecl (onto c l') (ref n) t') := by
  refine .bind (body_renamed hk hl h) fun x y hxy => ?_
  obtain ⟨e, b⟩ := x
  obtain ⟨e', b'⟩ := y
  obtain ⟨h1, h2⟩ := hxy
  simp only at h1 h2
  subst h2
  cases b with
  | true => exact .pure (.set n _ _ h1)
  | false =>
    refine .pure ?_
    rw [isStruct_renamed h1]
    exact .type n _ _ _ h1

theorem value_renamed (n : Str) {t t' : MTy} (h : TyRenamed ref ident t t') {v v' : Value DefinedValue} (hv : ValueAs v v') :
    Alike ref ident (Option.Rel (DeclRenamed ref ident c.u)) (tryGenerateValueAssignment (onto c l) n t v) (tryGenerateValueAssignment (onto c l') (ref n) t' v') := by
  have key : ∀ w : Value DefinedValue, (∀ n, w ≠ .number n) → (∀ b, w ≠ .boolean b) → (∀ x, w ≠ .real x) → ∀ (c : GenCtx) n t,
      tryGenerateValueAssignment c n t w = pure none := by
    intro w h1 h2 h3 c n t
    cases w with
    | number n => exact absurd rfl (h1 n)
    | boolean n => exact absurd rfl (h2 n)
    | real n => exact absurd rfl (h3 n)
    | _ => rfl
  cases hv with
  | other _ _ h1 h2 h3 h4 h5 h6 =>
    rw [key _ h1 h2 h3, key _ h4 h5 h6]
    exact .pure .none
  | number x => exact .bind (body_renamed hk hl h) fun _ _ h => .pure (.some (.value n _ _ _ h.1))
  | boolean x => exact .bind (body_renamed hk hl h) fun _ _ h => .pure (.some (.value n _ _ _ h.1))
  | real x => exact .bind (body_renamed hk hl h) fun _ _ h => .pure (.some (.value n _ _ _ h.1))

omit hk hl in
theorem number_same (x : Int) (r : Str) : ExprRenamed ref ident u (numberToExpr x r) (numberToExpr x r) := by
  unfold numberToExpr
  split
  · exact .call _ _ _ (.lit _)
  · exact .lit _

omit hk hl in
theorem numbers_renamed (n : Str) : ∀ {x y : List NamedNumber}, List.Forall₂ (NumberRenamed ref ident) x y →
    Alike ref ident (List.Forall₂ (NumberSpecRenamed ref ident c.u n)) (namedNumberSpecs (onto c l) n x) (namedNumberSpecs (onto c l') (ref n) y)
  | _, _, .nil => .pure .nil
  | _, _, .cons (l₁ := x) (l₂ := y) h t => by
    cases h with
    | number k z =>
      exact .bind (.pure (R := ExprRenamed ref ident c.u) (number_same z c.integerRepr)) fun _ _ h => .bind (numbers_renamed n t) fun _ _ h' => .pure (.cons (.mk k _ _ h) h')
    | nil k => exact .bind (.pure (R := ExprRenamed ref ident c.u) .nil) fun _ _ h => .bind (numbers_renamed n t) fun _ _ h' => .pure (.cons (.mk k _ _ h) h')
    | defined k v m m' hm =>
      refine .bind (R := ExprRenamed ref ident c.u) ?_ fun _ _ h => .bind (numbers_renamed n t) fun _ _ h' => .pure (.cons (.mk k _ _ h) h')
      unfold namedNumberExpr
      simp only [ne_eq, hm]
      split
      · exact .bind (.error (.foreignValue _ _ _)) fun _ _ _ => .pure (.value v)
      · exact .pure (.value v)

omit hk hl in
theorem values_renamed (n : Str) {t t' : MTy} (h : TyRenamed ref ident t t') :
    Alike ref ident (Option.Rel (DeclRenamed ref ident c.u)) (generateAssociatedValues (onto c l) n t) (generateAssociatedValues (onto c l') (ref n) t') := by
  unfold generateAssociatedValues
  have hw := wrapper_renamed h
  generalize removeWrapperTypes t = s at hw
  generalize removeWrapperTypes t' = s' at hw
  cases hw with
  | integer x y hxy =>
    cases hxy with
    | nil => exact .pure .none
    | cons h1 h2 => exact .bind (numbers_renamed n (.cons h1 h2)) fun _ _ h => .pure (.some (.numbers n _ _ h))
  | _ => exact .pure .none

omit hk hl in
theorem toList_rel {α β : Type} {R : α → β → Prop} {x : Option α} {y : Option β} (h : Option.Rel R x y) : List.Forall₂ R x.toList y.toList := by
  cases h with
  | none => exact .nil
  | some h => exact .cons h .nil

theorem decls_renamed : ∀ {x y : List MAssignment}, List.Forall₂ (AssignmentRenamed ref ident) x y →
    Alike ref ident (List.Forall₂ (DeclRenamed ref ident c.u)) (generateDeclarations (onto c l) x) (generateDeclarations (onto c l') y)
  | _, _, .nil => .pure .nil
  | _, _, .cons h t => by
    cases h with
    | type n s s' h =>
      exact .bind (typeDecl_renamed hk hl n h) fun _ _ h1 => .bind (values_renamed n h) fun _ _ h2 => .bind (decls_renamed t) fun _ _ h3 =>
        .pure (.cons h1 (List.rel_append (toList_rel h2) h3))
    | value n s s' v v' h hv =>
      exact .bind (value_renamed hk hl n h hv) fun _ _ h1 => .bind (decls_renamed t) fun _ _ h2 => .pure (List.rel_append (toList_rel h1) h2)

end

theorem errors_renamed {l l' : List Event} (h : List.Forall₂ (EventRenamed ref ident) l l') : List.Forall₂ (ErrRenamed ref ident) (errorsOf l) (errorsOf l') := by
  induction h with
  | nil => exact .nil
  | cons h _ ih =>
    cases h with
    | error _ _ h => exact .cons h ih
    | require m => exact ih

theorem required_renamed {l l' : List Event} (h : List.Forall₂ (EventRenamed ref ident) l l') : ∀ acc, requiredFrom acc l = requiredFrom acc l' := by
  induction h with
  | nil => exact fun _ => rfl
  | cons h _ ih =>
    intro acc
    cases h with
    | error _ _ h => exact ih _
    | require m => exact ih _

end Asn1go.CG
