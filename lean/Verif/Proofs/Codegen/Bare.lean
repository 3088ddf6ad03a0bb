import Verif.Proofs.Codegen.Order
import Verif.Spec.Bare

/-! Leaving out constraints and extension markers and writing out the tagging changes nothing for the code generator. -/

namespace Asn1go.CG

open Spec

variable {c : GenCtx} {d : Int} {l : List MAssignment}

theorem wrapper_bare : ∀ t : MTy, removeWrapperTypes (bare d t) = bare d (removeWrapperTypes t)
  | .tagged _ t _ _ => by simp only [bare, removeWrapperTypes, wrapper_bare t]
  | .constrained t _ => by simp only [bare, removeWrapperTypes, wrapper_bare t]
  | .boolean | .integer _ | .characterString | .real | .octetString | .sequence _ _ | .set _ _ | .sequenceOf _ | .setOf _ | .ref _
  | .restrictedString _ | .bitString _ | .enumerated _ _ | .any _ | .objectIdentifier | .choice _ _ | .null | .nil | .named _ => by
    simp only [bare, removeWrapperTypes]

/-- What is left within tags and constraints. -/
theorem wrapper_idem : ∀ t : MTy, (∀ g s k x, removeWrapperTypes t ≠ .tagged g s k x) ∧ ∀ s x, removeWrapperTypes t ≠ .constrained s x
  | .tagged _ t _ _ => by simpa only [removeWrapperTypes] using wrapper_idem t
  | .constrained t _ => by simpa only [removeWrapperTypes] using wrapper_idem t
  | .boolean | .integer _ | .characterString | .real | .octetString | .sequence _ _ | .set _ _ | .sequenceOf _ | .setOf _ | .ref _
  | .restrictedString _ | .bitString _ | .enumerated _ _ | .any _ | .objectIdentifier | .choice _ _ | .null | .nil | .named _ => by
    simp [removeWrapperTypes]

theorem name_bare (a : MAssignment) : (bareAssignment d a).name = a.name := by
  cases a <;> rfl

theorem get_bare (n : Str) : assignmentGet (l.map (bareAssignment d)) n = (assignmentGet l n).map (bareAssignment d) := by
  rw [get_find, get_find, List.find?_map]
  congr 2
  funext a
  simp [name_bare]

theorem getType_bare (n : Str) : assignmentGetType (l.map (bareAssignment d)) n = (assignmentGetType l n).map fun x => (x.1, bare d x.2) := by
  unfold assignmentGetType
  rw [get_bare]
  cases assignmentGet l n with
  | none => rfl
  | some a => cases a <;> rfl

theorem leaf_bare : ∀ (k : Nat) (n : Str), unwrapToLeafType (l.map (bareAssignment d)) k n = (unwrapToLeafType l k n).map fun x => (x.1, bare d x.2)
  | 0, _ => rfl
  | k + 1, n => by
    unfold unwrapToLeafType
    rw [getType_bare]
    cases assignmentGetType l n with
    | none => rfl
    | some q =>
      obtain ⟨r, t⟩ := q
      simp only [Option.map_some, wrapper_bare]
      have hw := wrapper_idem t
      generalize removeWrapperTypes t = s at hw
      cases s with
      | tagged g s k x => exact absurd rfl (hw.1 g s k x)
      | constrained s x => exact absurd rfl (hw.2 s x)
      | ref n' => exact leaf_bare k n'
      | _ => rfl

/-- A type found through references is not the absence of a type in a constraint. -/
theorem leaf_nil (hl : ∀ n t, .type n t ∈ l → removeWrapperTypes t ≠ .nil) : ∀ (k : Nat) (n r : Str) (t : MTy), unwrapToLeafType l k n = some (r, t) →
    isNilTy (bare d t) = isNilTy t
  | 0, n, r, t, h => by simp [unwrapToLeafType] at h
  | k + 1, n, r, t, h => by
    unfold unwrapToLeafType at h
    cases hg : assignmentGetType l n with
    | none =>
      simp only [hg, Option.some.injEq, Prod.mk.injEq] at h
      rw [← h.2]
      rfl
    | some q =>
      obtain ⟨x, s⟩ := q
      simp only [hg] at h
      have key : (∃ n', unwrapToLeafType l k n' = some (r, t)) ∨ s = t := by
        cases hs : removeWrapperTypes s with
        | ref n' =>
          simp only [hs] at h
          exact .inl ⟨_, h⟩
        | _ =>
          simp only [hs, Option.some.injEq, Prod.mk.injEq] at h
          exact .inr h.2
      rcases key with ⟨n', h'⟩ | rfl
      · exact leaf_nil hl k n' r t h'
      · have hm : .type x s ∈ l := by
          unfold assignmentGetType at hg
          rw [get_find] at hg
          split at hg
          · cases hg
          · rename_i hf
            cases hg
            exact List.mem_of_find?_eq_some hf
          · cases hg
        have hn := hl _ _ hm
        have h1 : isNilTy s = false := by
          cases s with
          | nil => exact absurd rfl hn
          | _ => rfl
        have h2 : isNilTy (bare d s) = false := by
          cases hp : bare d s with
          | nil =>
            have hw := wrapper_bare (d := d) s
            rw [hp] at hw
            have hi := wrapper_idem s
            generalize removeWrapperTypes s = y at hw hn hi
            cases y with
            | tagged g s k x => exact absurd rfl (hi.1 g s k x)
            | constrained s x => exact absurd rfl (hi.2 s x)
            | nil => exact absurd rfl hn
            | _ => cases hw
          | _ => rfl
        rw [h1, h2]

/-- The context for the bare module. -/
abbrev bareCtx (c : GenCtx) (tags : Int) : GenCtx :=
  { c with tagDefault := tags, assignments := c.assignments.map (bareAssignment c.tagDefault) }

variable {tags : Int}

theorem special_bare (r : Str) (t : MTy) : generateSpecialCase r (bare d t) = generateSpecialCase r t := by
  unfold generateSpecialCase
  rw [wrapper_bare]
  have hw := wrapper_idem t
  generalize removeWrapperTypes t = s at hw
  cases s with
  | tagged g s k x => exact absurd rfl (hw.1 g s k x)
  | constrained s x => exact absurd rfl (hw.2 s x)
  | _ => rfl

theorem values_bare (ref : Str) (t : MTy) : generateAssociatedValues (bareCtx c tags) ref (bare d t) = generateAssociatedValues c ref t := by
  have hn : ∀ x, namedNumberSpecs (bareCtx c tags) ref x = namedNumberSpecs c ref x := by
    intro x
    induction x with
    | nil => rfl
    | cons n r ih =>
      simp only [namedNumberSpecs, ih]
      rfl
  unfold generateAssociatedValues
  rw [wrapper_bare]
  have hw := wrapper_idem t
  generalize removeWrapperTypes t = s at hw
  cases s with
  | tagged g s k x => exact absurd rfl (hw.1 g s k x)
  | constrained s x => exact absurd rfl (hw.2 s x)
  | integer l => simp only [bare, hn]
  | _ => rfl

section

variable (hl : ∀ n t, .type n t ∈ c.assignments → removeWrapperTypes t ≠ .nil)
include hl

/-- The types found by following a reference are the same, or the one is the bare form of the other. -/
theorem resolve_bare (n : Str) :
    (resolveTypeReference c n = none ∧ resolveTypeReference (bareCtx c tags) n = none) ∨
    ∃ x y log, resolveTypeReference c n = some (x, log) ∧ resolveTypeReference (bareCtx c tags) n = some (y, log) ∧
      (y = x ∨ y = x.map fun q => (q.1, bare c.tagDefault q.2)) := by
  unfold resolveTypeReference
  simp only [leaf_bare]
  cases h : unwrapToLeafType c.assignments c.fuel n with
  | none => exact .inl ⟨rfl, rfl⟩
  | some q =>
    obtain ⟨r, t⟩ := q
    simp only [Option.map_some, leaf_nil hl _ _ _ _ h]
    refine .inr ?_
    split
    · exact ⟨_, _, _, rfl, rfl, .inr rfl⟩
    · split
      · exact ⟨_, _, _, rfl, rfl, .inl rfl⟩
      · exact ⟨_, _, _, rfl, rfl, .inl rfl⟩

omit hl in
theorem taggedWith_bare {f g : Str → Gen Bool} (h : ∀ n, f n = g n) : ∀ t : MTy, taggedWith f (bare d t) = taggedWith g t
  | .constrained t _ => by simp only [bare, taggedWith, taggedWith_bare h t]
  | .ref n => by simp only [bare, taggedWith, h]
  | .tagged _ _ _ _ | .boolean | .integer _ | .characterString | .real | .octetString | .sequence _ _ | .set _ _ | .sequenceOf _ | .setOf _
  | .restrictedString _ | .bitString _ | .enumerated _ _ | .any _ | .objectIdentifier | .choice _ _ | .null | .nil | .named _ => by
    simp only [bare, taggedWith]

omit hl in
theorem taggedWith_congr {f g : Str → Gen Bool} (h : ∀ n, f n = g n) (t : MTy) : taggedWith f t = taggedWith g t := by
  rw [funext h]

theorem tagged_bare : ∀ (k : Nat) (t : MTy), taggedChoiceTypeAlternative (bareCtx c tags) k (bare c.tagDefault t) = taggedChoiceTypeAlternative c k t ∧
    taggedChoiceTypeAlternative (bareCtx c tags) k t = taggedChoiceTypeAlternative c k t
  | 0, t => ⟨taggedWith_bare (fun _ => rfl) t, rfl⟩
  | k + 1, t => by
    unfold taggedChoiceTypeAlternative
    refine ⟨taggedWith_bare (fun n => ?_) t, taggedWith_congr (fun n => ?_) t⟩
    all_goals
      rcases resolve_bare (tags := tags) hl n with ⟨h1, h2⟩ | ⟨x, y, log, h1, h2, h3⟩
      · rw [h1, h2]; rfl
      · rw [h1, h2]
        cases x with
        | none => rcases h3 with rfl | rfl <;> rfl
        | some q =>
          rcases h3 with rfl | rfl
          · simp only [bind, Gen.bind, (tagged_bare k q.2).2]
          · simp only [bind, Gen.bind, Option.map_some, (tagged_bare k q.2).1]

theorem hasTagged_bare : ∀ alts, hasTaggedAlternatives (bareCtx c tags) (bareAlternatives c.tagDefault alts) = hasTaggedAlternatives c alts
  | [] => by simp only [bareAlternatives]; rfl
  | .mk n t :: r => by
    simp only [bareAlternatives]
    unfold hasTaggedAlternatives
    simp only [NamedType.type, (tagged_bare hl _ t).1, hasTagged_bare r]

omit hl in
theorem tagComponents_bare (name : Str) : ∀ t, tagComponents (bareCtx c tags) name (bare c.tagDefault t) =
    (tagComponents c name t).map fun q => ((q.1.1, bare c.tagDefault q.1.2), q.2)
  | .tagged g t k x => by
    have ih := tagComponents_bare name t
    simp only [bare, tagComponents, if_true, ih]
    cases explicitComponents name (if x = true then k else c.tagDefault) with
    | none => rfl
    | some e =>
      cases tagNumber g.classNumber with
      | none => rfl
      | some n =>
        cases tagComponents c name t with
        | none => rfl
        | some q => rfl
  | .constrained t _ => by
    simp only [bare, tagComponents, tagComponents_bare name t]
    rfl
  | .boolean | .integer _ | .characterString | .real | .octetString | .sequence _ _ | .set _ _ | .sequenceOf _ | .setOf _ | .ref _
  | .restrictedString _ | .bitString _ | .enumerated _ _ | .any _ | .objectIdentifier | .choice _ _ | .null | .nil | .named _ => by
    simp only [bare, tagComponents]
    rfl

omit hl in
/-- What is left after the tags. -/
theorem tagComponents_left {name : Str} : ∀ {t : MTy} {ts : List Str} {s : MTy} {log : List Event}, tagComponents c name t = some ((ts, s), log) →
    (∀ g t k x, s ≠ .tagged g t k x) ∧ ∀ t x, s ≠ .constrained t x
  | .tagged g t k x, ts, s, log, h => by
    rw [tagComponents] at h
    obtain ⟨_, _, _, _, h, _⟩ := bind_some.1 h
    obtain ⟨_, _, _, _, h, _⟩ := bind_some.1 h
    obtain ⟨⟨q1, q2⟩, _, _, h, h2, _⟩ := bind_some.1 h
    obtain ⟨h2, _⟩ := pure_some.1 h2
    cases h2
    exact tagComponents_left h
  | .constrained t x, ts, s, log, h => by
    rw [tagComponents] at h
    exact tagComponents_left h
  | .boolean, _, _, _, h | .integer _, _, _, _, h | .characterString, _, _, _, h | .real, _, _, _, h | .octetString, _, _, _, h
  | .sequence _ _, _, _, _, h | .set _ _, _, _, _, h | .sequenceOf _, _, _, _, h | .setOf _, _, _, _, h | .ref _, _, _, _, h
  | .restrictedString _, _, _, _, h | .bitString _, _, _, _, h | .enumerated _ _, _, _, _, h | .any _, _, _, _, h
  | .objectIdentifier, _, _, _, h | .choice _ _, _, _, _, h | .null, _, _, _, h | .nil, _, _, _, h | .named _, _, _, _, h => by
    simp only [tagComponents] at h
    obtain ⟨h, _⟩ := pure_some.1 h
    cases h
    simp

omit hl in
theorem kind_bare {s : MTy} (h : (∀ g t k x, s ≠ .tagged g t k x) ∧ ∀ t x, s ≠ .constrained t x) :
    kindComponents (bareCtx c tags) (bare c.tagDefault s) = kindComponents c s := by
  cases s with
  | tagged g s k x => exact absurd rfl (h.1 g s k x)
  | constrained s x => exact absurd rfl (h.2 s x)
  | ref n =>
    simp only [bare, kindComponents, leaf_bare]
    cases unwrapToLeafType c.assignments c.fuel n <;> rfl
  | _ => simp only [bare, kindComponents]

omit hl in
theorem asn1Tag_bare (name : Str) (t : MTy) (o : Bool) (v : Option (Value DefinedValue)) :
    asn1TagFromType (bareCtx c tags) name (bare c.tagDefault t) o v = asn1TagFromType c name t o v := by
  unfold asn1TagFromType
  rw [tagComponents_bare]
  cases h : tagComponents c name t with
  | none => rfl
  | some q =>
    obtain ⟨⟨ts, s⟩, log⟩ := q
    simp only [Option.map_some, bind, Gen.bind, kind_bare (tagComponents_left h)]

omit hl in
theorem gen_assoc {α β γ : Type} (x : Gen α) (f : α → Gen β) (g : β → Gen γ) : (x >>= f) >>= g = x >>= fun a => f a >>= g := by
  cases x with
  | none => rfl
  | some q =>
    obtain ⟨a, l1⟩ := q
    simp only [bind, Gen.bind]
    cases f a with
    | none => rfl
    | some q =>
      obtain ⟨b, l2⟩ := q
      simp only
      cases g b with
      | none => rfl
      | some q =>
        simp
        rfl

omit hl in
theorem gen_pure {α β : Type} (a : α) (f : α → Gen β) : (pure a : Gen α) >>= f = f a := by
  simp only [bind, Gen.bind, pure, Gen.pure, List.nil_append]
  cases f a <;> rfl

omit hl in
theorem gen_bind {α : Type} (x : Gen α) : x >>= pure = x := by
  cases x with
  | none => rfl
  | some q =>
    simp [bind, Gen.bind, pure, Gen.pure]
    rfl

omit hl in
theorem fields_append (x y : List MComponent) : generateFields c (x ++ y) = (do
    let f1 ← generateFields c x
    let f2 ← generateFields c y
    pure (f1 ++ f2)) := by
  induction x with
  | nil => simp only [List.nil_append, generateFields, gen_pure, gen_bind]
  | cons a x ih =>
    cases a with
    | nil => simpa only [List.cons_append, generateFields] using ih
    | componentsOf t => simp only [List.cons_append, generateFields, ih, gen_assoc]
    | named n o v =>
      cases n
      simp only [List.cons_append, generateFields, ih, gen_assoc, gen_pure]

mutual

theorem body_bare : ∀ t, generateTypeBody (bareCtx c tags) (bare c.tagDefault t) = generateTypeBody c t
  | .sequence a b => by
    have h0 : generateFields (bareCtx c tags) [] = pure [] := by simp only [generateFields]
    simp only [bare, generateTypeBody, fields_append, fields_bare a, fields_bare b, gen_assoc, gen_pure, h0, List.append_nil]
  | .set a b => by
    have h0 : generateFields (bareCtx c tags) [] = pure [] := by simp only [generateFields]
    simp only [bare, generateTypeBody, fields_append, fields_bare a, fields_bare b, gen_assoc, gen_pure, h0, List.append_nil]
  | .sequenceOf t => by simp only [bare, generateTypeBody, body_bare t]
  | .setOf t => by simp only [bare, generateTypeBody, body_bare t]
  | .tagged _ t _ _ => by simp only [bare, generateTypeBody, body_bare t]
  | .constrained t _ => by simp only [bare, generateTypeBody, body_bare t]
  | .ref n => by
    simp only [bare, generateTypeBody]
    rcases resolve_bare (tags := tags) hl n with ⟨h1, h2⟩ | ⟨x, y, log, h1, h2, h3⟩
    · rw [h1, h2]
    · rw [h1, h2]
      cases x with
      | none => rcases h3 with rfl | rfl <;> rfl
      | some q =>
        rcases h3 with rfl | rfl
        · rfl
        · simp only [bind, Gen.bind, Option.map_some, special_bare]
  | .choice alts _ => by simp only [bare, generateTypeBody, hasTagged_bare hl, only_bare alts]
  | .boolean | .integer _ | .characterString | .real | .octetString
  | .restrictedString _ | .bitString _ | .enumerated _ _ | .any _ | .objectIdentifier | .null | .nil | .named _ => by
    simp only [bare, generateTypeBody]

theorem only_bare : ∀ alts, generateOnlyAlternative (bareCtx c tags) (bareAlternatives c.tagDefault alts) = generateOnlyAlternative c alts
  | [] => by simp only [bareAlternatives, generateOnlyAlternative]
  | [.mk _ t] => by simp only [bareAlternatives, generateOnlyAlternative, body_bare t]
  | .mk _ _ :: .mk _ _ :: _ => by simp only [bareAlternatives]; rfl

theorem fields_bare : ∀ x, generateFields (bareCtx c tags) (bareComponents c.tagDefault x) = generateFields c x
  | [] => by simp only [bareComponents, generateFields]
  | .named (.mk _ t) _ _ :: r => by simp only [bareComponents, generateFields, body_bare t, asn1Tag_bare, fields_bare r]
  | .componentsOf _ :: r => by simp only [bareComponents, generateFields, fields_bare r]
  | .nil :: r => by simp only [bareComponents, generateFields, fields_bare r]

end

theorem decls_bare : ∀ as, generateDeclarations (bareCtx c tags) (as.map (bareAssignment c.tagDefault)) = generateDeclarations c as
  | [] => rfl
  | .type ref t :: r => by
    simp only [List.map_cons, bareAssignment, generateDeclarations, generateTypeDecl, body_bare hl, values_bare, decls_bare r]
  | .value ref t v :: r => by
    simp only [List.map_cons, bareAssignment, generateDeclarations, tryGenerateValueAssignment, body_bare hl, decls_bare r]
  | .nil :: r => by simp only [List.map_cons, bareAssignment, generateDeclarations, decls_bare r]

end

end Asn1go.CG
