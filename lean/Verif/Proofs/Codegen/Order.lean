import Verif.Proofs.Codegen.Uses

/-! The code generator looks at the other assignments only to follow references. -/

namespace Asn1go.CG

open Spec

variable {c : GenCtx} {l l' : List MAssignment}

/-- The context with other assignments. -/
abbrev onto (c : GenCtx) (l : List MAssignment) : GenCtx := { c with assignments := l }

/-! ### The same references -/

section Same

variable (h : ∀ n, unwrapToLeafType l c.fuel n = unwrapToLeafType l' c.fuel n)
include h

theorem resolve_same (n : Str) : resolveTypeReference (onto c l) n = resolveTypeReference (onto c l') n := by
  unfold resolveTypeReference
  simp only [h]

theorem tagged_same : ∀ (k : Nat) (t : MTy), taggedChoiceTypeAlternative (onto c l) k t = taggedChoiceTypeAlternative (onto c l') k t
  | 0, _ => rfl
  | k + 1, t => by
    unfold taggedChoiceTypeAlternative
    simp only [resolve_same h, tagged_same k]

theorem hasTagged_same : ∀ alts, hasTaggedAlternatives (onto c l) alts = hasTaggedAlternatives (onto c l') alts
  | [] => rfl
  | f :: r => by
    unfold hasTaggedAlternatives
    rw [tagged_same h, hasTagged_same r]

omit h in
theorem tagComponents_onto (name : Str) : ∀ t, tagComponents (onto c l) name t = tagComponents (onto c l') name t
  | .tagged _ t _ _ => by simp only [tagComponents, tagComponents_onto name t]
  | .constrained t _ => by simp only [tagComponents, tagComponents_onto name t]
  | .boolean | .integer _ | .characterString | .real | .octetString | .sequence _ _ | .set _ _ | .sequenceOf _ | .setOf _ | .ref _
  | .restrictedString _ | .bitString _ | .enumerated _ _ | .any _ | .objectIdentifier | .choice _ _ | .null | .nil | .named _ => by
    simp only [tagComponents]

theorem kind_same (t : MTy) : kindComponents (onto c l) t = kindComponents (onto c l') t := by
  cases t <;> simp only [kindComponents, h]

theorem asn1Tag_same (name : Str) (t : MTy) (o : Bool) (v : Option (Value DefinedValue)) :
    asn1TagFromType (onto c l) name t o v = asn1TagFromType (onto c l') name t o v := by
  unfold asn1TagFromType
  simp only [tagComponents_onto (l := l) (l' := l'), kind_same h]

mutual

theorem body_same : ∀ t, generateTypeBody (onto c l) t = generateTypeBody (onto c l') t
  | .sequence a b => by simp only [generateTypeBody, fields_same a, fields_same b]
  | .set a b => by simp only [generateTypeBody, fields_same a, fields_same b]
  | .sequenceOf t => by simp only [generateTypeBody, body_same t]
  | .setOf t => by simp only [generateTypeBody, body_same t]
  | .tagged _ t _ _ => by simp only [generateTypeBody, body_same t]
  | .constrained t _ => by simp only [generateTypeBody, body_same t]
  | .ref n => by simp only [generateTypeBody, resolve_same h]
  | .choice alts _ => by simp only [generateTypeBody, hasTagged_same h, only_same alts]
  | .boolean | .integer _ | .characterString | .real | .octetString
  | .restrictedString _ | .bitString _ | .enumerated _ _ | .any _ | .objectIdentifier | .null | .nil | .named _ => by
    simp only [generateTypeBody]

theorem only_same : ∀ alts, generateOnlyAlternative (onto c l) alts = generateOnlyAlternative (onto c l') alts
  | [] => by simp only [generateOnlyAlternative]
  | [.mk _ t] => by simp only [generateOnlyAlternative, body_same t]
  | .mk _ _ :: .mk _ _ :: _ => by rfl

theorem fields_same : ∀ x, generateFields (onto c l) x = generateFields (onto c l') x
  | [] => by simp only [generateFields]
  | .named (.mk _ t) _ _ :: r => by simp only [generateFields, body_same t, asn1Tag_same h, fields_same r]
  | .componentsOf _ :: r => by simp only [generateFields, fields_same r]
  | .nil :: r => by simp only [generateFields, fields_same r]

end

omit h in
theorem numbers_same (ref : Str) : ∀ x, namedNumberSpecs (onto c l) ref x = namedNumberSpecs (onto c l') ref x
  | [] => rfl
  | n :: r => by
    simp only [namedNumberSpecs, numbers_same ref r]
    rfl

theorem values_same (ref : Str) (t : MTy) : generateAssociatedValues (onto c l) ref t = generateAssociatedValues (onto c l') ref t := by
  unfold generateAssociatedValues
  simp only [numbers_same (l := l) (l' := l')]

theorem typeDecl_same (ref : Str) (t : MTy) : generateTypeDecl (onto c l) ref t = generateTypeDecl (onto c l') ref t := by
  unfold generateTypeDecl
  simp only [body_same h]

theorem value_same (ref : Str) (t : MTy) (v : Value DefinedValue) :
    tryGenerateValueAssignment (onto c l) ref t v = tryGenerateValueAssignment (onto c l') ref t v := by
  unfold tryGenerateValueAssignment
  simp only [body_same h]

theorem decls_same : ∀ as, generateDeclarations (onto c l) as = generateDeclarations (onto c l') as
  | [] => rfl
  | .type ref t :: r => by simp only [generateDeclarations, typeDecl_same h, values_same h, decls_same r]
  | .value ref t v :: r => by simp only [generateDeclarations, value_same h, decls_same r]
  | .nil :: r => by simp only [generateDeclarations, decls_same r]

end Same

/-! ### Assignments one by one -/

/-- The declarations for one assignment. -/
def chunk (c : GenCtx) : MAssignment → Gen (List GoDecl)
  | .type ref t => do
    let d ← generateTypeDecl c ref t
    let v ← generateAssociatedValues c ref t
    pure (d :: v.toList)
  | .value ref t v => do
    let d ← tryGenerateValueAssignment c ref t v
    pure d.toList
  | .nil => pure []

theorem decls_cons {as : List MAssignment} {a : MAssignment} {ds : List GoDecl} {log : List Event} :
    generateDeclarations c (a :: as) = some (ds, log) ↔
      ∃ d1 l1 d2 l2, chunk c a = some (d1, l1) ∧ generateDeclarations c as = some (d2, l2) ∧ ds = d1 ++ d2 ∧ log = l1 ++ l2 := by
  cases a with
  | type ref t =>
    simp only [generateDeclarations, chunk, bind_some, pure_some]
    constructor
    · rintro ⟨a, l1, _, h1, ⟨b, l2, _, h2, ⟨x, l3, _, h3, ⟨rfl, rfl⟩, rfl⟩, rfl⟩, rfl⟩
      exact ⟨_, _, _, _, ⟨a, l1, _, h1, ⟨b, l2, _, h2, ⟨rfl, rfl⟩, rfl⟩, rfl⟩, h3, by simp, by simp⟩
    · rintro ⟨_, _, x, l3, ⟨a, l1, _, h1, ⟨b, l2, _, h2, ⟨rfl, rfl⟩, rfl⟩, rfl⟩, h3, rfl, rfl⟩
      exact ⟨a, l1, _, h1, ⟨b, l2, _, h2, ⟨x, l3, _, h3, ⟨by simp, rfl⟩, rfl⟩, rfl⟩, by simp⟩
  | value ref t v =>
    simp only [generateDeclarations, chunk, bind_some, pure_some]
    constructor
    · rintro ⟨a, l1, _, h1, ⟨b, l2, _, h2, ⟨rfl, rfl⟩, rfl⟩, rfl⟩
      exact ⟨_, _, _, _, ⟨a, l1, _, h1, ⟨rfl, rfl⟩, rfl⟩, h2, rfl, by simp⟩
    · rintro ⟨_, _, b, l2, ⟨a, l1, _, h1, ⟨rfl, rfl⟩, rfl⟩, h2, rfl, rfl⟩
      exact ⟨a, l1, _, h1, ⟨b, l2, _, h2, ⟨rfl, rfl⟩, rfl⟩, by simp⟩
  | nil =>
    simp only [generateDeclarations, chunk, pure_some]
    constructor
    · exact fun h => ⟨[], [], ds, log, ⟨rfl, rfl⟩, h, rfl, rfl⟩
    · rintro ⟨_, _, b, l2, ⟨rfl, rfl⟩, h2, rfl, rfl⟩
      exact h2

/-- Declarations of assignments are no imports. -/
theorem chunk_own {a : MAssignment} {ds : List GoDecl} {log : List Event} (h : chunk c a = some (ds, log)) (p : Str) : GoDecl.imp p ∉ ds := by
  cases a with
  | type ref t =>
    simp only [chunk, bind_some, pure_some] at h
    obtain ⟨d, _, _, h1, ⟨v, _, _, h2, ⟨rfl, _⟩, _⟩, _⟩ := h
    simp only [generateTypeDecl, bind_some] at h1
    obtain ⟨⟨b, s⟩, _, _, _, h1, _⟩ := h1
    have hd : GoDecl.imp p ≠ d := by
      cases s
      · obtain ⟨rfl, _⟩ := pure_some.1 h1; simp
      · obtain ⟨rfl, _⟩ := pure_some.1 h1; simp
    have hv : v ≠ some (.imp p) := by
      unfold generateAssociatedValues at h2
      split at h2
      · split at h2
        · obtain ⟨rfl, _⟩ := pure_some.1 h2; simp
        · obtain ⟨_, _, _, _, h2, _⟩ := bind_some.1 h2
          obtain ⟨rfl, _⟩ := pure_some.1 h2; simp
      · obtain ⟨rfl, _⟩ := pure_some.1 h2; simp
    rw [List.mem_cons, Option.mem_toList]
    exact fun hh => hh.elim hd hv
  | value ref t v =>
    simp only [chunk, bind_some, pure_some] at h
    obtain ⟨d, _, _, h1, ⟨rfl, _⟩, _⟩ := h
    rw [Option.mem_toList]
    rintro rfl
    cases v <;> simp [tryGenerateValueAssignment, bind_some, pure_some] at h1
  | nil =>
    obtain ⟨rfl, _⟩ := pure_some.1 h
    simp

theorem decls_own {p : Str} : ∀ {as : List MAssignment} {ds : List GoDecl} {log : List Event}, generateDeclarations c as = some (ds, log) →
    GoDecl.imp p ∉ ds
  | [], ds, log, h => by
    obtain ⟨rfl, _⟩ := pure_some.1 h
    simp
  | a :: as, ds, log, h => by
    obtain ⟨d1, l1, d2, l2, h1, h2, rfl, rfl⟩ := decls_cons.1 h
    rw [List.mem_append]
    exact fun hh => hh.elim (chunk_own h1 p) (decls_own h2)

/-- In another order: the same declarations and calls in another order. -/
theorem decls_perm {as as' : List MAssignment} (hp : as.Perm as') : ∀ {ds : List GoDecl} {log : List Event}, generateDeclarations c as = some (ds, log) →
    ∃ ds' log', generateDeclarations c as' = some (ds', log') ∧ ds.Perm ds' ∧ log.Perm log' := by
  induction hp with
  | nil => exact fun h => ⟨_, _, h, .refl _, .refl _⟩
  | cons a _ ih =>
    intro ds log h
    obtain ⟨d1, l1, d2, l2, h1, h2, rfl, rfl⟩ := decls_cons.1 h
    obtain ⟨d2', l2', h2', hd, hl⟩ := ih h2
    exact ⟨_, _, decls_cons.2 ⟨_, _, _, _, h1, h2', rfl, rfl⟩, hd.append_left _, hl.append_left _⟩
  | swap a b r =>
    intro ds log h
    obtain ⟨d1, l1, _, _, h1, h2, rfl, rfl⟩ := decls_cons.1 h
    obtain ⟨d2, l2, d3, l3, h4, h3, rfl, rfl⟩ := decls_cons.1 h2
    refine ⟨_, _, decls_cons.2 ⟨_, _, _, _, h4, decls_cons.2 ⟨_, _, _, _, h1, h3, rfl, rfl⟩, rfl, rfl⟩, ?_, ?_⟩
    · rw [← List.append_assoc, ← List.append_assoc]
      exact List.perm_append_comm.append_right _
    · rw [← List.append_assoc, ← List.append_assoc]
      exact List.perm_append_comm.append_right _
  | trans _ _ ih1 ih2 =>
    intro ds log h
    obtain ⟨d1, l1, h1, hd1, hl1⟩ := ih1 h
    obtain ⟨d2, l2, h2, hd2, hl2⟩ := ih2 h1
    exact ⟨_, _, h2, hd1.trans hd2, hl1.trans hl2⟩

theorem errorsOf_mem {e : GenErr} : ∀ {log : List Event}, e ∈ errorsOf log ↔ Event.error e ∈ log
  | [] => by simp [errorsOf]
  | .error x :: r => by simp [errorsOf, errorsOf_mem (log := r)]
  | .require x :: r => by simp [errorsOf, errorsOf_mem (log := r)]

theorem errorsOf_perm {a b : List Event} (h : a.Perm b) : (errorsOf a).Perm (errorsOf b) := by
  induction h with
  | nil => exact .refl _
  | cons x _ ih =>
    cases x with
    | error e => exact ih.cons _
    | require m => exact ih
  | swap x y r =>
    cases x <;> cases y <;> first | exact .swap _ _ _ | exact .refl _
  | trans _ _ h1 h2 => exact h1.trans h2

theorem required_perm {a b : List Event} (h : ∀ m, Event.require m ∈ a ↔ Event.require m ∈ b) : (requiredFrom [] a).Perm (requiredFrom [] b) := by
  rw [List.perm_ext_iff_of_nodup (requiredFrom_nodup _ _ List.nodup_nil) (requiredFrom_nodup _ _ List.nodup_nil)]
  intro m
  rw [requiredFrom_mem, requiredFrom_mem, h]

/-! ### Lookup -/

theorem get_find : ∀ (l : List MAssignment) (n : Str), assignmentGet l n = l.find? (fun x => x.name == n)
  | [], _ => rfl
  | a :: l, n => by
    rw [assignmentGet, List.find?_cons, get_find l n]
    cases a.name == n <;> rfl

/-- If different assignments have different names, their order does not matter for lookup. -/
theorem get_perm (hp : l.Perm l') (hd : ∀ a ∈ l, ∀ b ∈ l, a.name = b.name → a = b) (n : Str) : assignmentGet l n = assignmentGet l' n := by
  rw [get_find, get_find]
  cases h : l.find? (fun x => x.name == n) with
  | none =>
    rw [eq_comm, List.find?_eq_none]
    rw [List.find?_eq_none] at h
    exact fun x hx => h x (hp.mem_iff.2 hx)
  | some a =>
    have ha := List.mem_of_find?_eq_some h
    have hn : a.name = n := by simpa using List.find?_some h
    cases h' : l'.find? (fun x => x.name == n) with
    | none =>
      rw [List.find?_eq_none] at h'
      exact absurd (by simpa using hn) (h' a (hp.mem_iff.1 ha))
    | some b =>
      have hb := List.mem_of_find?_eq_some h'
      have hn' : b.name = n := by simpa using List.find?_some h'
      rw [hd a ha b (hp.mem_iff.2 hb) (hn.trans hn'.symm)]

theorem leaf_get (h : ∀ n, assignmentGet l n = assignmentGet l' n) : ∀ (k : Nat) (n : Str), unwrapToLeafType l k n = unwrapToLeafType l' k n
  | 0, _ => rfl
  | k + 1, n => by
    unfold unwrapToLeafType assignmentGetType
    simp only [h, leaf_get h k]

/-! ### More assignments -/

/-- What the one gives without errors the other gives too. -/
def Follows {α : Type} (x y : Gen α) : Prop := ∀ v log, x = some (v, log) → errorsOf log = [] → y = some (v, log)

theorem Follows.refl {α : Type} (x : Gen α) : Follows x x := fun _ _ h _ => h

theorem Follows.bind {α β : Type} {x y : Gen α} {f g : α → Gen β} (h : Follows x y)
    (hf : ∀ a log, x = some (a, log) → errorsOf log = [] → Follows (f a) (g a)) : Follows (x >>= f) (y >>= g) := by
  intro v log hx he
  obtain ⟨a, l1, l2, h1, h2, rfl⟩ := bind_some.1 hx
  rw [errorsOf_append, List.append_eq_nil_iff] at he
  exact bind_some.2 ⟨a, l1, l2, h _ _ h1 he.1, hf a l1 h1 he.1 _ _ h2 he.2, rfl⟩

theorem Follows.next {α β : Type} {x y : Gen α} {f g : α → Gen β} (h : Follows x y) (hf : ∀ a, Follows (f a) (g a)) :
    Follows (x >>= f) (y >>= g) := h.bind fun a _ _ _ => hf a

/-- The other assignments have all these and define neither these again nor a time type. -/
structure Extends (l l' : List MAssignment) : Prop where
  get : ∀ n a, assignmentGet l n = some a → assignmentGet l' n = some a
  time : ∀ n, n = GeneralizedTimeName ∨ n = UTCTimeName → assignmentGet l n = none → assignmentGet l' n = none

section Extension

variable (h : Extends l l')
include h

theorem leaf_ext : ∀ (k : Nat) {n r : Str} {t : MTy}, unwrapToLeafType l k n = some (r, t) → isNilTy t = false ∨ isNilTy (lookupUsefulType r) = false →
    unwrapToLeafType l' k n = some (r, t)
  | 0, n, r, t, hl, _ => by simp [unwrapToLeafType] at hl
  | k + 1, n, r, t, hl, ho => by
    unfold unwrapToLeafType assignmentGetType at hl ⊢
    cases ha : assignmentGet l n with
    | none =>
      simp only [ha, Option.some.injEq, Prod.mk.injEq] at hl
      obtain ⟨rfl, rfl⟩ := hl
      have hn : n = GeneralizedTimeName := by
        rcases ho with ho | ho
        · cases ho
        · by_contra hn
          rw [lookupUsefulType, if_neg hn] at ho
          cases ho
      rw [h.time n (.inl hn) ha]
    | some a =>
      rw [h.get n a ha]
      cases a with
      | type x s =>
        simp only [ha] at hl ⊢
        cases hw : removeWrapperTypes s with
        | ref n' =>
          simp only [hw] at hl ⊢
          exact leaf_ext k hl ho
        | _ =>
          simp only [hw] at hl ⊢
          exact hl
      | value x s v =>
        simp only [ha] at hl ⊢
        exact hl
      | nil =>
        simp only [ha] at hl ⊢
        exact hl

/-- A reference that is resolved without error leads to the same type. -/
theorem leaf_resolved {n : Str} {v : Option (Str × MTy)} {log : List Event} (hr : resolveTypeReference (onto c l) n = some (v, log))
    (he : errorsOf log = []) : unwrapToLeafType l' c.fuel n = unwrapToLeafType l c.fuel n := by
  unfold resolveTypeReference at hr
  cases hl : unwrapToLeafType l c.fuel n with
  | none => simp [hl] at hr
  | some q =>
    obtain ⟨r, t⟩ := q
    simp only [hl] at hr
    refine leaf_ext h _ hl ?_
    by_cases h1 : isNilTy t = true
    · by_cases h2 : isNilTy (lookupUsefulType r) = true
      · exfalso
        rw [if_neg (by simp [h1]), if_neg (by simp [h2])] at hr
        obtain ⟨_, l1, l2, h3, h4, rfl⟩ := bind_some.1 hr
        rw [err_some] at h3
        subst h3
        simp [errorsOf] at he
      · exact .inr (by simpa using h2)
    · exact .inl (by simpa using h1)

theorem resolve_ext (n : Str) : Follows (resolveTypeReference (onto c l) n) (resolveTypeReference (onto c l') n) := by
  intro v log hr he
  rw [← hr]
  unfold resolveTypeReference
  simp only [leaf_resolved h hr he]

theorem taggedWith_ext {f g : Str → Gen Bool} (hf : ∀ n, Follows (f n) (g n)) : ∀ t, Follows (taggedWith f t) (taggedWith g t)
  | .ref n => by
    unfold taggedWith
    split
    · exact .refl _
    · exact hf n
  | .constrained t _ => by
    unfold taggedWith
    exact taggedWith_ext hf t
  | .tagged _ _ _ _ | .boolean | .integer _ | .characterString | .real | .octetString | .sequence _ _ | .set _ _ | .sequenceOf _ | .setOf _
  | .restrictedString _ | .bitString _ | .enumerated _ _ | .any _ | .objectIdentifier | .choice _ _ | .null | .nil | .named _ => by
    simp only [taggedWith]
    exact .refl _

theorem tagged_ext : ∀ (k : Nat) (t : MTy), Follows (taggedChoiceTypeAlternative (onto c l) k t) (taggedChoiceTypeAlternative (onto c l') k t)
  | 0, _ => .refl _
  | k + 1, t => by
    unfold taggedChoiceTypeAlternative
    refine taggedWith_ext h (fun n => (resolve_ext h n).next fun a => ?_) t
    cases a with
    | none => exact .refl _
    | some q => exact tagged_ext k q.2

theorem hasTagged_ext : ∀ alts, Follows (hasTaggedAlternatives (onto c l) alts) (hasTaggedAlternatives (onto c l') alts)
  | [] => .refl _
  | f :: r => by
    unfold hasTaggedAlternatives
    refine (tagged_ext h _ _).next fun a => ?_
    cases a
    · exact hasTagged_ext r
    · exact .refl _

/-- The tag of a component whose type has been translated. -/
theorem kind_ext {name : Str} : ∀ {t t' : MTy} {b : GoExpr × Bool} {log log' : List Event} {ts : List Str},
    generateTypeBody (onto c l) t = some (b, log) → errorsOf log = [] → tagComponents (onto c l) name t = some ((ts, t'), log') →
    kindComponents (onto c l') t' = kindComponents (onto c l) t'
  | .tagged g t k x, t', b, log, log', ts, hb, he, ht => by
    rw [generateTypeBody] at hb
    rw [tagComponents] at ht
    obtain ⟨_, _, _, _, ht, _⟩ := bind_some.1 ht
    obtain ⟨_, _, _, _, ht, _⟩ := bind_some.1 ht
    obtain ⟨⟨q1, q2⟩, _, _, ht, h2, _⟩ := bind_some.1 ht
    obtain ⟨h2, _⟩ := pure_some.1 h2
    cases h2
    exact kind_ext hb he ht
  | .constrained t x, t', b, log, log', ts, hb, he, ht => by
    rw [generateTypeBody] at hb
    rw [tagComponents] at ht
    exact kind_ext hb he ht
  | .ref n, t', b, log, log', ts, hb, he, ht => by
    simp only [tagComponents] at ht
    obtain ⟨ht, _⟩ := pure_some.1 ht
    cases ht
    rw [generateTypeBody] at hb
    obtain ⟨v, l1, l2, h1, _, rfl⟩ := bind_some.1 hb
    rw [errorsOf_append, List.append_eq_nil_iff] at he
    simp only [kindComponents, leaf_resolved h h1 he.1]
  | .boolean, _, _, _, _, _, _, _, ht | .integer _, _, _, _, _, _, _, _, ht | .characterString, _, _, _, _, _, _, _, ht | .real, _, _, _, _, _, _, _, ht
  | .octetString, _, _, _, _, _, _, _, ht | .sequence _ _, _, _, _, _, _, _, _, ht | .set _ _, _, _, _, _, _, _, _, ht
  | .sequenceOf _, _, _, _, _, _, _, _, ht | .setOf _, _, _, _, _, _, _, _, ht | .restrictedString _, _, _, _, _, _, _, _, ht
  | .bitString _, _, _, _, _, _, _, _, ht | .enumerated _ _, _, _, _, _, _, _, _, ht | .any _, _, _, _, _, _, _, _, ht
  | .objectIdentifier, _, _, _, _, _, _, _, ht | .choice _ _, _, _, _, _, _, _, _, ht | .null, _, _, _, _, _, _, _, ht | .nil, _, _, _, _, _, _, _, ht
  | .named _, _, _, _, _, _, _, _, ht => by
    simp only [tagComponents] at ht
    obtain ⟨ht, _⟩ := pure_some.1 ht
    cases ht
    rfl

mutual

theorem body_ext : ∀ t, Follows (generateTypeBody (onto c l) t) (generateTypeBody (onto c l') t)
  | .sequence a b => by
    simp only [generateTypeBody]
    exact (fields_ext a).next fun _ => (fields_ext b).next fun _ => .refl _
  | .set a b => by
    simp only [generateTypeBody]
    exact (fields_ext a).next fun _ => (fields_ext b).next fun _ => .refl _
  | .sequenceOf t => by
    simp only [generateTypeBody]
    exact (body_ext t).next fun _ => .refl _
  | .setOf t => by
    simp only [generateTypeBody]
    exact (body_ext t).next fun _ => .refl _
  | .tagged _ t _ _ => by
    simp only [generateTypeBody]
    exact body_ext t
  | .constrained t _ => by
    simp only [generateTypeBody]
    exact body_ext t
  | .ref n => by
    simp only [generateTypeBody]
    exact (resolve_ext h n).next fun _ => .refl _
  | .choice alts _ => by
    simp only [generateTypeBody]
    refine (hasTagged_ext h alts).next fun b => ?_
    cases b
    · exact only_ext alts
    · exact .refl _
  | .boolean | .integer _ | .characterString | .real | .octetString
  | .restrictedString _ | .bitString _ | .enumerated _ _ | .any _ | .objectIdentifier | .null | .nil | .named _ => by
    simp only [generateTypeBody]
    exact .refl _

theorem only_ext : ∀ alts, Follows (generateOnlyAlternative (onto c l) alts) (generateOnlyAlternative (onto c l') alts)
  | [] => by
    simp only [generateOnlyAlternative]
    exact .refl _
  | [.mk _ t] => by
    simp only [generateOnlyAlternative]
    exact body_ext t
  | .mk _ _ :: .mk _ _ :: _ => .refl _

theorem fields_ext : ∀ x, Follows (generateFields (onto c l) x) (generateFields (onto c l') x)
  | [] => by
    simp only [generateFields]
    exact .refl _
  | .named (.mk _ t) _ _ :: r => by
    simp only [generateFields]
    refine (body_ext t).bind fun b log hb he => ?_
    refine Follows.next ?_ fun _ => (fields_ext r).next fun _ => .refl _
    unfold asn1TagFromType
    rw [tagComponents_onto (l := l) (l' := l')]
    refine (Follows.refl _).bind fun q log' ht _ => ?_
    rw [← tagComponents_onto (l := l) (l' := l')] at ht
    obtain ⟨ts, t'⟩ := q
    simp only
    rw [kind_ext h hb he ht]
    exact .refl _
  | .componentsOf _ :: r => by
    simp only [generateFields]
    exact (Follows.refl _).next fun _ => fields_ext r
  | .nil :: r => by
    simp only [generateFields]
    exact fields_ext r

end

theorem chunk_ext (a : MAssignment) : Follows (chunk (onto c l) a) (chunk (onto c l') a) := by
  cases a with
  | type ref t =>
    refine Follows.next ((body_ext h t).next fun _ => .refl _) fun _ => Follows.next ?_ fun _ => .refl _
    unfold generateAssociatedValues
    simp only [numbers_same (l := l) (l' := l')]
    exact .refl _
  | value ref t v =>
    refine Follows.next ?_ fun _ => .refl _
    unfold tryGenerateValueAssignment
    cases v <;> first | exact (body_ext h t).next fun _ => .refl _ | exact .refl _
  | nil => exact .refl _

/-- All declarations and calls for assignments that are translated without errors are made among others, in the same order. -/
theorem decls_ext {as as' : List MAssignment} (hs : as.Sublist as') : ∀ {ds ds' : List GoDecl} {log log' : List Event},
    generateDeclarations (onto c l) as = some (ds, log) → errorsOf log = [] → generateDeclarations (onto c l') as' = some (ds', log') →
    ds.Sublist ds' ∧ log.Sublist log' := by
  induction hs with
  | slnil =>
    intro ds ds' log log' h1 _ h2
    obtain ⟨rfl, rfl⟩ := pure_some.1 h1
    exact ⟨List.nil_sublist _, List.nil_sublist _⟩
  | cons a _ ih =>
    intro ds ds' log log' h1 he h2
    obtain ⟨d1, l1, d2, l2, h3, h4, rfl, rfl⟩ := decls_cons.1 h2
    obtain ⟨k1, k2⟩ := ih h1 he h4
    exact ⟨k1.trans (List.sublist_append_right _ _), k2.trans (List.sublist_append_right _ _)⟩
  | cons_cons a _ ih =>
    intro ds ds' log log' h1 he h2
    obtain ⟨d1, l1, d2, l2, h3, h4, rfl, rfl⟩ := decls_cons.1 h1
    obtain ⟨d1', l1', d2', l2', h3', h4', rfl, rfl⟩ := decls_cons.1 h2
    rw [errorsOf_append, List.append_eq_nil_iff] at he
    have := chunk_ext h a _ _ h3 he.1
    rw [this] at h3'
    cases h3'
    obtain ⟨k1, k2⟩ := ih h4 he.2 h4'
    exact ⟨k1.append_left _, k2.append_left _⟩

end Extension

end Asn1go.CG
