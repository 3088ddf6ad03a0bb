import Verif.Proofs.Codegen.Renamed
import Verif.Proofs.Codegen.Order
import Verif.Spec.GoCheck

/-! What generation gives for modules that differ in names, with the names that types in the files have. -/

namespace Asn1go.CG

open Spec

mutual

/-- A type in a file, renamed: `g` relates the names of declared types. -/
inductive TypeNew (g : Str → Str → Prop) (ident : Str → Str) (u : Casing) : GoExpr → GoExpr → Prop
  | own (n : Str) : n ∈ ownNames → TypeNew g ident u (.ident n) (.ident n)
  | name (n n' : Str) : g n n' → TypeNew g ident u (.ident n) (.ident n')
  | big : TypeNew g ident u (.star (.ident (c! "big.Int"))) (.star (.ident (c! "big.Int")))
  | array (e e' : GoExpr) : TypeNew g ident u e e' → TypeNew g ident u (.array e) (.array e')
  | iface : TypeNew g ident u .iface .iface
  | struct (l l' : List GoField) : FieldsNew g ident u l l' → TypeNew g ident u (.struct l) (.struct l')

/-- The same for fields. -/
inductive FieldsNew (g : Str → Str → Prop) (ident : Str → Str) (u : Casing) : List GoField → List GoField → Prop
  | nil : FieldsNew g ident u [] []
  | cons (n : Str) (e e' : GoExpr) (tag : Option Str) (l l' : List GoField) : TypeNew g ident u e e' → FieldsNew g ident u l l' →
      FieldsNew g ident u (.mk (goifyName u n) e tag :: l) (.mk (goifyName u (ident n)) e' tag :: l')

end

/-- Results without errors are related. -/
def Good {α β : Type} (R : α → β → Prop) (x : Gen α) (y : Gen β) : Prop := ∀ a l b l', x = some (a, l) → y = some (b, l') → errorsOf l = [] → R a b

theorem Good.pure {α β : Type} {R : α → β → Prop} {a : α} {b : β} (h : R a b) : Good R (pure a) (pure b) := by
  intro _ _ _ _ h1 h2 _
  cases h1
  cases h2
  exact h

theorem Good.bind {α β γ δ : Type} {R : α → β → Prop} {S : γ → δ → Prop} {x : Gen α} {y : Gen β} {f : α → Gen γ} {g : β → Gen δ} (h : Good R x y)
    (hf : ∀ a b, R a b → Good S (f a) (g b)) : Good S (x >>= f) (y >>= g) := by
  intro c l d l' h1 h2 h3
  obtain ⟨a, l1, l2, k1, k2, rfl⟩ := bind_some.1 h1
  obtain ⟨b, l3, l4, k3, k4, rfl⟩ := bind_some.1 h2
  rw [errorsOf_append, List.append_eq_nil_iff] at h3
  exact hf a b (h _ _ _ _ k1 k3 h3.1) _ _ _ _ k2 k4 h3.2

theorem Alike.good {ref ident : Str → Str} {α β : Type} {R : α → β → Prop} {x : Gen α} {y : Gen β} (h : Alike ref ident R x y) : Good R x y := by
  intro a l b l' h1 h2 _
  cases h with
  | none => cases h1
  | some _ _ _ _ h => cases h1; cases h2; exact h

theorem Good.require (m : Str) : Good (fun _ _ => True) (requireModule m) (requireModule m) := fun _ _ _ _ _ _ _ => trivial

theorem Good.error {β : Type} (e : GenErr) (y : Gen β) : Good (fun _ _ => False) (appendError e) y := by
  intro a l b l' h1 h2 h3
  cases h1
  cases h3

theorem Good.fails {α β : Type} {R : α → β → Prop} {x : Gen α} {y : Gen β} (h : Good (fun _ _ => False) x y) : Good R x y :=
  fun _ _ _ _ h1 h2 h3 => (h _ _ _ _ h1 h2 h3).elim

theorem get_names {n : Str} : ∀ {l : List MAssignment} {r : Str} {t : MTy}, assignmentGet l n = some (.type r t) → n ∈ typeNames l
  | [], _, _, h => by cases h
  | a :: l, r, t, h => by
    unfold assignmentGet at h
    split at h
    next hx =>
      cases h
      have : r = n := by simpa [Assignment.name] using hx
      simp [typeNames, this]
    next =>
      have := get_names h
      unfold typeNames at this ⊢
      rw [List.filterMap_cons]
      split
      · exact this
      · exact List.mem_cons_of_mem _ this

section

variable {ref ident : Str → Str} {l l' : List MAssignment} {c : GenCtx} {g : Str → Str → Prop} (hk : Keeps ref)
  (hl : List.Forall₂ (AssignmentRenamed ref ident) l l') (hg : ∀ n ∈ typeNames l, g (goifyName c.u n) (goifyName c.u (ref n)))
include hk hl

theorem resolve_good (n : Str) : Good (fun x y => ∃ p q, x = some p ∧ y = some q ∧ q.1 = ref p.1 ∧ TyRenamed ref ident p.2 q.2 ∧
    (p.1 = GeneralizedTimeName ∨ n ∈ typeNames l)) (resolveTypeReference (onto c l) n) (resolveTypeReference (onto c l') (ref n)) := by
  intro a k b k' h1 h2 h3
  have h4 := (resolve_renamed (c := c) hk hl n).good _ _ _ _ h1 h2 h3
  unfold resolveTypeReference at h1
  split at h1
  · cases h1
  next r t hr =>
    have key : r = GeneralizedTimeName ∨ n ∈ typeNames l ∨ (t = .nil ∧ r ≠ GeneralizedTimeName) := by
      by_cases h5 : r = GeneralizedTimeName
      · exact .inl h5
      · refine .inr ?_
        simp only [onto] at hr
        cases hf : c.fuel with
        | zero => rw [hf] at hr; cases hr
        | succ j =>
          rw [hf] at hr
          unfold unwrapToLeafType assignmentGetType at hr
          cases hx : assignmentGet l n with
          | none =>
            rw [hx] at hr
            cases hr
            exact .inr ⟨rfl, h5⟩
          | some x =>
            cases x with
            | type r' t' => exact .inl (get_names hx)
            | value | nil =>
              rw [hx] at hr
              cases hr
              exact .inr ⟨rfl, h5⟩
    cases h4 with
    | none =>
      exfalso
      split at h1
      · cases h1
      · split at h1
        · cases h1
        · obtain ⟨_, l1, l2, k1, k2, rfl⟩ := bind_some.1 h1
          cases k1
          cases h3
    | @some p q h4 =>
      have hp : p.1 = r := by
        split at h1
        · cases h1; rfl
        · split at h1
          · cases h1; rfl
          · obtain ⟨_, l1, l2, k1, k2, rfl⟩ := bind_some.1 h1
            cases k2
      refine ⟨p, q, rfl, rfl, h4.1, h4.2, ?_⟩
      rw [hp]
      rcases key with h5 | h5 | ⟨rfl, h5⟩
      · exact .inl h5
      · exact .inr h5
      · simp only [isNilTy, Bool.not_true, Bool.false_eq_true, if_false, lookupUsefulType, if_neg h5] at h1
        obtain ⟨_, l1, l2, k1, k2, rfl⟩ := bind_some.1 h1
        cases k2

omit hl in
theorem special_good {r : Str} {t t' : MTy} (h : TyRenamed ref ident t t') :
    Good (Option.Rel (fun e e' => e = e' ∧ ∃ n ∈ ownNames, e = .ident n)) (generateSpecialCase r t) (generateSpecialCase (ref r) t') := by
  unfold generateSpecialCase
  have h1 : (ref r = GeneralizedTimeName ∨ ref r = UTCTimeName) ↔ (r = GeneralizedTimeName ∨ r = UTCTimeName) := by
    rw [(keeps_time hk r).1, (keeps_time hk r).2]
  simp only [h1]
  split
  · exact .bind (.require _) fun _ _ _ => .pure (.some ⟨rfl, _, by decide, rfl⟩)
  · have hw := wrapper_renamed h
    generalize removeWrapperTypes t = s at hw
    generalize removeWrapperTypes t' = s' at hw
    cases hw with
    | bitString => exact .bind (.require _) fun _ _ _ => .pure (.some ⟨rfl, _, by decide, rfl⟩)
    | _ => exact .pure .none

omit hk hl in
theorem fieldsNew_append {u : Casing} {a a' b b' : List GoField} (h : FieldsNew g ident u a a') (h' : FieldsNew g ident u b b') :
    FieldsNew g ident u (a ++ b) (a' ++ b') := by
  cases h with
  | nil => exact h'
  | cons n e e' tag x x' h1 h2 => exact .cons n e e' tag _ _ h1 (fieldsNew_append h2 h')

include hg

mutual

theorem body_good : ∀ {t t' : MTy}, TyRenamed ref ident t t' →
    Good (fun x y => TypeNew g ident c.u x.1 y.1 ∧ x.2 = y.2) (generateTypeBody (onto c l) t) (generateTypeBody (onto c l') t')
  | .sequence a b, _, h => by
    cases h with
    | sequence _ _ _ _ h1 h2 =>
      exact .bind (comps_good h1) fun _ _ h3 => .bind (comps_good h2) fun _ _ h4 => .pure ⟨.struct _ _ (fieldsNew_append h3 h4), rfl⟩
  | .set a b, _, h => by
    cases h with
    | set _ _ _ _ h1 h2 =>
      exact .bind (comps_good h1) fun _ _ h3 => .bind (comps_good h2) fun _ _ h4 => .pure ⟨.struct _ _ (fieldsNew_append h3 h4), rfl⟩
  | .sequenceOf t, _, h => by
    cases h with
    | sequenceOf _ _ h => exact .bind (body_good h) fun _ _ h => .pure ⟨.array _ _ h.1, h.2⟩
  | .setOf t, _, h => by
    cases h with
    | setOf _ _ h => exact .bind (body_good h) fun _ _ h => .pure ⟨.array _ _ h.1, rfl⟩
  | .tagged _ t _ _, _, h => by cases h with | tagged _ _ _ _ _ _ _ _ h => simp only [generateTypeBody]; exact body_good h
  | .constrained t _, _, h => by cases h with | constrained _ _ _ _ h => simp only [generateTypeBody]; exact body_good h
  | .ref n, _, h => by
    cases h
    refine .bind (resolve_good hk hl n) fun x y h => ?_
    obtain ⟨⟨r, t⟩, ⟨r', t'⟩, rfl, rfl, h1, h2, h3⟩ := h
    simp only at h1 h2 h3
    subst h1
    intro a k b k' h4 h5 h6
    obtain ⟨x, l1, l2, k1, k2, rfl⟩ := bind_some.1 h4
    obtain ⟨y, l3, l4, k3, k4, rfl⟩ := bind_some.1 h5
    rw [errorsOf_append, List.append_eq_nil_iff] at h6
    have h7 := special_good hk h2 _ _ _ _ k1 k3 h6.1
    cases h7 with
    | some h =>
      obtain ⟨rfl, n, hn, rfl⟩ := h
      cases k2
      cases k4
      exact ⟨.own _ hn, rfl⟩
    | none =>
      rcases h3 with rfl | h3
      · unfold generateSpecialCase at k1
        rw [if_pos (.inl rfl)] at k1
        obtain ⟨_, _, _, -, k5, -⟩ := bind_some.1 k1
        cases k5
      · cases k2
        cases k4
        exact ⟨.name _ _ (hg n h3), rfl⟩
  | .choice x e, _, h => by
    cases h with
    | choice _ _ _ _ h =>
      refine .bind (hasTagged_renamed hk hl h).good fun a b hab => ?_
      subst hab
      split
      · exact .pure ⟨.own _ (by decide), rfl⟩
      · exact only_good h
  | .integer _, _, h => by
    cases h
    simp only [generateTypeBody]
    split
    · exact .pure ⟨.own _ (by decide), rfl⟩
    · split
      · exact .bind (.require _) fun _ _ _ => .pure ⟨.big, rfl⟩
      · exact .bind (.error _ _) fun _ _ h => h.elim
  | .bitString _, _, h | .enumerated _ _, _, h | .objectIdentifier, _, h => by
    cases h; exact .bind (.require _) fun _ _ _ => .pure ⟨.own _ (by decide), rfl⟩
  | .null, _, h | .nil, _, h | .named _, _, h => by
    cases h; exact .bind (.error _ _) fun _ _ h => h.elim
  | .any _, _, h => by cases h; exact .pure ⟨.iface, rfl⟩
  | .octetString, _, h => by cases h; exact .pure ⟨.array _ _ (.own _ (by decide)), rfl⟩
  | .boolean, _, h | .characterString, _, h | .real, _, h | .restrictedString _, _, h => by
    cases h; exact .pure ⟨.own _ (by decide), rfl⟩

theorem only_good : ∀ {x y : List MNamed}, AltsRenamed ref ident x y →
    Good (fun x y => TypeNew g ident c.u x.1 y.1 ∧ x.2 = y.2) (generateOnlyAlternative (onto c l) x) (generateOnlyAlternative (onto c l') y)
  | [], _, h => by cases h; exact .pure ⟨.iface, rfl⟩
  | [.mk _ t], _, h => by
    cases h with
    | cons _ _ _ _ _ _ h1 h2 => cases h2; exact body_good h1
  | .mk _ _ :: .mk _ _ :: _, _, h => by
    cases h with
    | cons _ _ _ _ _ _ h1 h2 => cases h2; exact .pure ⟨.iface, rfl⟩

theorem comps_good : ∀ {x y : List MComponent}, ComponentsRenamed ref ident x y →
    Good (FieldsNew g ident c.u) (generateFields (onto c l) x) (generateFields (onto c l') y)
  | [], _, h => by cases h; exact .pure .nil
  | .named (.mk n t) o d :: r, _, h => by
    cases h with
    | named _ _ _ _ _ _ _ _ h1 h2 h3 =>
      refine .bind (body_good h1) fun _ _ h4 => .bind (asn1Tag_renamed hk hl n h1 o h2).good fun a b h5 => .bind (comps_good h3) fun _ _ h6 => .pure ?_
      subst h5
      exact .cons _ _ _ _ _ _ h4.1 h6
  | .componentsOf _ :: r, _, h => by
    cases h with
    | componentsOf _ _ _ _ h => exact .bind (.error _ _) fun _ _ h => h.elim
  | .nil :: r, _, h => by
    cases h with
    | absent _ _ h => simp only [generateFields]; exact comps_good h

end

omit hk hl hg in
theorem isStruct_new {u : Casing} {e e' : GoExpr} (h : TypeNew g ident u e e') : isStruct e = isStruct e' := by
  cases h <;> rfl

/-- The declarations of a type in both files. -/
inductive DeclNew (g : Str → Str → Prop) (ref ident : Str → Str) (u : Casing) (n : Str) : GoDecl → GoDecl → Prop
  | type (e e' : GoExpr) : TypeNew g ident u e e' →
      DeclNew g ref ident u n (.type [⟨goifyName u n, !isStruct e, e⟩]) (.type [⟨goifyName u (ref n), !isStruct e, e'⟩])
  | set (e e' : GoExpr) : TypeNew g ident u e e' →
      DeclNew g ref ident u n (.type [⟨goifyName u n ++ c! "SET", false, e⟩, ⟨goifyName u n, true, .ident (goifyName u n ++ c! "SET")⟩])
        (.type [⟨goifyName u (ref n) ++ c! "SET", false, e'⟩, ⟨goifyName u (ref n), true, .ident (goifyName u (ref n) ++ c! "SET")⟩])

theorem typeDecl_good (n : Str) {t t' : MTy} (h : TyRenamed ref ident t t') :
    Good (DeclNew g ref ident c.u n) (generateTypeDecl (onto c l) n t) (generateTypeDecl (onto c l') (ref n) t') := by
  refine .bind (body_good hk hl hg h) fun x y hxy => ?_
  obtain ⟨e, b⟩ := x
  obtain ⟨e', b'⟩ := y
  obtain ⟨h1, h2⟩ := hxy
  simp only at h1 h2
  subst h2
  cases b with
  | true => exact .pure (.set _ _ h1)
  | false =>
    refine .pure ?_
    simp only
    rw [← isStruct_new h1]
    exact .type _ _ h1

omit hk hl hg in
theorem values_none {c : GenCtx} {y : Gen (Option GoDecl)} (n : Str) (t : MTy) : Good (fun x _ => ∀ specs, .type specs ∉ x.toList) (generateAssociatedValues c n t) y := by
  intro a k b k' h1 _ _ specs
  unfold generateAssociatedValues at h1
  split at h1
  · split at h1
    · cases h1; simp
    · obtain ⟨_, _, _, -, h2, -⟩ := bind_some.1 h1
      cases h2
      simp
  · cases h1; simp

omit hk hl hg in
theorem value_none {c : GenCtx} {y : Gen (Option GoDecl)} (n : Str) (t : MTy) (v : Value DefinedValue) :
    Good (fun x _ => ∀ specs, .type specs ∉ x.toList) (tryGenerateValueAssignment c n t v) y := by
  intro a k b k' h1 _ _ specs
  unfold tryGenerateValueAssignment at h1
  simp only at h1
  split at h1
  · obtain ⟨_, _, _, -, h2, -⟩ := bind_some.1 h1
    cases h2
    simp
  · obtain ⟨_, _, _, -, h2, -⟩ := bind_some.1 h1
    cases h2
    simp
  · obtain ⟨_, _, _, -, h2, -⟩ := bind_some.1 h1
    cases h2
    simp
  · cases h1; simp

/-- Every declaration of types is one for an assigned type, and the other file has the one for the new name. -/
theorem decls_good : ∀ {x y : List MAssignment}, List.Forall₂ (AssignmentRenamed ref ident) x y → Good (fun ds ds' => ∀ specs, .type specs ∈ ds →
      ∃ n ∈ typeNames x, ∃ d', d' ∈ ds' ∧ DeclNew g ref ident c.u n (.type specs) d') (generateDeclarations (onto c l) x) (generateDeclarations (onto c l') y)
  | _, _, .nil => .pure (by simp)
  | _, _, .cons h t => by
    cases h with
    | type n s s' h =>
      refine .bind (typeDecl_good hk hl hg n h) fun _ _ h1 => .bind (values_none n s) fun a b h2 => .bind (decls_good t) fun _ _ h3 => .pure ?_
      intro specs hs
      simp only [List.mem_cons, List.mem_append] at hs
      rcases hs with hs | hs | hs
      · exact ⟨n, by simp [typeNames], _, List.mem_cons_self .., hs ▸ h1⟩
      · exact absurd hs (h2 specs)
      · obtain ⟨n', h4, d', h5, h6⟩ := h3 specs hs
        refine ⟨n', ?_, d', List.mem_cons_of_mem _ (List.mem_append_right _ h5), h6⟩
        simp only [typeNames, List.filterMap_cons] at h4 ⊢
        exact List.mem_cons_of_mem _ h4
    | value n s s' v v' h hv =>
      refine .bind (value_none n s v) fun _ _ h1 => .bind (decls_good t) fun _ _ h2 => .pure ?_
      intro specs hs
      simp only [List.mem_append] at hs
      rcases hs with hs | hs
      · exact absurd hs (h1 specs)
      · obtain ⟨n', h4, d', h5, h6⟩ := h2 specs hs
        refine ⟨n', ?_, d', List.mem_append_right _ h5, h6⟩
        simpa only [typeNames, List.filterMap_cons] using h4

end

end Asn1go.CG
