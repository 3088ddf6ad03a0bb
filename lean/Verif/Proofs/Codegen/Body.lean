import Verif.Proofs.Codegen.Tags
import Verif.Proofs.Codegen.Uses

/-! What single types are translated to. -/

namespace Asn1go.CG

open Spec

theorem members_append (a b : List MComponent) : members (a ++ b) = members a ++ members b := List.filterMap_append

theorem marks_spec (c : GenCtx) : ∀ t x log, generateTypeBody c t = some (x, log) → (x.2 = true ↔ MarksSet c.assignments t) := by
  refine induct (Q := fun _ => True) ?_ ?_ ?_ ?_ ?_ ?_ ?_ ?_ trivial (fun _ _ _ _ _ _ _ => trivial) (fun _ _ _ => trivial) (fun _ _ => trivial)
  · intro a b _ _ x log h
    rw [generateTypeBody] at h
    replace h := bind_some.1 h
    obtain ⟨f1, l1, l2, h1, h, rfl⟩ := h
    replace h := bind_some.1 h
    obtain ⟨f2, l3, l4, h2, h, rfl⟩ := h
    obtain ⟨rfl, rfl⟩ := pure_some.1 h
    exact ⟨fun h => (by simp at h), fun h => by cases h⟩
  · intro a b _ _ x log h
    rw [generateTypeBody] at h
    replace h := bind_some.1 h
    obtain ⟨f1, l1, l2, h1, h, rfl⟩ := h
    replace h := bind_some.1 h
    obtain ⟨f2, l3, l4, h2, h, rfl⟩ := h
    obtain ⟨rfl, rfl⟩ := pure_some.1 h
    exact ⟨fun _ => .set _ _, fun _ => rfl⟩
  · intro t ih x log h
    rw [generateTypeBody] at h
    replace h := bind_some.1 h
    obtain ⟨⟨e, s⟩, l1, l2, h1, h, rfl⟩ := h
    obtain ⟨rfl, rfl⟩ := pure_some.1 h
    refine (ih _ _ h1).trans ⟨fun h => .sequenceOf _ h, fun h => ?_⟩
    cases h with
    | sequenceOf _ h => exact h
  · intro t ih x log h
    rw [generateTypeBody] at h
    replace h := bind_some.1 h
    obtain ⟨⟨e, s⟩, l1, l2, h1, h, rfl⟩ := h
    obtain ⟨rfl, rfl⟩ := pure_some.1 h
    exact ⟨fun _ => .setOf _, fun _ => rfl⟩
  · intro g t k hh ih x log h
    rw [generateTypeBody] at h
    refine (ih _ _ h).trans ⟨fun h => .tagged _ _ _ _ h, fun h => ?_⟩
    cases h with
    | tagged _ _ _ _ h => exact h
  · intro t y ih x log h
    rw [generateTypeBody] at h
    refine (ih _ _ h).trans ⟨fun h => .constrained _ _ h, fun h => ?_⟩
    cases h with
    | constrained _ _ h => exact h
  · intro a e ih x log h
    rw [generateTypeBody] at h
    replace h := bind_some.1 h
    obtain ⟨b, l1, l2, h1, h, rfl⟩ := h
    obtain ⟨s1, _, _⟩ := hasTagged_spec h1
    cases b with
    | true =>
      simp only [if_true] at h
      obtain ⟨rfl, rfl⟩ := pure_some.1 h
      refine ⟨fun h => (by simp at h), fun h => ?_⟩
      cases h with
      | choice n t _ hn _ =>
        obtain ⟨n', t', hm, ht'⟩ := s1.1 rfl
        cases List.mem_singleton.1 hm
        exact absurd ht' hn
    | false =>
      simp only [Bool.false_eq_true, if_false] at h
      match a, h, ih, s1 with
      | [.mk n t], h, ih, s1 =>
        rw [generateOnlyAlternative] at h
        refine (ih n t (by simp) _ _ h).trans ⟨fun h => .choice _ _ _ ?_ h, fun h => ?_⟩
        · intro ht
          simpa using s1.2 ⟨n, t, by simp, ht⟩
        · cases h with
          | choice _ _ _ _ h => exact h
      | [], h, ih, s1 =>
        rw [generateOnlyAlternative] at h
        · obtain ⟨rfl, rfl⟩ := pure_some.1 h
          exact ⟨fun h => (by simp at h), fun h => by cases h⟩
        · simp
      | _ :: _ :: _, h, ih, s1 =>
        rw [generateOnlyAlternative] at h
        · obtain ⟨rfl, rfl⟩ := pure_some.1 h
          exact ⟨fun h => (by simp at h), fun h => by cases h⟩
        · simp
  · intro t hs x log h
    have : x.2 = false := by
      cases t <;> simp [simple] at hs <;> rw [generateTypeBody] at h <;>
        try first
          | (obtain ⟨rfl, rfl⟩ := pure_some.1 h; rfl)
          | (simp only [bind_some, req_some, pure_some] at h
             obtain ⟨_, l1, l2, rfl, ⟨rfl, rfl⟩, rfl⟩ := h
             rfl)
          | (simp only [bind_some, err_some, pure_some] at h
             obtain ⟨_, l1, l2, rfl, ⟨rfl, rfl⟩, rfl⟩ := h
             rfl)
      · split at h
        · obtain ⟨rfl, rfl⟩ := pure_some.1 h
          rfl
        · split at h <;>
          · simp only [bind_some, req_some, err_some, pure_some] at h
            obtain ⟨_, l1, l2, rfl, ⟨rfl, rfl⟩, rfl⟩ := h
            rfl
      · replace h := bind_some.1 h
        obtain ⟨y, l1, l2, h1, h, rfl⟩ := h
        cases y with
        | none =>
          obtain ⟨rfl, rfl⟩ := pure_some.1 h
          rfl
        | some p =>
          simp only at h
          replace h := bind_some.1 h
          obtain ⟨z, l3, l4, h2, h, rfl⟩ := h
          cases z <;>
          · obtain ⟨rfl, rfl⟩ := pure_some.1 h
            rfl
    rw [this]
    refine ⟨fun h => (by simp at h), fun h => ?_⟩
    cases h <;> simp [simple] at hs

/-- A reference. -/
theorem ref_body {c : GenCtx} {a : Str} {x : GoExpr × Bool} {log : List Event} (h : generateTypeBody c (.ref a) = some (x, log))
    (he : errorsOf log = []) : GoTypeOf c.u c.assignments c.tagDefault c.integerRepr (.ref a) x.1 := by
  rw [generateTypeBody] at h
  replace h := bind_some.1 h
  obtain ⟨y, l1, l2, h1, h, rfl⟩ := h
  rcases resolve_some h1 with ⟨r, t, rfl, rfl, hres⟩ | ⟨rfl, rfl, _⟩
  · simp only at h
    replace h := bind_some.1 h
    obtain ⟨z, l3, l4, h2, h, rfl⟩ := h
    unfold generateSpecialCase at h2
    split at h2
    · rename_i ht
      simp only [bind_some, req_some, pure_some] at h2
      obtain ⟨_, l1, l2, rfl, ⟨rfl, rfl⟩, rfl⟩ := h2
      obtain ⟨rfl, rfl⟩ := pure_some.1 h
      exact .time a r t hres ht
    · rename_i ht
      split at h2
      · rename_i nb hnb
        simp only [bind_some, req_some, pure_some] at h2
        obtain ⟨_, l1, l2, rfl, ⟨rfl, rfl⟩, rfl⟩ := h2
        obtain ⟨rfl, rfl⟩ := pure_some.1 h
        exact .bits a r t nb hres ht (core_iff.2 hnb)
      · rename_i hnb
        obtain ⟨rfl, rfl⟩ := pure_some.1 h2
        obtain ⟨rfl, rfl⟩ := pure_some.1 h
        exact .ref a r t hres ht fun nb hc => hnb nb (core_iff.1 hc)
  · simp [errorsOf] at he

/-- A CHOICE. -/
theorem choice_body {c : GenCtx} {a : List MNamed} {e : List MTy} {x : GoExpr × Bool} {log : List Event}
    (h : generateTypeBody c (.choice a e) = some (x, log)) (he : errorsOf log = [])
    (ih : ∀ n t, NamedType.mk n t ∈ a → ∀ x log, generateTypeBody c t = some (x, log) → errorsOf log = [] →
      GoTypeOf c.u c.assignments c.tagDefault c.integerRepr t x.1) :
    GoTypeOf c.u c.assignments c.tagDefault c.integerRepr (.choice a e) x.1 := by
  rw [generateTypeBody] at h
  replace h := bind_some.1 h
  obtain ⟨b, l1, l2, h1, h, rfl⟩ := h
  obtain ⟨s1, _, _⟩ := hasTagged_spec h1
  rw [errors_append] at he
  cases b with
  | true =>
    simp only [if_true] at h
    obtain ⟨rfl, rfl⟩ := pure_some.1 h
    exact .rawChoice _ _ (s1.1 rfl)
  | false =>
    simp only [Bool.false_eq_true, if_false] at h
    have hn : ¬ SomeTagged c.assignments a := fun ht => by simpa using s1.2 ht
    match a, h, ih, hn with
    | [.mk n t], h, ih, hn =>
      rw [generateOnlyAlternative] at h
      exact .onlyChoice n t e _ (fun ht => hn ⟨n, t, by simp, ht⟩) (ih n t (by simp) _ _ h he.2)
    | [], h, _, hn =>
      rw [generateOnlyAlternative] at h
      · obtain ⟨rfl, rfl⟩ := pure_some.1 h
        exact .choice _ _ hn (by simp)
      · simp
    | _ :: _ :: _, h, _, hn =>
      rw [generateOnlyAlternative] at h
      · obtain ⟨rfl, rfl⟩ := pure_some.1 h
        exact .choice _ _ hn (by simp)
      · simp

theorem fieldsOf_append {u : Casing} {l : List MAssignment} {d : Int} {r : Str} : ∀ {a b : List Member} {fs gs : List GoField},
    FieldsOf u l d r a fs → FieldsOf u l d r b gs → FieldsOf u l d r (a ++ b) (fs ++ gs)
  | _, _, _, _, .nil, h => h
  | _, _, _, _, .cons x xs e tag fs h1 h2 h3, h => .cons x _ e tag _ h1 h2 (fieldsOf_append h3 h)

theorem body_type_aux (c : GenCtx) : (∀ t x log, generateTypeBody c t = some (x, log) → errorsOf log = [] →
      GoTypeOf c.u c.assignments c.tagDefault c.integerRepr t x.1) ∧
    (∀ l fs log, generateFields c l = some (fs, log) → errorsOf log = [] →
      FieldsOf c.u c.assignments c.tagDefault c.integerRepr (members l) fs) := by
  have hseq : ∀ a b : List MComponent, (∀ fs log, generateFields c a = some (fs, log) → errorsOf log = [] →
      FieldsOf c.u c.assignments c.tagDefault c.integerRepr (members a) fs) → (∀ fs log, generateFields c b = some (fs, log) → errorsOf log = [] →
      FieldsOf c.u c.assignments c.tagDefault c.integerRepr (members b) fs) → ∀ x log, generateTypeBody c (.sequence a b) = some (x, log) →
      errorsOf log = [] → GoTypeOf c.u c.assignments c.tagDefault c.integerRepr (.sequence a b) x.1 := by
    intro a b iha ihb x log h he
    rw [generateTypeBody] at h
    replace h := bind_some.1 h
    obtain ⟨f1, l1, l2, h1, h, rfl⟩ := h
    replace h := bind_some.1 h
    obtain ⟨f2, l3, l4, h2, h, rfl⟩ := h
    obtain ⟨rfl, rfl⟩ := pure_some.1 h
    simp only [errors_append] at he
    refine .sequence a b _ ?_
    rw [members_append]
    exact fieldsOf_append (iha _ _ h1 he.1) (ihb _ _ h2 he.2.1)
  have hset : ∀ a b : List MComponent, (∀ fs log, generateFields c a = some (fs, log) → errorsOf log = [] →
      FieldsOf c.u c.assignments c.tagDefault c.integerRepr (members a) fs) → (∀ fs log, generateFields c b = some (fs, log) → errorsOf log = [] →
      FieldsOf c.u c.assignments c.tagDefault c.integerRepr (members b) fs) → ∀ x log, generateTypeBody c (.set a b) = some (x, log) →
      errorsOf log = [] → GoTypeOf c.u c.assignments c.tagDefault c.integerRepr (.set a b) x.1 := by
    intro a b iha ihb x log h he
    rw [generateTypeBody] at h
    replace h := bind_some.1 h
    obtain ⟨f1, l1, l2, h1, h, rfl⟩ := h
    replace h := bind_some.1 h
    obtain ⟨f2, l3, l4, h2, h, rfl⟩ := h
    obtain ⟨rfl, rfl⟩ := pure_some.1 h
    simp only [errors_append] at he
    refine .set a b _ ?_
    rw [members_append]
    exact fieldsOf_append (iha _ _ h1 he.1) (ihb _ _ h2 he.2.1)
  have hseqOf : ∀ t : MTy, (∀ x log, generateTypeBody c t = some (x, log) → errorsOf log = [] →
      GoTypeOf c.u c.assignments c.tagDefault c.integerRepr t x.1) → ∀ x log, generateTypeBody c (.sequenceOf t) = some (x, log) →
      errorsOf log = [] → GoTypeOf c.u c.assignments c.tagDefault c.integerRepr (.sequenceOf t) x.1 := by
    intro t ih x log h he
    rw [generateTypeBody] at h
    replace h := bind_some.1 h
    obtain ⟨⟨e, s⟩, l1, l2, h1, h, rfl⟩ := h
    obtain ⟨rfl, rfl⟩ := pure_some.1 h
    rw [errors_append] at he
    exact .sequenceOf t _ (ih _ _ h1 he.1)
  have hsetOf : ∀ t : MTy, (∀ x log, generateTypeBody c t = some (x, log) → errorsOf log = [] →
      GoTypeOf c.u c.assignments c.tagDefault c.integerRepr t x.1) → ∀ x log, generateTypeBody c (.setOf t) = some (x, log) →
      errorsOf log = [] → GoTypeOf c.u c.assignments c.tagDefault c.integerRepr (.setOf t) x.1 := by
    intro t ih x log h he
    rw [generateTypeBody] at h
    replace h := bind_some.1 h
    obtain ⟨⟨e, s⟩, l1, l2, h1, h, rfl⟩ := h
    obtain ⟨rfl, rfl⟩ := pure_some.1 h
    rw [errors_append] at he
    exact .setOf t _ (ih _ _ h1 he.1)
  have hsimple : ∀ t : MTy, simple t → ∀ x log, generateTypeBody c t = some (x, log) → errorsOf log = [] →
      GoTypeOf c.u c.assignments c.tagDefault c.integerRepr t x.1 := by
    intro t hs x log h he
    cases t with
    | ref a => exact ref_body h he
    | integer nums =>
      rw [generateTypeBody] at h
      split at h
      · rename_i hr
        obtain ⟨rfl, rfl⟩ := pure_some.1 h
        exact .int64 nums hr
      · split at h
        · rename_i hr
          simp only [bind_some, req_some, pure_some] at h
          obtain ⟨_, l1, l2, rfl, ⟨rfl, rfl⟩, rfl⟩ := h
          exact .bigInt nums hr
        · simp only [bind_some, err_some, pure_some] at h
          obtain ⟨_, l1, l2, rfl, ⟨rfl, rfl⟩, rfl⟩ := h
          simp [errorsOf] at he
    | boolean => rw [generateTypeBody] at h; obtain ⟨rfl, rfl⟩ := pure_some.1 h; exact .boolean
    | real => rw [generateTypeBody] at h; obtain ⟨rfl, rfl⟩ := pure_some.1 h; exact .real
    | characterString => rw [generateTypeBody] at h; obtain ⟨rfl, rfl⟩ := pure_some.1 h; exact .characterString
    | restrictedString k => rw [generateTypeBody] at h; obtain ⟨rfl, rfl⟩ := pure_some.1 h; exact .restrictedString k
    | octetString => rw [generateTypeBody] at h; obtain ⟨rfl, rfl⟩ := pure_some.1 h; exact .octetString
    | any i => rw [generateTypeBody] at h; obtain ⟨rfl, rfl⟩ := pure_some.1 h; exact .any i
    | bitString nb =>
      rw [generateTypeBody] at h
      simp only [bind_some, req_some, pure_some] at h
      obtain ⟨_, l1, l2, rfl, ⟨rfl, rfl⟩, rfl⟩ := h
      exact .bitString nb
    | objectIdentifier =>
      rw [generateTypeBody] at h
      simp only [bind_some, req_some, pure_some] at h
      obtain ⟨_, l1, l2, rfl, ⟨rfl, rfl⟩, rfl⟩ := h
      exact .objectIdentifier
    | enumerated a b =>
      rw [generateTypeBody] at h
      simp only [bind_some, req_some, pure_some] at h
      obtain ⟨_, l1, l2, rfl, ⟨rfl, rfl⟩, rfl⟩ := h
      exact .enumerated a b
    | null | nil | named _ =>
      rw [generateTypeBody] at h
      simp only [bind_some, err_some, pure_some] at h
      obtain ⟨_, l1, l2, rfl, ⟨rfl, rfl⟩, rfl⟩ := h
      simp [errorsOf] at he
    | sequence _ _ | set _ _ | sequenceOf _ | setOf _ | tagged _ _ _ _ | constrained _ _ | choice _ _ => simp [simple] at hs
  have htag : ∀ g (t : MTy) k hh, (∀ x log, generateTypeBody c t = some (x, log) → errorsOf log = [] →
      GoTypeOf c.u c.assignments c.tagDefault c.integerRepr t x.1) → ∀ x log, generateTypeBody c (.tagged g t k hh) = some (x, log) →
      errorsOf log = [] → GoTypeOf c.u c.assignments c.tagDefault c.integerRepr (.tagged g t k hh) x.1 := by
    intro g t k hh ih x log h he
    rw [generateTypeBody] at h
    exact .tagged g t k hh _ (ih _ _ h he)
  have hcon : ∀ (t : MTy) y, (∀ x log, generateTypeBody c t = some (x, log) → errorsOf log = [] →
      GoTypeOf c.u c.assignments c.tagDefault c.integerRepr t x.1) → ∀ x log, generateTypeBody c (.constrained t y) = some (x, log) →
      errorsOf log = [] → GoTypeOf c.u c.assignments c.tagDefault c.integerRepr (.constrained t y) x.1 := by
    intro t y ih x log h he
    rw [generateTypeBody] at h
    exact .constrained t y _ (ih _ _ h he)
  have hcho : ∀ (a : List MNamed) (e : List MTy), (∀ n t, NamedType.mk n t ∈ a → ∀ x log, generateTypeBody c t = some (x, log) →
      errorsOf log = [] → GoTypeOf c.u c.assignments c.tagDefault c.integerRepr t x.1) → ∀ x log,
      generateTypeBody c (.choice a e) = some (x, log) → errorsOf log = [] →
      GoTypeOf c.u c.assignments c.tagDefault c.integerRepr (.choice a e) x.1 := fun a e ih x log h he => choice_body h he ih
  have hnil : ∀ fs log, generateFields c [] = some (fs, log) → errorsOf log = [] →
      FieldsOf c.u c.assignments c.tagDefault c.integerRepr (members []) fs := by
    intro fs log h he
    rw [generateFields] at h
    obtain ⟨rfl, rfl⟩ := pure_some.1 h
    exact .nil
  have hnamed : ∀ n (t : MTy) o d (l : List MComponent), (∀ x log, generateTypeBody c t = some (x, log) → errorsOf log = [] →
      GoTypeOf c.u c.assignments c.tagDefault c.integerRepr t x.1) → (∀ fs log, generateFields c l = some (fs, log) → errorsOf log = [] →
      FieldsOf c.u c.assignments c.tagDefault c.integerRepr (members l) fs) →
      ∀ fs log, generateFields c (.named (.mk n t) o d :: l) = some (fs, log) → errorsOf log = [] →
      FieldsOf c.u c.assignments c.tagDefault c.integerRepr (members (.named (.mk n t) o d :: l)) fs := by
    intro n t o d l iht ihl fs log h he
    rw [generateFields] at h
    replace h := bind_some.1 h
    obtain ⟨⟨e, s⟩, l1, l2, hy, h, rfl⟩ := h
    replace h := bind_some.1 h
    obtain ⟨tg, l3, l4, htg, h, rfl⟩ := h
    replace h := bind_some.1 h
    obtain ⟨fs, l5, l6, hfs, h, rfl⟩ := h
    obtain ⟨rfl, rfl⟩ := pure_some.1 h
    simp only [errors_append] at he
    exact .cons ⟨n, t, o, d⟩ _ e tg fs (iht _ _ hy he.1) ⟨fun h1 h2 => tag_meaning htg he.2.1 h1 h2,
      fun hyes => by rw [tag_optional htg, if_pos hyes], fun hno => List.count_eq_zero.1 (by rw [tag_optional htg, if_neg hno])⟩ (ihl _ _ hfs he.2.2.1)
  have hof : ∀ (t : MTy) (l : List MComponent), (∀ fs log, generateFields c l = some (fs, log) → errorsOf log = [] →
      FieldsOf c.u c.assignments c.tagDefault c.integerRepr (members l) fs) →
      ∀ fs log, generateFields c (.componentsOf t :: l) = some (fs, log) → errorsOf log = [] →
      FieldsOf c.u c.assignments c.tagDefault c.integerRepr (members (.componentsOf t :: l)) fs := by
    intro t l ihl fs log h he
    rw [generateFields] at h
    replace h := bind_some.1 h
    obtain ⟨y, l1, l2, hy, h, rfl⟩ := h
    simp only [errors_append] at he
    exact ihl _ _ h he.2
  have hnilc : ∀ (l : List MComponent), (∀ fs log, generateFields c l = some (fs, log) → errorsOf log = [] →
      FieldsOf c.u c.assignments c.tagDefault c.integerRepr (members l) fs) →
      ∀ fs log, generateFields c (.nil :: l) = some (fs, log) → errorsOf log = [] →
      FieldsOf c.u c.assignments c.tagDefault c.integerRepr (members (.nil :: l)) fs := by
    intro l ihl fs log h he
    rw [generateFields] at h
    exact ihl _ _ h he
  exact ⟨induct hseq hset hseqOf hsetOf htag hcon hcho hsimple hnil hnamed hof hnilc,
    inductList hseq hset hseqOf hsetOf htag hcon hcho hsimple hnil hnamed hof hnilc⟩

/-- The type made for a type. -/
theorem body_type {c : GenCtx} {t : MTy} {x : GoExpr × Bool} {log : List Event} (h : generateTypeBody c t = some (x, log))
    (he : errorsOf log = []) : GoTypeOf c.u c.assignments c.tagDefault c.integerRepr t x.1 := (body_type_aux c).1 t x log h he

theorem isStruct_iff (e : GoExpr) : isStruct e = true ↔ ∃ fs, e = .struct fs := by
  cases e <;> simp [isStruct]

theorem decls_shape {c : GenCtx} : ∀ {l : List MAssignment} {x : List GoDecl} {log : List Event}, generateDeclarations c l = some (x, log) →
    errorsOf log = [] → DeclsFor c.u c.assignments c.tagDefault c.integerRepr l x
  | [], x, log, h, _ => by
    obtain ⟨rfl, rfl⟩ := pure_some.1 h
    exact .done
  | .type r t :: l, x, log, h, he => by
    rw [generateDeclarations] at h
    replace h := bind_some.1 h
    obtain ⟨d, l1, l2, hdecl, h, rfl⟩ := h
    replace h := bind_some.1 h
    obtain ⟨v, l3, l4, hv, h, rfl⟩ := h
    replace h := bind_some.1 h
    obtain ⟨ds, l5, l6, hds, h, rfl⟩ := h
    obtain ⟨rfl, rfl⟩ := pure_some.1 h
    simp only [errors_append] at he
    refine .type r t l d v.toList ds ?_ (associated_shape hv) (decls_shape hds he.2.2.1)
    obtain ⟨e, s, hb, rfl⟩ := typeDecl_inv hdecl
    have hm := marks_spec c t _ _ hb
    have hty := body_type hb he.1
    cases s with
    | false =>
      have hm' : ¬ MarksSet c.assignments t := fun h => by simpa using hm.2 h
      cases hst : isStruct e with
      | true =>
        obtain ⟨fs, rfl⟩ := (isStruct_iff e).1 hst
        simpa [hst] using TypeDecl.struct (name := goifyName c.u r) fs hm' hty
      | false =>
        simpa [hst] using TypeDecl.alias (name := goifyName c.u r) e hm' hty fun fs hfs => by
          rw [(isStruct_iff e).2 ⟨fs, hfs⟩] at hst
          cases hst
    | true => exact .set e (hm.1 rfl) hty
  | .value r t v :: l, x, log, h, he => by
    rw [generateDeclarations] at h
    replace h := bind_some.1 h
    obtain ⟨d, l1, l2, hdecl, h, rfl⟩ := h
    replace h := bind_some.1 h
    obtain ⟨ds, l5, l6, hds, h, rfl⟩ := h
    obtain ⟨rfl, rfl⟩ := pure_some.1 h
    simp only [errors_append] at he
    rcases valueAssignment_inv hdecl with ⟨hl, rfl, rfl⟩ | ⟨hl, e, s, y, hb, rfl, hv⟩
    · exact .skip r t v l ds hl (decls_shape hds he.2.1)
    · refine .value r t v l e y ds ?_ (body_type hb he.1) (decls_shape hds he.2.1)
      rcases hv with ⟨n, rfl, rfl⟩ | ⟨b, rfl, rfl⟩ | ⟨z, rfl, rfl⟩
      · exact .number n _ (intExpr_number _ _)
      · exact .boolean b
      · exact .real z
  | .nil :: l, x, log, h, he => by
    rw [generateDeclarations] at h
    exact .nil l x (decls_shape h he)

theorem supported_members {l : List MAssignment} {d : Int} {r : Str} : ∀ {a : List MComponent}, SupportedList l d r a →
    ∀ x ∈ members a, Supported l d r x.type
  | [], _, x, hx => by simp [members] at hx
  | .named (.mk n t) o dd :: a, h, x, hx => by
    rw [SupportedList] at h
    simp only [members, List.filterMap_cons, List.mem_cons] at hx
    rcases hx with rfl | hx
    · exact h.1
    · exact supported_members h.2.2 x hx
  | .componentsOf t :: a, h, x, hx => by
    rw [SupportedList] at h
    exact h.elim
  | .nil :: a, h, x, hx => by
    rw [SupportedList] at h
    exact supported_members h x (by simpa [members] using hx)

/-- All types inside a supported type are supported. -/
theorem inside_supported {l : List MAssignment} {d : Int} {r : Str} {t t' : MTy} (h : Inside l t t') (hs : Supported l d r t) :
    Supported l d r t' := by
  induction h with
  | here t => exact hs
  | sequence a b x t hx _ ih =>
    rw [Supported] at hs
    rw [members_append] at hx
    rcases List.mem_append.1 hx with hx | hx
    · exact ih (supported_members hs.1 x hx)
    · exact ih (supported_members hs.2 x hx)
  | set a b x t hx _ ih =>
    rw [Supported] at hs
    rw [members_append] at hx
    rcases List.mem_append.1 hx with hx | hx
    · exact ih (supported_members hs.1 x hx)
    · exact ih (supported_members hs.2 x hx)
  | sequenceOf t t' _ ih => rw [Supported] at hs; exact ih hs
  | setOf t t' _ ih => rw [Supported] at hs; exact ih hs
  | tagged g t t' k h _ ih => rw [Supported] at hs; exact ih hs
  | constrained t t' x _ ih => rw [Supported] at hs; exact ih hs
  | choice n t t' e hn _ ih =>
    rw [Supported, SupportedOnly] at hs
    rcases hs.2 with ⟨n', t2, hm, ht⟩ | hs
    · cases List.mem_singleton.1 hm
      exact absurd ht hn
    · exact ih hs

end Asn1go.CG
