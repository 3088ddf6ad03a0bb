import Verif.Proofs.Codegen.Fuel

/-! The generator reports no error exactly for supported types. -/

namespace Asn1go.CG

open Spec

theorem errors_append {a b : List Event} : errorsOf (a ++ b) = [] ↔ errorsOf a = [] ∧ errorsOf b = [] := by
  rw [errorsOf_append, List.append_eq_nil_iff]

theorem errors_nil : errorsOf [] = [] ↔ True := by simp [errorsOf]
theorem errors_error (e : GenErr) : errorsOf [.error e] = [] ↔ False := by simp [errorsOf]
theorem errors_require (m : Str) : errorsOf [.require m] = [] ↔ True := by simp [errorsOf]

/-- A log without `requireModule`. -/
def NoReq (log : List Event) : Prop := ∀ m, Event.require m ∉ log

theorem NoReq.nil : NoReq [] := by simp [NoReq]
theorem NoReq.error (e : GenErr) : NoReq [.error e] := by simp [NoReq]
theorem NoReq.append {a b : List Event} (h1 : NoReq a) (h2 : NoReq b) : NoReq (a ++ b) := by
  intro m hm
  rcases List.mem_append.1 hm with h | h
  · exact h1 m h
  · exact h2 m h

/-! ### CHOICE -/

theorem taggedChoice_leaf (c : GenCtx) (k : Nat) {t cc : MTy} (h1 : Core t cc) (h2 : ∀ a, cc ≠ .ref a) :
    ∃ b, taggedChoiceTypeAlternative c k t = pure b ∧ ∀ l, (b = true ↔ AltTagged l t) := by
  cases k with
  | zero =>
    rw [taggedChoiceTypeAlternative]
    exact taggedWith_leaf (f := fun _ => none) h1 h2
  | succ k =>
    rw [taggedChoiceTypeAlternative]
    exact taggedWith_leaf h1 h2

theorem taggedWith_spec {l : List MAssignment} {f : Str → Gen Bool}
    (hf : ∀ a b log, ¬ TimeName a → f a = some (b, log) →
      (b = true ↔ AltTagged l (.ref a)) ∧ (errorsOf log = [] ↔ AltOk l (.ref a)) ∧ NoReq log) :
    ∀ (t : MTy) (b : Bool) (log : List Event), taggedWith f t = some (b, log) →
      (b = true ↔ AltTagged l t) ∧ (errorsOf log = [] ↔ AltOk l t) ∧ NoReq log := by
  refine wrapInduct ?_ ?_ ?_
  · intro g t k h _ b log hb
    obtain ⟨rfl, rfl⟩ := pure_some.1 hb
    refine ⟨⟨fun _ => .tagged _ _ _ _, fun _ => rfl⟩, ⟨fun _ => .other _ (by simp) (by simp), fun _ => rfl⟩, NoReq.nil⟩
  · intro t x ih b log hb
    rw [taggedWith] at hb
    obtain ⟨h1, h2, h3⟩ := ih b log hb
    refine ⟨h1.trans ⟨fun h => .constrained _ _ h, fun h => ?_⟩, h2.trans ⟨fun h => .constrained _ _ h, fun h => ?_⟩, h3⟩
    · cases h with
      | constrained _ _ h => exact h
    · cases h with
      | constrained _ _ h => exact h
      | other _ h _ => exact absurd rfl (h _ _)
  · intro t h1 h2 b log hb
    by_cases ht : ∃ a, t = .ref a
    · obtain ⟨a, rfl⟩ := ht
      rw [taggedWith] at hb
      split at hb
      · rename_i htime
        obtain ⟨rfl, rfl⟩ := pure_some.1 hb
        refine ⟨⟨by simp, fun h => ?_⟩, ⟨fun _ => .time _ htime, fun _ => rfl⟩, NoReq.nil⟩
        cases h with
        | ref _ _ _ hn _ _ => exact absurd htime hn
      · rename_i htime
        exact hf a b log htime hb
    · have : taggedWith f t = pure false := by
        cases t <;> first | rfl | exact absurd rfl (h1 _ _ _ _) | exact absurd rfl (h2 _ _) | exact absurd ⟨_, rfl⟩ ht
      rw [this] at hb
      obtain ⟨rfl, rfl⟩ := pure_some.1 hb
      refine ⟨⟨by simp, fun h => ?_⟩, ⟨fun _ => .other _ h2 (fun a ha => ht ⟨a, ha⟩), fun _ => rfl⟩, NoReq.nil⟩
      cases h with
      | tagged => exact absurd rfl (h1 _ _ _ _)
      | constrained => exact absurd rfl (h2 _ _)
      | ref => exact absurd ⟨_, rfl⟩ ht

theorem taggedChoice_spec {c : GenCtx} {k : Nat} {t : MTy} {b : Bool} {log : List Event}
    (h : taggedChoiceTypeAlternative c k t = some (b, log)) :
    (b = true ↔ AltTagged c.assignments t) ∧ (errorsOf log = [] ↔ AltOk c.assignments t) ∧ NoReq log := by
  cases k with
  | zero =>
    rw [taggedChoiceTypeAlternative] at h
    exact taggedWith_spec (f := fun _ => none) (fun a b log _ h => by cases h) t b log h
  | succ k =>
    rw [taggedChoiceTypeAlternative] at h
    refine taggedWith_spec (fun a b log ht h => ?_) t b log h
    obtain ⟨x, l1, l2, hr, hk, rfl⟩ := bind_some.1 h
    rcases resolve_some hr with ⟨r, t', rfl, rfl, hres⟩ | ⟨rfl, rfl, r, hl, hne⟩
    · obtain ⟨cc, h1, h2⟩ := resolves_core hres
      obtain ⟨b', hb, hb'⟩ := taggedChoice_leaf c k h1 h2
      simp only at hk
      rw [hb] at hk
      obtain ⟨rfl, rfl⟩ := pure_some.1 hk
      refine ⟨(hb' _).trans ⟨fun h => .ref _ _ _ ht hres h, fun h => ?_⟩, ⟨fun _ => .ref _ _ _ hres, fun _ => rfl⟩, NoReq.nil⟩
      cases h with
      | ref _ _ t2 _ h2 h3 =>
        obtain ⟨_, rfl⟩ := resolves_unique hres h2
        exact h3
    · simp only at hk
      obtain ⟨rfl, rfl⟩ := pure_some.1 hk
      refine ⟨⟨by simp, fun h => ?_⟩, ⟨fun h => ?_, fun h => ?_⟩, NoReq.error _⟩
      · cases h with
        | ref _ _ _ _ h2 _ => exact absurd h2 (resolves_of_leaf hl hne)
      · simp [errorsOf] at h
      · cases h with
        | time _ h => exact absurd h ht
        | ref _ _ _ h => exact absurd h (resolves_of_leaf hl hne)
        | other _ _ h => exact absurd rfl (h _)

theorem hasTagged_spec {c : GenCtx} : ∀ {l : List MNamed} {b : Bool} {log : List Event}, hasTaggedAlternatives c l = some (b, log) →
    (b = true ↔ ∃ n t, NamedType.mk n t ∈ l ∧ AltTagged c.assignments t) ∧ (errorsOf log = [] ↔ AltsOk c.assignments l) ∧ NoReq log
  | [], b, log, h => by
    obtain ⟨rfl, rfl⟩ := pure_some.1 h
    exact ⟨by simp, ⟨fun _ => .nil, fun _ => rfl⟩, NoReq.nil⟩
  | .mk n t :: l, b, log, h => by
    rw [hasTaggedAlternatives] at h
    obtain ⟨b1, l1, l2, h1, h2, rfl⟩ := bind_some.1 h
    obtain ⟨s1, s2, s3⟩ := taggedChoice_spec h1
    simp only [NamedType.type] at s1 s2
    cases b1 with
    | true =>
      simp only [if_true] at h2
      obtain ⟨rfl, rfl⟩ := pure_some.1 h2
      have ht := s1.1 rfl
      refine ⟨⟨fun _ => ⟨n, t, by simp, ht⟩, fun _ => rfl⟩, ?_, s3.append NoReq.nil⟩
      rw [List.append_nil, s2]
      refine ⟨fun h => .tagged _ _ _ h ht, fun h => ?_⟩
      cases h with
      | tagged _ _ _ h _ => exact h
      | cons _ _ _ _ h _ => exact absurd ht h
    | false =>
      simp only [Bool.false_eq_true, if_false] at h2
      have ht : ¬ AltTagged c.assignments t := fun h => by simpa using s1.2 h
      obtain ⟨r1, r2, r3⟩ := hasTagged_spec h2
      refine ⟨r1.trans ⟨?_, ?_⟩, ?_, s3.append r3⟩
      · rintro ⟨n', t', hm, ht'⟩
        exact ⟨n', t', by simp [hm], ht'⟩
      · rintro ⟨n', t', hm, ht'⟩
        rcases List.mem_cons.1 hm with h | h
        · cases h; exact absurd ht' ht
        · exact ⟨n', t', h, ht'⟩
      · rw [errors_append, s2, r2]
        refine ⟨fun ⟨h, h'⟩ => .cons _ _ _ h ht h', fun h => ?_⟩
        cases h with
        | tagged _ _ _ _ h => exact absurd h ht
        | cons _ _ _ h1 _ h2 => exact ⟨h1, h2⟩

/-! ### Tags -/

theorem explicit_spec {name : Str} {k : Int} {x : List Str} {log : List Event} (h : explicitComponents name k = some (x, log)) :
    (errorsOf log = [] ↔ k ≠ TAGS_AUTOMATIC) ∧ NoReq log ∧ (x = if k = TAGS_EXPLICIT then [c! "explicit"] else []) := by
  unfold explicitComponents at h
  split at h
  · rename_i hk
    simp only [bind_some, err_some, pure_some] at h
    obtain ⟨_, l1, l2, rfl, ⟨rfl, rfl⟩, rfl⟩ := h
    simp [errorsOf, NoReq, hk, TAGS_AUTOMATIC, TAGS_EXPLICIT]
  · rename_i hk
    obtain ⟨rfl, rfl⟩ := pure_some.1 h
    simp [errorsOf, NoReq, hk]

theorem tagNumber_spec {v : Value DefinedValue} {x : List Str} {log : List Event} (h : tagNumber v = some (x, log)) :
    (∃ n, v = .number n ∧ x = [c! "tag:" ++ intStr n] ∧ log = []) ∨
    ((∀ n, v ≠ .number n) ∧ x = [] ∧ log = [.error .tagNotNumber]) := by
  unfold tagNumber at h
  split at h
  · obtain ⟨rfl, rfl⟩ := pure_some.1 h
    exact .inl ⟨_, rfl, rfl, rfl⟩
  · rename_i hk
    simp only [bind_some, err_some, pure_some] at h
    obtain ⟨_, l1, l2, rfl, ⟨rfl, rfl⟩, rfl⟩ := h
    exact .inr ⟨fun n hn => hk n hn, rfl, rfl⟩

theorem tagsOk_done {d : Int} {t : MTy} (h1 : ∀ g t' k h, t ≠ .tagged g t' k h) (h2 : ∀ t' x, t ≠ .constrained t' x) : TagsOk d t :=
  .other t h1 h2

theorem tagComponents_spec {c : GenCtx} {name : Str} : ∀ (t : MTy) (x : List Str × MTy) (log : List Event),
    tagComponents c name t = some (x, log) → (errorsOf log = [] ↔ TagsOk c.tagDefault t) ∧ NoReq log ∧ Core t x.2 := by
  refine wrapInduct ?_ ?_ ?_
  · intro g t k hh ih x log h
    rw [tagComponents] at h
    replace h := bind_some.1 h
    obtain ⟨ex, l1, l2, h1, h, rfl⟩ := h
    replace h := bind_some.1 h
    obtain ⟨num, l3, l4, h2, h, rfl⟩ := h
    replace h := bind_some.1 h
    obtain ⟨y, l5, l6, h3, h, rfl⟩ := h
    obtain ⟨rfl, rfl⟩ := pure_some.1 h
    obtain ⟨e1, n1, -⟩ := explicit_spec h1
    obtain ⟨e3, n3, c3⟩ := ih y l5 h3
    refine ⟨?_, ?_, .tagged _ _ _ _ _ c3⟩
    · simp only [errors_append, e1, e3, errors_nil, and_true]
      obtain ⟨cls, num'⟩ := g
      rcases tagNumber_spec h2 with ⟨n, hn, rfl, rfl⟩ | ⟨hn, rfl, rfl⟩
      · simp only at hn
        subst hn
        simp only [errors_nil, true_and]
        constructor
        · rintro ⟨a, b⟩
          refine .tagged _ _ _ _ _ (fun hb => ?_) (fun hb => ?_) b
          · simpa [hb] using a
          · simpa [hb] using a
        · intro h
          cases h with
          | tagged _ _ _ _ _ ha hb hc =>
            refine ⟨?_, hc⟩
            cases hh with
            | true => simpa using ha rfl
            | false => simpa using hb rfl
          | other _ h _ => exact absurd rfl (h _ _ _ _)
      · simp only [errors_error, false_and, and_false, false_iff]
        intro h
        cases h with
        | tagged _ _ _ _ _ ha hb hc => exact hn _ rfl
        | other _ h _ => exact absurd rfl (h _ _ _ _)
    · refine n1.append (NoReq.append ?_ (n3.append NoReq.nil))
      rcases tagNumber_spec h2 with ⟨n, hn, rfl, rfl⟩ | ⟨hn, rfl, rfl⟩
      · exact NoReq.nil
      · exact NoReq.error _
  · intro t y ih x log h
    rw [tagComponents] at h
    obtain ⟨e, n, cc⟩ := ih x log h
    refine ⟨e.trans ⟨fun h => .constrained _ _ h, fun h => ?_⟩, n, .constrained _ _ _ cc⟩
    cases h with
    | constrained _ _ h => exact h
    | other _ _ h => exact absurd rfl (h _ _)
  · intro t h1 h2 x log h
    have : tagComponents c name t = pure ([], t) := by
      cases t <;> first | rfl | exact absurd rfl (h1 _ _ _ _) | exact absurd rfl (h2 _ _)
    rw [this] at h
    obtain ⟨rfl, rfl⟩ := pure_some.1 h
    exact ⟨⟨fun _ => .other _ h1 h2, fun _ => rfl⟩, NoReq.nil, .done _ h1 h2⟩

theorem kind_log {c : GenCtx} {t : MTy} {x : List Str} {log : List Event} (h : kindComponents c t = some (x, log)) : log = [] := by
  unfold kindComponents at h
  repeat' split at h
  all_goals first | cases h; done | exact (pure_some.1 h).2

theorem tag_spec {c : GenCtx} {name : Str} {t : MTy} {o : Bool} {d : Option (Value DefinedValue)} {x : Option Str} {log : List Event}
    (h : asn1TagFromType c name t o d = some (x, log)) : (errorsOf log = [] ↔ TagsOk c.tagDefault t) ∧ NoReq log := by
  unfold asn1TagFromType at h
  replace h := bind_some.1 h
  obtain ⟨y, l1, l2, h1, h, rfl⟩ := h
  replace h := bind_some.1 h
  obtain ⟨ks, l3, l4, h2, h, rfl⟩ := h
  obtain ⟨rfl, rfl⟩ := pure_some.1 h
  obtain ⟨e, n, -⟩ := tagComponents_spec t y l1 h1
  rw [kind_log h2]
  simpa using ⟨e, n⟩

/-! ### Types -/

theorem specialCase_log {r : Str} {t : MTy} {x : Option GoExpr} {log : List Event} (h : generateSpecialCase r t = some (x, log)) :
    errorsOf log = [] := by
  unfold generateSpecialCase at h
  repeat' split at h
  all_goals simp only [bind_some, req_some, pure_some] at h
  · obtain ⟨_, l1, l2, rfl, ⟨rfl, rfl⟩, rfl⟩ := h; rfl
  · obtain ⟨_, l1, l2, rfl, ⟨rfl, rfl⟩, rfl⟩ := h; rfl
  · rw [h.2]; rfl

theorem only_two (l : List MAssignment) (d : Int) (r : Str) (a b : MNamed) (x : List MNamed) : SupportedOnly l d r (a :: b :: x) := by
  rw [SupportedOnly]
  · trivial
  · simp

theorem body_spec_aux (c : GenCtx) : (∀ t x log, generateTypeBody c t = some (x, log) →
      (errorsOf log = [] ↔ Supported c.assignments c.tagDefault c.integerRepr t)) ∧
    (∀ l x log, generateFields c l = some (x, log) → (errorsOf log = [] ↔ SupportedList c.assignments c.tagDefault c.integerRepr l)) := by
  let P := fun t => ∀ x log, generateTypeBody c t = some (x, log) →
      (errorsOf log = [] ↔ Supported c.assignments c.tagDefault c.integerRepr t)
  let Q := fun l => ∀ x log, generateFields c l = some (x, log) →
      (errorsOf log = [] ↔ SupportedList c.assignments c.tagDefault c.integerRepr l)
  have hseq : ∀ a b, Q a → Q b → P (.sequence a b) := by
    intro a b ha hb x log h
    rw [generateTypeBody] at h
    replace h := bind_some.1 h
    obtain ⟨f1, l1, l2, h1, h, rfl⟩ := h
    replace h := bind_some.1 h
    obtain ⟨f2, l3, l4, h2, h, rfl⟩ := h
    obtain ⟨rfl, rfl⟩ := pure_some.1 h
    rw [Supported, List.append_nil, errors_append, ha _ _ h1, hb _ _ h2]
  have hset : ∀ a b, Q a → Q b → P (.set a b) := by
    intro a b ha hb x log h
    rw [generateTypeBody] at h
    replace h := bind_some.1 h
    obtain ⟨f1, l1, l2, h1, h, rfl⟩ := h
    replace h := bind_some.1 h
    obtain ⟨f2, l3, l4, h2, h, rfl⟩ := h
    obtain ⟨rfl, rfl⟩ := pure_some.1 h
    rw [Supported, List.append_nil, errors_append, ha _ _ h1, hb _ _ h2]
  have hseqOf : ∀ t, P t → P (.sequenceOf t) := by
    intro t ih x log h
    rw [generateTypeBody] at h
    replace h := bind_some.1 h
    obtain ⟨f1, l1, l2, h1, h, rfl⟩ := h
    obtain ⟨rfl, rfl⟩ := pure_some.1 h
    rw [Supported, List.append_nil, ih _ _ h1]
  have hsetOf : ∀ t, P t → P (.setOf t) := by
    intro t ih x log h
    rw [generateTypeBody] at h
    replace h := bind_some.1 h
    obtain ⟨f1, l1, l2, h1, h, rfl⟩ := h
    obtain ⟨rfl, rfl⟩ := pure_some.1 h
    rw [Supported, List.append_nil, ih _ _ h1]
  have htag : ∀ g t k h, P t → P (.tagged g t k h) := by
    intro g t k hh ih x log h
    rw [generateTypeBody] at h
    rw [Supported, ih _ _ h]
  have hcon : ∀ t x, P t → P (.constrained t x) := by
    intro t y ih x log h
    rw [generateTypeBody] at h
    rw [Supported, ih _ _ h]
  have hcho : ∀ a e, (∀ n t, .mk n t ∈ a → P t) → P (.choice a e) := by
    intro a e ih x log h
    rw [generateTypeBody] at h
    replace h := bind_some.1 h
    obtain ⟨b, l1, l2, h1, h, rfl⟩ := h
    obtain ⟨s1, s2, _⟩ := hasTagged_spec h1
    rw [Supported, errors_append, s2]
    cases b with
    | true =>
      simp only [if_true] at h
      obtain ⟨rfl, rfl⟩ := pure_some.1 h
      have : SomeTagged c.assignments a := s1.1 rfl
      simp [errorsOf, this]
    | false =>
      have hn : ¬ SomeTagged c.assignments a := fun h => by simpa using s1.2 h
      simp only [Bool.false_eq_true, if_false] at h
      have key : errorsOf l2 = [] ↔ SupportedOnly c.assignments c.tagDefault c.integerRepr a := by
        match a, h, ih with
        | [.mk n t], h, ih =>
          rw [generateOnlyAlternative] at h
          rw [SupportedOnly]
          exact ih n t (by simp) _ _ h
        | [], h, ih =>
          rw [generateOnlyAlternative] at h
          · obtain ⟨rfl, rfl⟩ := pure_some.1 h
            simp [SupportedOnly, errorsOf]
          · simp
        | _ :: _ :: _, h, ih =>
          rw [generateOnlyAlternative] at h
          · obtain ⟨rfl, rfl⟩ := pure_some.1 h
            exact ⟨fun _ => only_two _ _ _ _ _ _, fun _ => rfl⟩
          · simp
      simp [key, hn]
  have hsimple : ∀ t, simple t = true → P t := by
    intro t hs x log h
    cases t <;> simp [simple] at hs <;> rw [generateTypeBody] at h <;> rw [Supported] <;>
      try first
        | (obtain ⟨rfl, rfl⟩ := pure_some.1 h; simp [errorsOf]; done)
        | (simp only [bind_some, req_some, err_some, pure_some] at h
           obtain ⟨_, l1, l2, rfl, ⟨rfl, rfl⟩, rfl⟩ := h
           simp [errorsOf]; done)
        | simp
    · split at h
      · rename_i hr
        obtain ⟨rfl, rfl⟩ := pure_some.1 h
        simp [errorsOf, hr, IntegerReprInt64]
      · rename_i hr
        split at h
        · rename_i hr'
          simp only [bind_some, req_some, err_some, pure_some] at h
          obtain ⟨_, l1, l2, rfl, ⟨rfl, rfl⟩, rfl⟩ := h
          simp [errorsOf, hr', IntegerReprBigInt]
        · rename_i hr'
          simp only [bind_some, req_some, err_some, pure_some] at h
          obtain ⟨_, l1, l2, rfl, ⟨rfl, rfl⟩, rfl⟩ := h
          simp only [List.append_nil, errors_error, false_iff]
          rintro (h | h)
          · exact hr h
          · exact hr' h
    · rename_i a
      replace h := bind_some.1 h
      obtain ⟨y, l1, l2, h1, h, rfl⟩ := h
      rcases resolve_some h1 with ⟨r, t', rfl, rfl, hres⟩ | ⟨rfl, rfl, r, hl, hne⟩
      · simp only at h
        replace h := bind_some.1 h
        obtain ⟨z, l3, l4, h2, h, rfl⟩ := h
        have : l4 = [] := by cases z <;> exact (pure_some.1 h).2
        subst this
        simp only [List.nil_append, List.append_nil, specialCase_log h2, true_iff]
        exact ⟨_, _, hres⟩
      · simp only at h
        obtain ⟨rfl, rfl⟩ := pure_some.1 h
        simp only [List.append_nil, errors_error, false_iff]
        rintro ⟨b, t, hb⟩
        exact resolves_of_leaf hl hne hb
  have hnil : Q [] := by
    intro x log h
    obtain ⟨rfl, rfl⟩ := pure_some.1 h
    simp [errorsOf, SupportedList]
  have hnamed : ∀ n t o d r, P t → Q r → Q (.named (.mk n t) o d :: r) := by
    intro nm t o d r h1 h2 x log h
    rw [generateFields] at h
    replace h := bind_some.1 h
    obtain ⟨y, l1, l2, hy, h, rfl⟩ := h
    replace h := bind_some.1 h
    obtain ⟨tg, l3, l4, htg, h, rfl⟩ := h
    replace h := bind_some.1 h
    obtain ⟨fs, l5, l6, hfs, h, rfl⟩ := h
    obtain ⟨rfl, rfl⟩ := pure_some.1 h
    rw [SupportedList, List.append_nil, errors_append, errors_append, h1 _ _ hy, (tag_spec htg).1, h2 _ _ hfs]
  have hof : ∀ t r, Q r → Q (.componentsOf t :: r) := by
    intro t r _ x log h
    rw [generateFields] at h
    replace h := bind_some.1 h
    obtain ⟨y, l1, l2, hy, h, rfl⟩ := h
    rw [err_some.1 hy, errors_append, errors_error, SupportedList, false_and]
  have hnilc : ∀ r, Q r → Q (.nil :: r) := by
    intro r ih x log h
    rw [generateFields] at h
    rw [SupportedList, ih _ _ h]
  exact ⟨induct hseq hset hseqOf hsetOf htag hcon hcho hsimple hnil hnamed hof hnilc,
    inductList hseq hset hseqOf hsetOf htag hcon hcho hsimple hnil hnamed hof hnilc⟩

theorem body_spec {c : GenCtx} {t : MTy} {x : GoExpr × Bool} {log : List Event} (h : generateTypeBody c t = some (x, log)) :
    errorsOf log = [] ↔ Supported c.assignments c.tagDefault c.integerRepr t := (body_spec_aux c).1 t x log h

/-! ### Assignments -/

theorem namedNumberExpr_spec {c : GenCtx} {v : NamedNumberValue} {x : GoExpr} {log : List Event} (h : namedNumberExpr c v = some (x, log)) :
    (errorsOf log = [] ↔ ∀ d, v = .defined d → d.moduleName = []) ∧ NoReq log := by
  unfold namedNumberExpr at h
  split at h
  · obtain ⟨rfl, rfl⟩ := pure_some.1 h
    simp [errorsOf, NoReq]
  · split at h
    · rename_i hd
      simp only [bind_some, req_some, err_some, pure_some] at h
      obtain ⟨_, l1, l2, rfl, ⟨rfl, rfl⟩, rfl⟩ := h
      simpa [errorsOf, NoReq] using hd
    · rename_i hd
      obtain ⟨rfl, rfl⟩ := pure_some.1 h
      simpa [errorsOf, NoReq] using hd
  · obtain ⟨rfl, rfl⟩ := pure_some.1 h
    simp [errorsOf, NoReq]

theorem namedNumberSpecs_spec {c : GenCtx} {ref : Str} : ∀ {l : List NamedNumber} {x : List GoValueSpec} {log : List Event},
    namedNumberSpecs c ref l = some (x, log) → (errorsOf log = [] ↔ LocalNumbers l) ∧ NoReq log
  | [], x, log, h => by
    obtain ⟨rfl, rfl⟩ := pure_some.1 h
    simp [errorsOf, LocalNumbers, NoReq]
  | n :: l, x, log, h => by
    rw [namedNumberSpecs] at h
    replace h := bind_some.1 h
    obtain ⟨e, l1, l2, he, h, rfl⟩ := h
    replace h := bind_some.1 h
    obtain ⟨r, l3, l4, hr, h, rfl⟩ := h
    obtain ⟨rfl, rfl⟩ := pure_some.1 h
    obtain ⟨e1, n1⟩ := namedNumberExpr_spec he
    obtain ⟨e2, n2⟩ := namedNumberSpecs_spec hr
    refine ⟨?_, n1.append (n2.append NoReq.nil)⟩
    rw [List.append_nil, errors_append, e1, e2]
    simp [LocalNumbers]

theorem associated_spec {c : GenCtx} {ref : Str} {t : MTy} {x : Option GoDecl} {log : List Event}
    (h : generateAssociatedValues c ref t = some (x, log)) :
    (errorsOf log = [] ↔ ∀ nums, Core t (.integer nums) → LocalNumbers nums) ∧ NoReq log := by
  unfold generateAssociatedValues at h
  split at h
  · rename_i l hl
    have hc : ∀ nums, Core t (.integer nums) ↔ nums = l := by
      intro nums
      rw [core_iff, hl]
      simp [eq_comm]
    split at h
    · rename_i he
      obtain ⟨rfl, rfl⟩ := pure_some.1 h
      have : l = [] := by simpa using he
      subst this
      refine ⟨?_, NoReq.nil⟩
      simp [errorsOf, hc, LocalNumbers]
    · replace h := bind_some.1 h
      obtain ⟨s, l1, l2, hs, h, rfl⟩ := h
      obtain ⟨rfl, rfl⟩ := pure_some.1 h
      obtain ⟨e, n⟩ := namedNumberSpecs_spec hs
      refine ⟨?_, n.append NoReq.nil⟩
      rw [List.append_nil, e]
      simp [hc]
  · rename_i hl
    obtain ⟨rfl, rfl⟩ := pure_some.1 h
    refine ⟨⟨fun _ nums hc => absurd (core_iff.1 hc) (hl nums), fun _ => rfl⟩, NoReq.nil⟩

theorem typeDecl_inv {c : GenCtx} {r : Str} {t : MTy} {d : GoDecl} {log : List Event} (h : generateTypeDecl c r t = some (d, log)) :
    ∃ e s, generateTypeBody c t = some ((e, s), log) ∧
      d = if s then .type [⟨goifyName c.u r ++ c! "SET", false, e⟩, ⟨goifyName c.u r, true, .ident (goifyName c.u r ++ c! "SET")⟩]
          else .type [⟨goifyName c.u r, !isStruct e, e⟩] := by
  unfold generateTypeDecl at h
  replace h := bind_some.1 h
  obtain ⟨⟨e, s⟩, l1, l2, hb, h, rfl⟩ := h
  refine ⟨e, s, ?_⟩
  cases s with
  | true =>
    simp only [if_true] at h ⊢
    obtain ⟨rfl, rfl⟩ := pure_some.1 h
    exact ⟨by simpa using hb, rfl⟩
  | false =>
    simp only [Bool.false_eq_true, if_false] at h ⊢
    obtain ⟨rfl, rfl⟩ := pure_some.1 h
    exact ⟨by simpa using hb, rfl⟩

theorem valueAssignment_inv {c : GenCtx} {r : Str} {t : MTy} {v : Value DefinedValue} {d : Option GoDecl} {log : List Event}
    (h : tryGenerateValueAssignment c r t v = some (d, log)) :
    (¬ Literal v ∧ d = none ∧ log = []) ∨
    (Literal v ∧ ∃ e s x, generateTypeBody c t = some ((e, s), log) ∧ d = some (.var [⟨valueRefToIdent c.u r, e, x⟩]) ∧
      ((∃ n, v = .number n ∧ x = numberToExpr n c.integerRepr) ∨
       (∃ b, v = .boolean b ∧ x = .lit (if b then c! "true" else c! "false")) ∨ (∃ y, v = .real y ∧ x = .real y))) := by
  unfold tryGenerateValueAssignment at h
  cases v with
  | number n =>
    replace h := bind_some.1 h
    obtain ⟨⟨e, s⟩, l1, l2, hb, h, rfl⟩ := h
    obtain ⟨rfl, rfl⟩ := pure_some.1 h
    exact .inr ⟨trivial, e, s, _, by simpa using hb, rfl, .inl ⟨n, rfl, rfl⟩⟩
  | boolean b =>
    replace h := bind_some.1 h
    obtain ⟨⟨e, s⟩, l1, l2, hb, h, rfl⟩ := h
    obtain ⟨rfl, rfl⟩ := pure_some.1 h
    exact .inr ⟨trivial, e, s, _, by simpa using hb, rfl, .inr (.inl ⟨b, rfl, rfl⟩)⟩
  | real y =>
    replace h := bind_some.1 h
    obtain ⟨⟨e, s⟩, l1, l2, hb, h, rfl⟩ := h
    obtain ⟨rfl, rfl⟩ := pure_some.1 h
    exact .inr ⟨trivial, e, s, _, by simpa using hb, rfl, .inr (.inr ⟨y, rfl, rfl⟩)⟩
  | _ =>
    obtain ⟨rfl, rfl⟩ := pure_some.1 h
    exact .inl ⟨fun h => h, rfl, rfl⟩

theorem decls_spec {c : GenCtx} : ∀ {l : List MAssignment} {x : List GoDecl} {log : List Event}, generateDeclarations c l = some (x, log) →
    (errorsOf log = [] ↔ ∀ a ∈ l, SupportedAssignment c.assignments c.tagDefault c.integerRepr a)
  | [], x, log, h => by
    obtain ⟨rfl, rfl⟩ := pure_some.1 h
    simp [errorsOf]
  | .type r t :: l, x, log, h => by
    rw [generateDeclarations] at h
    replace h := bind_some.1 h
    obtain ⟨d, l1, l2, hd, h, rfl⟩ := h
    replace h := bind_some.1 h
    obtain ⟨v, l3, l4, hv, h, rfl⟩ := h
    replace h := bind_some.1 h
    obtain ⟨ds, l5, l6, hds, h, rfl⟩ := h
    obtain ⟨rfl, rfl⟩ := pure_some.1 h
    obtain ⟨e, s, hb, _⟩ := typeDecl_inv hd
    rw [List.append_nil, errors_append, errors_append, body_spec hb, (associated_spec hv).1, decls_spec hds]
    simp [SupportedAssignment, and_assoc]
  | .value r t v :: l, x, log, h => by
    rw [generateDeclarations] at h
    replace h := bind_some.1 h
    obtain ⟨d, l1, l2, hd, h, rfl⟩ := h
    replace h := bind_some.1 h
    obtain ⟨ds, l5, l6, hds, h, rfl⟩ := h
    obtain ⟨rfl, rfl⟩ := pure_some.1 h
    rw [List.append_nil, errors_append, decls_spec hds]
    rcases valueAssignment_inv hd with ⟨hl, _, rfl⟩ | ⟨hl, e, s, y, hb, _⟩
    · simp [SupportedAssignment, errorsOf, hl]
    · rw [body_spec hb]
      simp [SupportedAssignment, hl]
  | .nil :: l, x, log, h => by
    rw [generateDeclarations] at h
    rw [decls_spec h]
    simp [SupportedAssignment]

end Asn1go.CG
