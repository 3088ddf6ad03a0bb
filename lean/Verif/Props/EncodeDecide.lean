import Verif.Props.Encoding

/-! A program that decides that no known defect of writing applies to types of a module.  It accepts fewer types than there are: no SET, SET OF
and CHOICE types, no IMPLICIT tags and no DEFAULT values. -/

namespace Asn1go.Props

open Spec CG Enco

/-- The type, in its position, with the names of types that are accepted and of those that are GeneralizedTime; the last flag says that it may have
a tag. -/
def encCheck (names times : List Str) (d : Int) : Nat → Position → Bool → MTy → Bool
  | 0, _, _, _ => false
  | n + 1, pos, tag, t => match t with
    | .boolean | .integer _ | .enumerated _ _ | .octetString | .bitString _ | .objectIdentifier => true
    | .restrictedString k => k = Tok.PrintableString || (pos = .component && fieldStrings.contains k)
    | .sequence a b => (a ++ b).all fun
      | .named (.mk _ t) _ none => encCheck names times d n .component true t
      | .named _ _ (some _) => false
      | _ => true
    | .sequenceOf t => encCheck names times d n .element false t
    | .constrained t _ => encCheck names times d n pos tag t
    | .ref a => names.contains a || (pos = .component && times.contains a)
    | .tagged ⟨c, .number (.ofNat i)⟩ t k h => tag && [CLASS_CONTEXT_SPECIFIC, CLASS_APPLICATION, CLASS_PRIVATE].contains c && decide (i ≤ 2147483647) &&
        decide ((if h then k else d) = TAGS_EXPLICIT) && encCheck names times d n .component false t
    | _ => false

variable {l : List MAssignment} {d : Int} {r : Str} {names times : List Str}

theorem time_not_raw {a : Str} (h : TimeRef l a) : ¬ InRaw l (.ref a) := by
  induction h with
  | here h =>
    intro hi
    cases hi with
    | ref _ t ha _ => exact h t ha
  | ref a b t h1 h2 _ ih =>
    intro hi
    cases hi with
    | ref _ t' ha hi =>
      cases assigned_unique h1 ha
      clear h1 ha
      have key : ∀ t : MTy, unconstrained t = .ref b → InRaw l t → InRaw l (.ref b) := by
        intro t h hi
        induction hi with
        | raw => simp [unconstrained] at h
        | alternative => simp [unconstrained] at h
        | ref a t ha hi _ => simp only [unconstrained, Ty.ref.injEq] at h; subst h; exact .ref _ _ ha hi
        | constrained t x _ ih => exact ih (by simpa [unconstrained] using h)
      exact ih (key _ h2 hi)

/-- Accepted types are not held in raw values. -/
theorem check_not_raw (hn : ∀ a ∈ names, ∃ t n, Assigned l a t ∧ encCheck names times d n .assignment false t = true) (ht : ∀ a ∈ times, TimeRef l a) {t : MTy}
    (h : InRaw l t) : ∀ {n pos tag}, encCheck names times d n pos tag t = true → False := by
  induction h with
  | raw => intro n pos tag h; cases n <;> simp [encCheck] at h
  | alternative => intro n pos tag h; cases n <;> simp [encCheck] at h
  | constrained t x _ ih =>
    intro n pos tag h
    cases n with
    | zero => simp [encCheck] at h
    | succ n => exact ih (by simpa only [encCheck] using h)
  | ref a t ha hi ih =>
    intro n pos tag h
    cases n with
    | zero => simp [encCheck] at h
    | succ n =>
      simp only [encCheck, Bool.or_eq_true, Bool.and_eq_true, decide_eq_true_eq, List.contains_iff_mem] at h
      rcases h with h | ⟨-, h⟩
      · obtain ⟨t', n, h1, h2⟩ := hn a h
        cases assigned_unique ha h1
        exact ih h2
      · exact time_not_raw (ht a h) (.ref _ _ ha hi)

theorem encCheck_ok (hn : ∀ a ∈ names, ∃ t n, Assigned l a t ∧ encCheck names times d n .assignment false t = true) (ht : ∀ a ∈ times, TimeRef l a) :
    ∀ (n : Nat) (pos : Position) (t : MTy), (encCheck names times d n pos false t = true → EncOk true .none l d r (· ∈ names) pos t) ∧
      (encCheck names times d n .component true t = true → EncOkTagged true .none l d r (· ∈ names) t)
  | 0, pos, t => ⟨fun h => by simp [encCheck] at h, fun h => by simp [encCheck] at h⟩
  | n + 1, pos, t => by
    have members : ∀ a : List MComponent, (∀ x ∈ a, (match x with
        | .named (.mk _ t) _ none => encCheck names times d n .component true t
        | .named _ _ (some _) => false
        | _ => true) = true) → EncOkMembers true .none l d r (· ∈ names) a := by
      intro a ha
      induction a with
      | nil => simp [EncOkMembers]
      | cons x a ih =>
        have h1 := ha x (by simp)
        have h2 := ih fun y hy => ha y (by simp [hy])
        match x with
        | .named (.mk m t) o none =>
          rw [EncOkMembers]
          exact ⟨(encCheck_ok hn ht n .component t).2 h1, fun d hd => by (cases hd), by simp [Open.none], h2⟩
        | .named (.mk _ _) _ (some _) => simp at h1
        | .componentsOf _ => rw [EncOkMembers]; exact h2; simp
        | .nil => rw [EncOkMembers]; exact h2; simp
    have plain : ∀ pos tag, encCheck names times d (n + 1) pos tag t = true → (∀ g t' k h, t ≠ .tagged g t' k h) → (∀ t' x, t ≠ .constrained t' x) →
        EncOk true .none l d r (· ∈ names) pos t := by
      intro pos tag h hng hnc
      match t with
      | .boolean | .integer _ | .enumerated _ _ | .octetString | .bitString _ | .objectIdentifier => simp [EncOk]
      | .restrictedString k => simpa [encCheck, EncOk] using h
      | .sequence a b =>
        simp only [encCheck, List.all_eq_true] at h
        rw [EncOk]
        exact ⟨members a fun x hx => h x (by simp [hx]), members b fun x hx => h x (by simp [hx])⟩
      | .sequenceOf t =>
        rw [EncOk]
        exact (encCheck_ok hn ht n .element t).1 (by simpa only [encCheck] using h)
      | .ref a =>
        simp only [encCheck, Bool.or_eq_true, Bool.and_eq_true, decide_eq_true_eq, List.contains_iff_mem] at h
        rw [EncOk]
        exact h.imp id fun h => ⟨h.1, ht a h.2⟩
      | .tagged g t k h => exact absurd rfl (hng g t k h)
      | .constrained t x => exact absurd rfl (hnc t x)
      | .set .. | .setOf _ | .choice .. | .real | .null | .nil | .named _ | .any _ | .characterString => simp [encCheck] at h
    refine ⟨fun h => ?_, fun h => ?_⟩
    · by_cases h1 : ∃ g t' k b, t = .tagged g t' k b
      · obtain ⟨⟨c, v⟩, t', k, b, rfl⟩ := h1
        exfalso
        simp only [encCheck] at h
        split at h <;> simp_all
      · by_cases h2 : ∃ t' x, t = .constrained t' x
        · obtain ⟨t', x, rfl⟩ := h2
          rw [EncOk]
          exact (encCheck_ok hn ht n pos t').1 (by simpa only [encCheck] using h)
        · exact plain pos false h (fun g t' k b he => h1 ⟨g, t', k, b, he⟩) fun t' x he => h2 ⟨t', x, he⟩
    · by_cases h1 : ∃ g t' k b, t = .tagged g t' k b
      · obtain ⟨⟨c, v⟩, t', k, b, rfl⟩ := h1
        have : ∃ i : Nat, v = .number i ∧ [CLASS_CONTEXT_SPECIFIC, CLASS_APPLICATION, CLASS_PRIVATE].contains c = true ∧ i ≤ 2147483647 ∧
            (if b then k else d) = TAGS_EXPLICIT ∧ encCheck names times d n .component false t' = true := by
          simp only [encCheck] at h
          split at h <;> simp_all
        obtain ⟨i, rfl, h2, h3, h4, h5⟩ := this
        rw [EncOkTagged]
        exact ⟨by simpa using h2, ⟨i, rfl, by unfold GoInt; omega⟩, .inl h4, fun hr => check_not_raw hn ht hr h5, (encCheck_ok hn ht n .component t').1 h5⟩
      · by_cases h2 : ∃ t' x, t = .constrained t' x
        · obtain ⟨t', x, rfl⟩ := h2
          rw [EncOkTagged]
          exact (encCheck_ok hn ht n .component t').2 (by simpa only [encCheck] using h)
        · rw [EncOkTagged]
          · exact plain .component true h (fun g t' k b he => h1 ⟨g, t', k, b, he⟩) fun t' x he => h2 ⟨t', x, he⟩
          · exact fun g t' k b he => h1 ⟨g, t', k, b, he⟩
          · exact fun t' x he => h2 ⟨t', x, he⟩

/-- To accepted types no known defect applies. -/
theorem check_encodable (hn : ∀ a ∈ names, ∃ t n, Assigned l a t ∧ encCheck names times d n .assignment false t = true) (ht : ∀ a ∈ times, TimeRef l a) {a : Str}
    (ha : a ∈ names) : Encodable true .none l d r a :=
  ⟨(· ∈ names), ha, fun b hb => by
    obtain ⟨t, n, h1, h2⟩ := hn b hb
    exact ⟨t, h1, (encCheck_ok hn ht n .assignment t).1 h2⟩⟩

end Asn1go.Props
