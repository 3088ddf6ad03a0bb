import Verif.Spec.Lexical

/-! Lemmas about the comment scanners. -/

namespace Asn1go

open Spec

theorem isWhitespace_iff (c : Char) : isWhitespace c = true ↔ White c := by
  simp [isWhitespace, White, or_assoc]

theorem isNewline_iff (c : Char) : isNewline c = true ↔ LineEnd c := by
  simp [isNewline, LineEnd, or_assoc]

theorem isNewline_white {c : Char} (h : isNewline c = true) : isWhitespace c = true := by
  simp [isNewline, isWhitespace] at *; omega

theorem lineEnds_nil : lineEnds [] = 0 := rfl

theorem lineEnds_cons (c : Char) (s : Str) :
    lineEnds (c :: s) = lineEnds s + if isNewline c then 1 else 0 := by
  unfold lineEnds
  rw [List.countP_cons]
  by_cases h : isNewline c = true
  · simp [h, (isNewline_iff c).1 h]
  · have : ¬ LineEnd c := fun h' => h ((isNewline_iff c).2 h')
    simp [h, this]

theorem lineEnds_append (s t : Str) : lineEnds (s ++ t) = lineEnds s + lineEnds t := by
  simp [lineEnds]

/-! ### Line comments -/

theorem Spec.LineTo.det {t r r' : Str} (h : LineTo t r) (h' : LineTo t r') : r = r' := by
  induction h generalizing r' with
  | eof => cases h'; rfl
  | lineEnd c t hc =>
    cases h' with
    | lineEnd => rfl
    | hyphens => exact absurd hc (by decide)
    | char _ _ _ h1 => exact absurd hc h1
  | hyphens t =>
    cases h' with
    | lineEnd _ _ hc => exact absurd hc (by decide)
    | hyphens => rfl
    | char _ _ _ _ h2 => exact absurd ⟨rfl, rfl⟩ h2
  | char c t r h1 h2 _ ih =>
    cases h' with
    | lineEnd _ _ hc => exact absurd hc h1
    | hyphens => exact absurd ⟨rfl, rfl⟩ h2
    | char _ _ _ _ _ h => exact ih h

theorem Spec.LineTo.suffix {t r : Str} (h : LineTo t r) : r <:+ t := by
  induction h with
  | eof => exact List.suffix_refl _
  | lineEnd c t => exact List.suffix_cons _ _
  | hyphens t => exact ⟨['-', '-'], rfl⟩
  | char c t r _ _ _ ih => exact ih.trans (List.suffix_cons _ _)

theorem skipLine_spec (fin : ReadEnd) (t : Str) : ∀ ln r ln',
    (skipLineCommentGo fin false t ln = some (r, ln') → LineTo t r) ∧
    (skipLineCommentGo fin true t ln = some (r, ln') →
      (∃ t', t = '-' :: t' ∧ r = t') ∨ (t.head? ≠ some '-' ∧ LineTo t r)) := by
  induction t with
  | nil =>
    intro ln r ln'
    cases fin <;> simp [skipLineCommentGo] <;> (try rintro rfl rfl) <;> (try exact .eof)
  | cons c cs ih =>
    intro ln r ln'
    by_cases hc : isNewline c = true
    · have hc' := (isNewline_iff c).1 hc
      have hne : c ≠ '-' := by rintro rfl; exact absurd hc (by decide)
      constructor
      · simp only [skipLineCommentGo, hc, if_true, Option.some.injEq, Prod.mk.injEq]
        rintro ⟨rfl, rfl⟩; exact .lineEnd _ _ hc'
      · simp only [skipLineCommentGo, hc, if_true, Option.some.injEq, Prod.mk.injEq]
        rintro ⟨rfl, rfl⟩; exact Or.inr ⟨by simpa using hne, .lineEnd _ _ hc'⟩
    · have hc' : ¬ LineEnd c := fun h => hc ((isNewline_iff c).2 h)
      by_cases hh : c = '-'
      · subst hh
        constructor
        · simp only [skipLineCommentGo, hc, if_false, beq_self_eq_true, if_true, Bool.false_eq_true]
          intro h
          rcases (ih _ _ _).2 h with ⟨t', rfl, rfl⟩ | ⟨h1, h2⟩
          · exact .hyphens _
          · exact .char _ _ _ hc' (fun h => h1 h.2) h2
        · simp only [skipLineCommentGo, hc, beq_self_eq_true, if_true, Bool.false_eq_true, if_false,
            Option.some.injEq, Prod.mk.injEq]
          rintro ⟨rfl, rfl⟩; exact Or.inl ⟨_, rfl, rfl⟩
      · have hb : (c == '-') = false := by simpa using hh
        constructor
        · simp only [skipLineCommentGo, hc, if_false, hb, Bool.false_eq_true]
          intro h
          exact .char _ _ _ hc' (fun h => hh h.1) ((ih _ _ _).1 h)
        · simp only [skipLineCommentGo, hc, if_false, hb, Bool.false_eq_true]
          intro h
          exact Or.inr ⟨by simpa using hh, .char _ _ _ hc' (fun h => hh h.1) ((ih _ _ _).1 h)⟩

theorem skipLine_lines (fin : ReadEnd) (t : Str) : ∀ h ln r ln',
    skipLineCommentGo fin h t ln = some (r, ln') →
      ln' + (lineEnds r : Int) = ln + lineEnds t ∧ r.length ≤ t.length := by
  induction t with
  | nil =>
    intro h ln r ln'
    cases fin <;> simp [skipLineCommentGo]
    rintro rfl rfl; simp [lineEnds_nil]
  | cons c cs ih =>
    intro h ln r ln'
    rw [lineEnds_cons]
    by_cases hc : isNewline c = true
    · simp only [skipLineCommentGo, hc, if_true, Option.some.injEq, Prod.mk.injEq]
      rintro ⟨rfl, rfl⟩; simp; omega
    · simp only [skipLineCommentGo, hc, if_false, Bool.false_eq_true]
      split
      · split
        · simp only [Option.some.injEq, Prod.mk.injEq]
          rintro ⟨rfl, rfl⟩; simp
        · intro h; have := ih _ _ _ _ h; simp; omega
      · intro h; have := ih _ _ _ _ h; simp; omega

theorem skipLine_total (t : Str) : ∀ h ln, (skipLineCommentGo .eof h t ln).isSome = true := by
  induction t with
  | nil => intro h ln; simp [skipLineCommentGo]
  | cons c cs ih =>
    intro h ln
    simp only [skipLineCommentGo]
    split
    · simp
    · split
      · split
        · simp
        · exact ih _ _
      · exact ih _ _

/-! ### Block comments -/

theorem Spec.BlockTo.suffix {t r : Str} (h : BlockTo t r) : r <:+ t := by
  induction h with
  | close t => exact ⟨['*', '/'], rfl⟩
  | nest t m r _ _ ih1 ih2 => exact (ih2.trans ih1).trans ⟨['/', '*'], rfl⟩
  | char c t r _ _ _ ih => exact ih.trans (List.suffix_cons _ _)

theorem Spec.BlockTo.det {t r r' : Str} (h : BlockTo t r) (h' : BlockTo t r') : r = r' := by
  induction h generalizing r' with
  | close t =>
    cases h' with
    | close => rfl
    | char _ _ _ h1 => exact absurd ⟨rfl, rfl⟩ h1
  | nest t m r _ _ ih1 ih2 =>
    cases h' with
    | nest _ m' _ h1 h2 => cases ih1 h1; exact ih2 h2
    | char _ _ _ _ h2 => exact absurd ⟨rfl, rfl⟩ h2
  | char c t r h1 h2 _ ih =>
    cases h' with
    | close => exact absurd ⟨rfl, rfl⟩ h1
    | nest => exact absurd ⟨rfl, rfl⟩ h2
    | char _ _ _ _ _ h => exact ih h

theorem Spec.BlockOpen.char {c : Char} {t : Str} (h1 : ¬ (c = '*' ∧ t.head? = some '/'))
    (h2 : ¬ (c = '/' ∧ t.head? = some '*')) (h : BlockOpen t) : BlockOpen (c :: t) := by
  rintro ⟨r, hr⟩
  cases hr with
  | close => exact h1 ⟨rfl, rfl⟩
  | nest => exact h2 ⟨rfl, rfl⟩
  | char _ _ _ _ _ h' => exact h ⟨_, h'⟩

theorem blockOpen_nil : BlockOpen [] := by rintro ⟨r, hr⟩; cases hr

theorem blockOpen_single (c : Char) : BlockOpen [c] :=
  BlockOpen.char (by simp) (by simp) blockOpen_nil

/-- The characters already consumed that the flags of the scanner stand for. -/
def flagPrefix (o c : Bool) : Str := if o then ['/'] else if c then ['*'] else []

theorem skipBlock_spec (fin : ReadEnd) (fuel : Nat) : ∀ (o c : Bool) (t : Str) ln r ln',
    (o && c) = false →
    skipBlockCommentGo fin fuel o c t ln = some (r, ln') →
    BlockTo (flagPrefix o c ++ t) r ∨ (r = [] ∧ fin = .eof ∧ BlockOpen (flagPrefix o c ++ t)) := by
  induction fuel with
  | zero => intro o c t ln r ln' _ h; simp [skipBlockCommentGo] at h
  | succ fuel ih =>
    intro o c t ln r ln' hoc h
    cases t with
    | nil =>
      cases fin <;> simp [skipBlockCommentGo] at h
      obtain ⟨rfl, rfl⟩ := h
      refine Or.inr ⟨rfl, rfl, ?_⟩
      cases o <;> cases c <;> simp [flagPrefix, blockOpen_nil, blockOpen_single]
    | cons x t =>
      simp only [skipBlockCommentGo] at h
      split at h
      · -- '/'
        rename_i hx
        have hx : x = '/' := by simpa using hx
        subst hx
        split at h
        · rename_i hc
          simp only [Option.some.injEq, Prod.mk.injEq] at h
          obtain ⟨rfl, rfl⟩ := h
          have ho : o = false := by revert hoc; simp [hc]
          subst hc; subst ho
          exact Or.inl (.close _)
        · rename_i hc
          have hc : c = false := by simpa using hc
          subst hc
          have := ih _ _ _ _ _ _ rfl h
          cases o
          · simpa [flagPrefix] using this
          · simp only [flagPrefix, if_true, List.cons_append, List.nil_append] at this ⊢
            rcases this with h | ⟨h1, h2, h3⟩
            · exact Or.inl (.char _ _ _ (by simp) (by simp) h)
            · exact Or.inr ⟨h1, h2, .char (by simp) (by simp) h3⟩
      · rename_i hx
        have hx : x ≠ '/' := by simpa using hx
        split at h
        · rename_i hx2
          have hx2 : x = '*' := by simpa using hx2
          subst hx2
          split at h
          · rename_i ho
            subst ho
            have hc : c = false := by simpa using hoc
            subst hc
            split at h
            · simp at h
            · rename_i cs' ln'' heq
              have h1 := ih _ _ _ _ _ _ rfl heq
              have h2 := ih _ _ _ _ _ _ rfl h
              simp only [flagPrefix, Bool.false_eq_true, if_false, List.nil_append] at h1 h2
              simp only [flagPrefix, if_true, List.cons_append, List.nil_append]
              rcases h1 with h1 | ⟨rfl, hf, h1⟩
              · rcases h2 with h2 | ⟨rfl, hf, h2⟩
                · exact Or.inl (.nest _ _ _ h1 h2)
                · refine Or.inr ⟨rfl, hf, ?_⟩
                  rintro ⟨r', hr'⟩
                  cases hr' with
                  | nest _ m _ h3 h4 => cases h1.det h3; exact h2 ⟨_, h4⟩
                  | char _ _ _ _ h5 => exact h5 ⟨rfl, rfl⟩
              · refine Or.inr ⟨?_, hf, ?_⟩
                · rcases h2 with h2 | ⟨rfl, hf, h2⟩
                  · cases h2
                  · rfl
                · rintro ⟨r', hr'⟩
                  cases hr' with
                  | nest _ m _ h3 h4 => exact h1 ⟨_, h3⟩
                  | char _ _ _ _ h5 => exact h5 ⟨rfl, rfl⟩
          · rename_i ho
            have ho : o = false := by simpa using ho
            subst ho
            have := ih _ _ _ _ _ _ rfl h
            simp only [flagPrefix, Bool.false_eq_true, if_false, List.nil_append, if_true,
              List.cons_append] at this ⊢
            cases c
            · simpa using this
            · simp only [if_true, List.cons_append, List.nil_append]
              rcases this with h | ⟨h1, h2, h3⟩
              · exact Or.inl (.char _ _ _ (by simp) (by simp) h)
              · exact Or.inr ⟨h1, h2, .char (by simp) (by simp) h3⟩
        · rename_i hx2
          have hx2 : x ≠ '*' := by simpa using hx2
          have := ih _ _ _ _ _ _ rfl h
          simp only [flagPrefix, Bool.false_eq_true, if_false, List.nil_append] at this
          have key : BlockTo (x :: t) r ∨ (r = [] ∧ fin = .eof ∧ BlockOpen (x :: t)) := by
            rcases this with h | ⟨h1, h2, h3⟩
            · exact Or.inl (.char _ _ _ (by simp [hx2]) (by simp [hx]) h)
            · exact Or.inr ⟨h1, h2, .char (by simp [hx2]) (by simp [hx]) h3⟩
          cases o <;> cases c <;>
            simp only [flagPrefix, Bool.false_eq_true, if_false, List.nil_append, if_true,
              List.cons_append] <;> (try exact key) <;>
            (rcases key with h | ⟨h1, h2, h3⟩
             · exact Or.inl (.char _ _ _ (by simp [*]) (by simp [*]) h)
             · exact Or.inr ⟨h1, h2, .char (by simp [*]) (by simp [*]) h3⟩)

theorem skipBlock_lines (fin : ReadEnd) (fuel : Nat) : ∀ (o c : Bool) (t : Str) ln r ln',
    skipBlockCommentGo fin fuel o c t ln = some (r, ln') →
      ln' + (lineEnds r : Int) = ln + lineEnds t ∧ r.length ≤ t.length := by
  induction fuel with
  | zero => intro o c t ln r ln' h; simp [skipBlockCommentGo] at h
  | succ fuel ih =>
    intro o c t ln r ln' h
    cases t with
    | nil =>
      cases fin <;> simp [skipBlockCommentGo] at h
      obtain ⟨rfl, rfl⟩ := h; simp
    | cons x t =>
      rw [lineEnds_cons]
      simp only [skipBlockCommentGo] at h
      have e : ∀ (a : Int), (if isNewline x = true then a + 1 else a) =
          a + ((if isNewline x = true then 1 else 0 : Nat) : Int) := by intro a; split <;> simp
      rw [e] at h
      simp only [List.length_cons]
      split at h
      · split at h
        · simp only [Option.some.injEq, Prod.mk.injEq] at h
          obtain ⟨rfl, rfl⟩ := h; push_cast; omega
        · have := ih _ _ _ _ _ _ h; push_cast; omega
      · split at h
        · split at h
          · split at h
            · simp at h
            · rename_i heq
              have h1 := ih _ _ _ _ _ _ heq
              have h2 := ih _ _ _ _ _ _ h
              push_cast; omega
          · have := ih _ _ _ _ _ _ h; push_cast; omega
        · have := ih _ _ _ _ _ _ h; push_cast; omega

/-- With enough fuel, more fuel does not change the result. -/
theorem skipBlock_fuel (fin : ReadEnd) (fuel : Nat) : ∀ (fuel' : Nat) (o c : Bool) (t : Str) ln,
    t.length < fuel → fuel ≤ fuel' →
    skipBlockCommentGo fin fuel o c t ln = skipBlockCommentGo fin fuel' o c t ln := by
  induction fuel with
  | zero => intro fuel' o c t ln h; omega
  | succ fuel ih =>
    intro fuel' o c t ln h h'
    obtain ⟨k, rfl⟩ : ∃ k, fuel' = k + 1 := ⟨fuel' - 1, by omega⟩
    cases t with
    | nil => simp [skipBlockCommentGo]
    | cons x t =>
      simp only [List.length_cons] at h
      simp only [skipBlockCommentGo]
      have hk : fuel ≤ k := by omega
      have ht : t.length < fuel := by omega
      rw [ih k true c t _ ht hk, ih k false false t _ ht hk, ih k o true t _ ht hk]
      cases hs : skipBlockCommentGo fin k false false t (if isNewline x = true then ln + 1 else ln) with
      | none => rfl
      | some p =>
        have := (skipBlock_lines _ _ _ _ _ _ _ _ hs).2
        simp only
        rw [ih k false false p.1 _ (by omega) hk]

theorem skipBlock_total (fuel : Nat) : ∀ (o c : Bool) (t : Str) ln, t.length < fuel →
    (skipBlockCommentGo .eof fuel o c t ln).isSome = true := by
  induction fuel with
  | zero => intro o c t ln h; omega
  | succ fuel ih =>
    intro o c t ln h
    cases t with
    | nil => simp [skipBlockCommentGo]
    | cons x t =>
      simp only [List.length_cons] at h
      simp only [skipBlockCommentGo]
      have ht : t.length < fuel := by omega
      split
      · split
        · simp
        · exact ih _ _ _ _ ht
      · split
        · split
          · split
            · rename_i heq
              have := ih false false t (if isNewline x = true then ln + 1 else ln) ht
              rw [heq] at this; simp at this
            · rename_i heq
              have := (skipBlock_lines _ _ _ _ _ _ _ _ heq).2
              exact ih _ _ _ _ (by omega)
          · exact ih _ _ _ _ ht
        · exact ih _ _ _ _ ht

end Asn1go
