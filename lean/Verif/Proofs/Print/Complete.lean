import Verif.Proofs.Print.Sound

/-! Whatever there is notation for can be printed. -/

namespace Asn1go.Print

open Asn1go Spec Spec.Notation Spec.Print

/-- What is known of tokens of a text: names and numbers could be written. -/
inductive Fine (u : Unicode) : Token → Prop
  | upper (c : Char) (w : Str) : Word u (c :: w) → u.isUpper c = true → (∀ code, (c :: w, code) ∉ reservedWords) → Fine u (upper (c :: w))
  | lower (c : Char) (w : Str) : Word u (c :: w) → u.isUpper c = false → Fine u (lower (c :: w))
  | number (r : Str) (n : Nat) : n < 9223372036854775808 → Fine u (num r n)
  | word (code : Int) : Fine u (kw code)

theorem fine_of_lexeme {u : Unicode} {adj : Bool} {sp rest : Str} {code : Int} {p : Payload} (h : Lexeme u adj sp rest code p) :
    Fine u (code, p) := by
  cases h with
  | exponent => exact .word _
  | keyword => exact .word _
  | typeReference c w _ _ h1 h2 _ h3 => exact .upper _ _ h1 h2 h3
  | identifier c w _ _ h1 h2 => exact .lower _ _ h1 h2
  | number w _ _ _ _ h => exact .number _ _ h
  | symbol => exact .word _

theorem fine_of_tokens {u : Unicode} {adj : Bool} {text : Str} {toks : List Token} (h : Tokens u adj text toks) : ∀ t ∈ toks, Fine u t := by
  induction h with
  | nil => simp
  | cons _ _ _ _ _ _ _ _ hl _ ih => exact List.forall_mem_cons.2 ⟨fine_of_lexeme hl, ih⟩

variable {u : Unicode}

/-- All tokens are fine. -/
def F (u : Unicode) (a : List Token) : Prop := ∀ t ∈ a, Fine u t

/-- All tokens can be written. -/
def W (u : Unicode) (a : List Token) : Prop := ∀ t ∈ a, Writable u t

theorem F.append {a b : List Token} : F u (a ++ b) ↔ F u a ∧ F u b := by simp only [F, List.forall_mem_append]
theorem F.cons {t : Token} {b : List Token} : F u (t :: b) ↔ Fine u t ∧ F u b := by simp only [F, List.forall_mem_cons]
theorem W.append {a b : List Token} : W u (a ++ b) ↔ W u a ∧ W u b := by simp only [W, List.forall_mem_append]
theorem W.cons {t : Token} {b : List Token} : W u (t :: b) ↔ Writable u t ∧ W u b := by simp only [W, List.forall_mem_cons]
theorem W.nil : W u [] := by simp [W]

theorem W.word {code : Int} : Writable u (kw code) := .word _

theorem Fine.upper_w {s : Str} (h : Fine u (Notation.upper s)) : Writable u (Notation.upper s) := by
  generalize ht : Notation.upper s = t at h
  cases h with
  | upper c w h1 h2 h3 => exact .upper _ _ h1 h2 h3
  | lower c w h1 h2 => exact .lower _ _ h1 h2
  | number r n h => simp at ht
  | word code => exact .word _

theorem Fine.lower_w {s : Str} (h : Fine u (Notation.lower s)) : Writable u (Notation.lower s) := by
  generalize ht : Notation.lower s = t at h
  cases h with
  | upper c w h1 h2 h3 => exact .upper _ _ h1 h2 h3
  | lower c w h1 h2 => exact .lower _ _ h1 h2
  | number r n h => simp at ht
  | word code => exact .word _

theorem Fine.lower_ne {s : Str} (h : Fine u (Notation.lower s)) : s ≠ [] := by
  generalize ht : Notation.lower s = t at h
  cases h with
  | upper c w h1 h2 h3 => exact absurd (congrArg Prod.fst ht) (show Tok.VALUEIDENTIFIER ≠ Tok.TYPEORMODULEREFERENCE by decide)
  | lower c w h1 h2 => simp at ht; subst ht; simp
  | number r n h => simp at ht
  | word code => simp at ht

theorem Fine.upper_ne {s : Str} (h : Fine u (Notation.upper s)) : s ≠ [] := by
  generalize ht : Notation.upper s = t at h
  cases h with
  | upper c w h1 h2 h3 => simp at ht; subst ht; simp
  | lower c w h1 h2 => exact absurd (congrArg Prod.fst ht) (show Tok.TYPEORMODULEREFERENCE ≠ Tok.VALUEIDENTIFIER by decide)
  | number r n h => simp at ht
  | word code => simp at ht

theorem Fine.number_w {r : Str} {n : Nat} (h : Fine u (num r n)) : Writable u (Print.number n) := by
  generalize ht : num r n = t at h
  cases h with
  | upper c w h1 h2 h3 => simp at ht
  | lower c w h1 h2 => simp at ht
  | number r n h =>
    simp at ht
    obtain ⟨_, rfl⟩ := ht
    exact .number _ h
  | word code => simp at ht

theorem zero_w : Writable u (number 0) := .number _ (by decide)

theorem x_w : Writable u (Notation.lower (c! "x")) := by
  have hx : u.isLetter 'x' = true := by rw [u.letter_ascii 'x' (by decide)]; decide
  refine .lower 'x' [] ⟨⟨'x', [], rfl, hx⟩, ?_, by decide, by decide⟩ (by rw [u.upper_ascii 'x' (by decide)]; decide)
  intro c hc
  simp only [List.mem_singleton] at hc
  subst hc
  exact .inl hx

section lists

variable {α : Type}

theorem all_append (f : α → Option (List Token)) : ∀ (l m : List α), all f (l ++ m) = (all f l).bind fun a => (all f m).bind fun b => some (a ++ b)
  | [], m => by simp [all]
  | x :: l, m => by
    simp only [List.cons_append, all, all_append f l m]
    cases f x <;> simp
    cases all f l <;> simp
    cases all f m <;> simp

/-- The list can be printed. -/
def Prints (u : Unicode) (f : α → Option (List Token)) (l : List α) : Prop := ∃ bs, all f l = some bs ∧ ∀ b ∈ bs, W u b

theorem Prints.nil {f : α → Option (List Token)} : Prints u f [] := ⟨[], rfl, by simp⟩

theorem Prints.one {f : α → Option (List Token)} {x : α} {a : List Token} (h : f x = some a) (hw : W u a) : Prints u f [x] :=
  ⟨[a], by simp [all, h], by simpa using hw⟩

theorem Prints.append {f : α → Option (List Token)} {l m : List α} (hl : Prints u f l) (hm : Prints u f m) : Prints u f (l ++ m) := by
  obtain ⟨a, ha, hwa⟩ := hl
  obtain ⟨b, hb, hwb⟩ := hm
  refine ⟨a ++ b, by simp [all_append, ha, hb], ?_⟩
  intro x hx
  rcases List.mem_append.1 hx with h | h
  · exact hwa x h
  · exact hwb x h

theorem W.sep {code : Int} : ∀ {bs : List (List Token)}, (∀ b ∈ bs, W u b) → W u (sep code bs)
  | [], _ => W.nil
  | [a], h => h a (by simp)
  | a :: b :: l, h => by
    have := W.sep (code := code) (bs := b :: l) (fun x hx => h x (by simp [hx]))
    simp only [Print.sep, W.append, W.cons]
    exact ⟨h a (by simp), W.word, this⟩

theorem W.flatten : ∀ {bs : List (List Token)}, (∀ b ∈ bs, W u b) → W u bs.flatten
  | [], _ => W.nil
  | a :: l, h => by
    simp only [List.flatten_cons, W.append]
    exact ⟨h a (by simp), W.flatten (fun x hx => h x (by simp [hx]))⟩

theorem all_length {f : α → Option (List Token)} : ∀ {l : List α} {bs : List (List Token)}, all f l = some bs → bs.length = l.length
  | [], bs, h => by simp [all] at h; subst h; rfl
  | x :: l, bs, h => by
    simp only [all, Option.bind_eq_some_iff, Option.some.injEq] at h
    obtain ⟨a, _, b, hb, rfl⟩ := h
    simp [all_length hb]

theorem all_empty {f : α → Option (List Token)} {l : List α} {bs : List (List Token)} (h : all f l = some bs) : bs.isEmpty = l.isEmpty := by
  have := all_length h
  cases l <;> cases bs <;> simp_all

theorem all_ne {f : α → Option (List Token)} {l : List α} {bs : List (List Token)} (h : all f l = some bs) (hn : l ≠ []) : bs ≠ [] := by
  have := all_length h
  cases l <;> cases bs <;> simp_all

end lists

theorem W.braces {a : List Token} (h : W u a) : W u (braces a) := by
  simp only [Print.braces, W.cons, W.append]
  exact ⟨W.word, h, W.word, W.nil⟩

theorem W.round {a : List Token} (h : W u a) : W u (round a) := by
  simp only [Print.round, W.cons, W.append]
  exact ⟨W.word, h, W.word, W.nil⟩

theorem natural_cast (n : Nat) : natural n = some (number n) := by simp [natural]

theorem defined_w {a d} (h : DefinedText a d) (hf : F u a) : W u (defined d) := by
  cases h with
  | ext m v =>
    simp only [F.cons] at hf
    have := hf.1.upper_ne
    simp only [defined, this, ↓reduceIte, W.cons]
    exact ⟨hf.1.upper_w, W.word, hf.2.2.1.lower_w, W.nil⟩
  | plain v =>
    simp only [F.cons] at hf
    simp only [defined, ↓reduceIte, W.cons]
    exact ⟨hf.1.lower_w, W.nil⟩

theorem signed_cast {r : Str} {n : Nat} (h : Fine u (num r n)) : W u (signed n) ∧ W u (signed (-n)) := by
  have hn := h.number_w
  constructor <;> simp only [signed] <;> split <;> simp only [W.cons, Int.natAbs_neg, Int.natAbs_natCast] <;>
    first | exact ⟨W.word, hn, W.nil⟩ | exact ⟨hn, W.nil⟩

theorem signed_w {a n} (h : SignedText a n) (hf : F u a) : W u (signed n) := by
  cases h with
  | pos r n => simp only [F.cons] at hf; exact (signed_cast hf.1).1
  | neg r n => simp only [F.cons] at hf; exact (signed_cast hf.2.1).2

theorem exponent_w {a n} (h : ExponentText a n) (hf : F u a) : W u (signed n) := by
  cases h with
  | pos r n => simp only [F.cons] at hf; exact (signed_cast hf.1).1
  | neg r n => simp only [F.cons] at hf; exact (signed_cast hf.2.1).2

theorem namedNumber_c {a x} (h : NamedNumberText a x) (hf : F u a) : ∃ b, namedNumber x = some b ∧ W u b := by
  cases h with
  | number s a n h =>
    simp only [F.cons, F.append] at hf
    exact ⟨_, rfl, W.cons.2 ⟨hf.1.lower_w, W.round (signed_w h hf.2.2.1)⟩⟩
  | defined s a d h =>
    simp only [F.cons, F.append] at hf
    exact ⟨_, rfl, W.cons.2 ⟨hf.1.lower_w, W.round (defined_w h hf.2.2.1)⟩⟩

theorem namedNumbers_c {a l} (h : NamedNumbersText a l) (hf : F u a) : Prints u namedNumber l ∧ l ≠ [] := by
  induction h with
  | one a x h =>
    obtain ⟨b, hb, hw⟩ := namedNumber_c h hf
    exact ⟨.one hb hw, by simp⟩
  | snoc a b l x _ h ih =>
    simp only [F.cons, F.append] at hf
    obtain ⟨c, hc, hw⟩ := namedNumber_c h hf.2.2
    exact ⟨.append (ih hf.1).1 (.one hc hw), by simp⟩

theorem enumItem_c {a x} (h : EnumItemText a x) (hf : F u a) : ∃ b, enumItem x = some b ∧ W u b := by
  cases h with
  | number a x h => exact namedNumber_c h hf
  | name s =>
    simp only [F.cons] at hf
    exact ⟨_, rfl, W.cons.2 ⟨hf.1.lower_w, W.nil⟩⟩

theorem enum_c {a l} (h : EnumText a l) (hf : F u a) : Prints u enumItem l ∧ l ≠ [] := by
  induction h with
  | one a x h =>
    obtain ⟨b, hb, hw⟩ := enumItem_c h hf
    exact ⟨.one hb hw, by simp⟩
  | cons a b x l h _ ih =>
    simp only [F.cons, F.append] at hf
    obtain ⟨c, hc, hw⟩ := enumItem_c h hf.1
    exact ⟨.append (l := [x]) (.one hc hw) (ih hf.2.2).1, by simp⟩

theorem literal_c {a x} (h : RealText a x) (hf : F u a) : ∃ b, literal x = some b ∧ W u b := by
  cases h with
  | fraction r s i f =>
    simp only [F.cons] at hf
    refine ⟨_, by simp only [literal, natural_cast, Option.bind_some, ↓reduceIte]; rfl, ?_⟩
    simp only [W.cons]
    exact ⟨hf.1.number_w, W.word, hf.2.2.1.number_w, W.nil⟩
  | both r s i f a e h =>
    simp only [F.cons] at hf
    refine ⟨_, by simp only [literal, natural_cast, Option.bind_some]; rfl, ?_⟩
    split <;> simp only [W.cons]
    · exact ⟨hf.1.number_w, W.word, hf.2.2.1.number_w, W.nil⟩
    · exact ⟨hf.1.number_w, W.word, hf.2.2.1.number_w, W.word, exponent_w h hf.2.2.2.2⟩
  | exponent r i a e h =>
    simp only [F.cons] at hf
    refine ⟨_, by simp only [literal, natural_cast, Option.bind_some, show natural 0 = some (number 0) from rfl]; rfl, ?_⟩
    split <;> simp only [W.cons]
    · exact ⟨hf.1.number_w, W.word, zero_w, W.nil⟩
    · exact ⟨hf.1.number_w, W.word, zero_w, W.word, exponent_w h hf.2.2⟩

theorem oidElement_c {a e} (h : OidElementText Links.written a e) (hf : F u a) :
    ∃ b, oidElement e = some b ∧ oidComponent e = some b ∧ W u b := by
  cases h with
  | number r n =>
    simp only [F.cons] at hf
    refine ⟨[number n], by simp [oidElement, natural_cast], by simp [oidComponent, oidElement, natural_cast], ?_⟩
    exact W.cons.2 ⟨hf.1.number_w, W.nil⟩
  | nameNumber s r n =>
    simp only [F.cons] at hf
    have := hf.1.lower_ne
    refine ⟨lower s :: round [number n], by simp [oidElement, natural_cast, this], by simp [oidComponent, oidElement, natural_cast, this], ?_⟩
    exact W.cons.2 ⟨hf.1.lower_w, W.round (W.cons.2 ⟨hf.2.2.1.number_w, W.nil⟩)⟩
  | nameDefined s a d h =>
    simp only [F.cons, F.append] at hf
    have := hf.1.lower_ne
    refine ⟨lower s :: round (defined d), by simp [oidElement, this, Links.written], by simp [oidComponent, oidElement, this, Links.written], ?_⟩
    exact W.cons.2 ⟨hf.1.lower_w, W.round (defined_w h hf.2.2.1)⟩

theorem oidComponent_c {a e} (h : OidComponentText Links.written a e) (hf : F u a) : ∃ b, oidComponent e = some b ∧ W u b := by
  cases h with
  | element _ h =>
    obtain ⟨b, _, hb, hw⟩ := oidElement_c h hf
    exact ⟨b, hb, hw⟩
  | defined d h => exact ⟨defined d, by simp [oidComponent, Links.written], defined_w h hf⟩

theorem oidComponents_c {a l} (h : OidComponentsText Links.written a l) (hf : F u a) : Prints u oidComponent l ∧ l ≠ [] := by
  induction h with
  | one a x h =>
    obtain ⟨b, hb, hw⟩ := oidComponent_c h hf
    exact ⟨.one hb hw, by simp⟩
  | cons a b x l h _ ih =>
    simp only [F.append] at hf
    obtain ⟨c, hc, hw⟩ := oidComponent_c h hf.1
    exact ⟨.append (l := [x]) (.one hc hw) (ih hf.2).1, by simp⟩

variable {simple : Bool}

theorem oid_c {a l} (h : OidText Links.written simple a l) (hf : F u a) : ∃ b, oid simple l = some b ∧ W u b := by
  cases h with
  | one a e h =>
    simp only [F.cons, F.append] at hf
    obtain ⟨b, hb, hw⟩ := oidComponent_c h hf.2.1
    exact ⟨braces b, by simp [oid, hb], W.braces hw⟩
  | many a b e l h h' =>
    simp only [F.cons, F.append] at hf
    obtain ⟨c, hc, hc', hw⟩ := oidElement_c h hf.2.1
    obtain ⟨⟨d, hd, hw'⟩, hn⟩ := oidComponents_c h' hf.2.2.1
    cases l with
    | nil => exact absurd rfl hn
    | cons f l =>
      refine ⟨braces (c ++ d.flatten), ?_, W.braces (W.append.2 ⟨hw, W.flatten hw'⟩)⟩
      simp only [oid, hc, hc', hd, ite_self, Option.bind_some]
  | head a b d l hs h h' =>
    simp only [F.cons, F.append] at hf
    obtain ⟨⟨e, he, hw'⟩, hn⟩ := oidComponents_c h' hf.2.2.1
    subst hs
    cases l with
    | nil => exact absurd rfl hn
    | cons f l =>
      refine ⟨braces (defined d ++ e.flatten), ?_, W.braces (W.append.2 ⟨defined_w h hf.2.1, W.flatten hw'⟩)⟩
      simp [oid, oidComponent, he, Links.written]

theorem value_c {a v} (h : ValueText Links.written simple a v) (hf : F u a) : ∃ b, value simple v = some b ∧ v ≠ .nil ∧ W u b := by
  cases h with
  | true => exact ⟨_, rfl, by simp, W.cons.2 ⟨W.word, W.nil⟩⟩
  | false => exact ⟨_, rfl, by simp, W.cons.2 ⟨W.word, W.nil⟩⟩
  | number a n h => exact ⟨_, rfl, by simp, signed_w h hf⟩
  | name s => exact ⟨_, rfl, by simp, W.cons.2 ⟨(F.cons.1 hf).1.lower_w, W.nil⟩⟩
  | oid a l h =>
    obtain ⟨b, hb, hw⟩ := oid_c h hf
    exact ⟨b, hb, by simp, hw⟩
  | real a x h =>
    obtain ⟨b, hb, hw⟩ := literal_c h hf
    refine ⟨b, ?_, by simp, hw⟩
    cases x <;> simp only [literal, reduceCtorEq] at hb
    simpa only [value, real, literal] using hb
  | minusReal a x h =>
    simp only [F.cons] at hf
    obtain ⟨b, hb, hw⟩ := literal_c h hf.2
    exact ⟨kw Tok.MINUS :: b, by simp [value, real, hb], by simp, W.cons.2 ⟨W.word, hw⟩⟩
  | plusInfinity => exact ⟨_, rfl, by simp, W.cons.2 ⟨W.word, W.nil⟩⟩
  | minusInfinity => exact ⟨_, rfl, by simp, W.cons.2 ⟨W.word, W.nil⟩⟩

theorem namedBit_c {a} {x : NamedBit DV} (h : NamedBitText a x) (hf : F u a) : ∃ b, namedBit x = some b ∧ W u b := by
  cases h with
  | number s r n =>
    simp only [F.cons] at hf
    exact ⟨lower s :: round [number n], by simp [namedBit, natural_cast], W.cons.2 ⟨hf.1.lower_w, W.round (W.cons.2 ⟨hf.2.2.1.number_w, W.nil⟩)⟩⟩
  | defined s a d h =>
    simp only [F.cons, F.append] at hf
    exact ⟨_, rfl, W.cons.2 ⟨hf.1.lower_w, W.round (defined_w h hf.2.2.1)⟩⟩

theorem namedBits_c {a} {l : List (NamedBit DV)} (h : NamedBitsText a l) (hf : F u a) : Prints u namedBit l ∧ l ≠ [] := by
  induction h with
  | one a x h =>
    obtain ⟨b, hb, hw⟩ := namedBit_c h hf
    exact ⟨.one hb hw, by simp⟩
  | snoc a b l x _ h ih =>
    simp only [F.cons, F.append] at hf
    obtain ⟨c, hc, hw⟩ := namedBit_c h hf.2.2
    exact ⟨.append (ih hf.1).1 (.one hc hw), by simp⟩

theorem class_c {a c} (h : ClassText a c) : ∃ b, cls c = some b ∧ W u b := by
  cases h
  · exact ⟨_, rfl, W.cons.2 ⟨W.word, W.nil⟩⟩
  · exact ⟨_, rfl, W.cons.2 ⟨W.word, W.nil⟩⟩
  · exact ⟨_, rfl, W.cons.2 ⟨W.word, W.nil⟩⟩
  · exact ⟨_, rfl, W.nil⟩

theorem tag_c {a} {t : Tag DV} (h : TagText a t) (hf : F u a) : ∃ b, tag t = some b ∧ W u b := by
  cases h with
  | number a c r n h =>
    simp only [F.cons, F.append] at hf
    obtain ⟨b, hb, hw⟩ := class_c (u := u) h
    exact ⟨_, by simp only [tag, hb, Option.bind_some, natural_cast]; rfl, by
      simp only [W.cons, W.append]; exact ⟨W.word, hw, hf.2.2.1.number_w, W.word, W.nil⟩⟩
  | defined a b c d h h' =>
    simp only [F.cons, F.append] at hf
    obtain ⟨b, hb, hw⟩ := class_c (u := u) h
    exact ⟨_, by simp only [tag, hb, Option.bind_some]; rfl, by
      simp only [W.cons, W.append]; exact ⟨W.word, hw, defined_w h' hf.2.2.1, W.word, W.nil⟩⟩

theorem tagging_c {a i x} (h : TaggingText a i x) : ∃ b, tagging i x = some b ∧ W u b := by
  cases h
  · exact ⟨_, rfl, W.nil⟩
  · exact ⟨_, rfl, W.cons.2 ⟨W.word, W.nil⟩⟩
  · exact ⟨_, rfl, W.cons.2 ⟨W.word, W.nil⟩⟩

theorem bound_eq {code : Int} {v : Value DV} (h : v ≠ .nil) : bound simple code v = value simple v := by
  cases v <;> first | rfl | exact absurd rfl h

theorem lower_c {a v} (h : LowerText Links.written simple a v) (hf : F u a) : ∃ b, bound simple Tok.MIN v = some b ∧ W u b := by
  cases h with
  | value _ _ h =>
    obtain ⟨b, hb, hn, hw⟩ := value_c h hf
    exact ⟨b, by rw [bound_eq hn, hb], hw⟩
  | min => exact ⟨_, rfl, W.cons.2 ⟨W.word, W.nil⟩⟩

theorem upper_c {a v} (h : UpperText Links.written simple a v) (hf : F u a) : ∃ b, bound simple Tok.MAX v = some b ∧ W u b := by
  cases h with
  | value _ _ h =>
    obtain ⟨b, hb, hn, hw⟩ := value_c h hf
    exact ⟨b, by rw [bound_eq hn, hb], hw⟩
  | max => exact ⟨_, rfl, W.cons.2 ⟨W.word, W.nil⟩⟩

theorem range_c {a v w} (h : RangeText Links.written simple a v w) (hf : F u a) : ∃ b, range simple v w = some b ∧ W u b := by
  rcases h with ⟨_, _, _, _, h, h'⟩ | ⟨_, _, _, _, h, h'⟩ | ⟨_, _, _, _, h, h'⟩ | ⟨_, _, _, _, h, h'⟩ <;>
    · simp only [F.cons, F.append] at hf
      obtain ⟨b, hb, hw⟩ := lower_c h (by tauto)
      obtain ⟨c, hc, hw'⟩ := upper_c h' (by tauto)
      refine ⟨_, by simp only [range, hb, hc, Option.bind_some]; rfl, ?_⟩
      simp only [W.cons, W.append, ↓reduceIte, Bool.false_eq_true]
      simp only [W.word, W.nil, hw, hw', and_self]

theorem typeName_w {s : Str} (h : Writable u (upper s)) : Writable u (typeName s) := by
  unfold typeName
  split
  · exact .word _
  split
  · exact .word _
  · exact h

theorem nonempty_c {α : Type} {l : List α} (h : l ≠ []) : nonempty l = some l := by
  cases l <;> simp_all [nonempty]

theorem namedTypes_all : ∀ l : List (NamedType DV DD), namedTypes simple l = all (namedType simple) l
  | [] => by simp [namedTypes, all]
  | x :: l => by simp only [namedTypes, all, namedTypes_all l]

theorem namedAll_all : ∀ l : List (NamedType DV DD), namedAll simple (l.map .named) = all (namedType simple) l
  | [] => by simp [namedAll, all]
  | x :: l => by simp only [List.map_cons, namedAll, all, namedAll_all l]

theorem components_all : ∀ l : List (ComponentType DV DD), components simple l = all (component simple) l
  | [] => by simp [components, all]
  | x :: l => by simp only [components, all, components_all l]

theorem intersections_all : ∀ l : List (IntersectionElements DV DD), intersections simple l = all (except simple) l
  | [] => by simp [intersections, all]
  | x :: l => by simp only [intersections, all, intersections_all l]

/-- One of the sets of a union. -/
def union1 (simple : Bool) (x : List (IntersectionElements DV DD)) : Option (List Token) :=
  (all (except simple) x).bind fun a => (nonempty a).bind fun a => some (sep Tok.CARET a)

theorem unions_all : ∀ l : List (List (IntersectionElements DV DD)), unions simple l = all (union1 simple) l
  | [] => by simp [unions, all]
  | x :: l => by
    simp only [unions, all, unions_all l, union1, intersections_all]
    cases all (except simple) x <;> simp
    rename_i a
    cases nonempty a <;> simp

/-- The type can be printed at a place. -/
def TypePrints (u : Unicode) (simple c : Bool) (t : Ty DV DD) : Prop :=
  ∃ b, (∀ p : Place, (p = .constrained → c = true) → type simple p t = some b) ∧ W u b

theorem TypePrints.word {c : Bool} {t : Ty DV DD} {b : List Token} (h : ∀ p, type simple p t = some b) (hw : W u b) :
    TypePrints u simple c t := ⟨b, fun p _ => h p, hw⟩

theorem body_w {a b : List (List Token)} (ha : ∀ x ∈ a, W u x) (hb : ∀ x ∈ b, W u x) (h : a = [] → b = []) : ∃ d, body a b = some d ∧ W u d := by
  cases a with
  | nil => rw [h rfl]; exact ⟨_, rfl, W.nil⟩
  | cons x a =>
    cases b with
    | nil => exact ⟨_, rfl, W.sep ha⟩
    | cons y b =>
      refine ⟨_, rfl, ?_⟩
      simp only [W.append, W.cons]
      exact ⟨W.sep ha, W.word, W.word, W.word, W.sep hb⟩

theorem alternatives_w {a b : List (List Token)} (ha : ∀ x ∈ a, W u x) (hb : ∀ x ∈ b, W u x) : W u (alternatives a b) := by
  cases a with
  | nil =>
    cases b with
    | nil => exact W.cons.2 ⟨W.word, W.nil⟩
    | cons y b =>
      simp only [alternatives, W.cons]
      exact ⟨W.word, W.word, W.sep hb⟩
  | cons x a =>
    cases b with
    | nil => exact W.sep ha
    | cons y b =>
      simp only [alternatives, W.append, W.cons]
      exact ⟨W.sep ha, W.word, W.word, W.word, W.sep hb⟩

theorem choice_c {c : Bool} {l e : List (NamedType DV DD)} (hl : Prints u (namedType simple) l) (he : Prints u (namedType simple) e) :
    TypePrints u simple c (.choice l (e.map .named)) := by
  obtain ⟨a, ha, hwa⟩ := hl
  obtain ⟨b, hb, hwb⟩ := he
  refine .word (b := kw Tok.CHOICE :: braces (alternatives a b)) (fun p => ?_) (W.cons.2 ⟨W.word, W.braces (alternatives_w hwa hwb)⟩)
  simp only [type, namedTypes_all, namedAll_all, ha, hb, Option.bind_some]

theorem body_c {l e : List (ComponentType DV DD)} (h : Prints u (component simple) l ∧ Prints u (component simple) e ∧ (l = [] → e = [])) :
    ∃ a b d, components simple l = some a ∧ components simple e = some b ∧ body a b = some d ∧ W u d := by
  obtain ⟨⟨a, ha, hwa⟩, ⟨b, hb, hwb⟩, hn⟩ := h
  have : a = [] → b = [] := by
    have h1 := all_length ha
    have h2 := all_length hb
    rintro rfl
    cases l with
    | nil => rw [hn rfl] at h2; simpa using h2
    | cons => simp at h1
  obtain ⟨d, hd, hw⟩ := body_w hwa hwb this
  exact ⟨a, b, d, by rw [components_all, ha], by rw [components_all, hb], hd, hw⟩

theorem constrained_c {c : Bool} {t : Ty DV DD} {k : Constraint DV DD} (ht : TypePrints u simple true t)
    (hk : ∃ b, constraint simple k = some b ∧ W u b) : TypePrints u simple c (.constrained t k) := by
  obtain ⟨a, ha, hwa⟩ := ht
  obtain ⟨b, hb, hwb⟩ := hk
  have ha := ha .constrained (by simp)
  refine .word (b := a ++ b) (fun p => ?_) (W.append.2 ⟨hwa, hwb⟩)
  cases t <;> first
    | (exfalso; simp [type] at ha; done)
    | (rw [type.eq_def]; simp only [ha, hb, Option.bind_some])

theorem ofConstrained_c {t : Ty DV DD} {k : Constraint DV DD} (ht : ∃ b, type simple .element t = some b ∧ W u b)
    (hk : ∃ b, constraint simple k = some b ∧ W u b) :
    TypePrints u simple false (.constrained (.sequenceOf t) k) ∧ TypePrints u simple false (.constrained (.setOf t) k) := by
  obtain ⟨a, ha, hwa⟩ := ht
  obtain ⟨b, hb, hwb⟩ := hk
  constructor
  · refine ⟨kw Tok.SEQUENCE :: (b ++ kw Tok.OF :: a), fun p hp => ?_, by simp only [W.cons, W.append]; exact ⟨W.word, hwb, W.word, hwa⟩⟩
    have : p ≠ .constrained := fun h => by simpa using hp h
    simp only [type, this, ↓reduceIte, ha, hb, Option.bind_some]
  · refine ⟨kw Tok.SET :: (b ++ kw Tok.OF :: a), fun p hp => ?_, by simp only [W.cons, W.append]; exact ⟨W.word, hwb, W.word, hwa⟩⟩
    have : p ≠ .constrained := fun h => by simpa using hp h
    simp only [type, this, ↓reduceIte, ha, hb, Option.bind_some]

theorem of_c {t : Ty DV DD} (ht : ∃ b, type simple .element t = some b ∧ W u b) :
    TypePrints u simple false (.sequenceOf t) ∧ TypePrints u simple false (.setOf t) := by
  obtain ⟨a, ha, hwa⟩ := ht
  constructor
  · refine ⟨kw Tok.SEQUENCE :: kw Tok.OF :: a, fun p hp => ?_, by simp only [W.cons]; exact ⟨W.word, W.word, hwa⟩⟩
    have : p ≠ .constrained := fun h => by simpa using hp h
    simp only [type, this, ↓reduceIte, ha, Option.bind_some]
  · refine ⟨kw Tok.SET :: kw Tok.OF :: a, fun p hp => ?_, by simp only [W.cons]; exact ⟨W.word, W.word, hwa⟩⟩
    have : p ≠ .constrained := fun h => by simpa using hp h
    simp only [type, this, ↓reduceIte, ha, Option.bind_some]

theorem tagged_c {g : Tag DV} {t : Ty DV DD} {i : Int} {x : Bool} (hg : ∃ b, tag g = some b ∧ W u b) (hi : ∃ b, tagging i x = some b ∧ W u b)
    (ht : TypePrints u simple false t) : TypePrints u simple false (.tagged g t i x) := by
  obtain ⟨a, ha, hwa⟩ := hg
  obtain ⟨b, hb, hwb⟩ := hi
  obtain ⟨d, hd, hwd⟩ := ht
  refine ⟨a ++ (b ++ d), fun p hp => ?_, by simp only [W.append]; exact ⟨hwa, hwb, hwd⟩⟩
  have : p ≠ .constrained := fun h => by simpa using hp h
  simp only [type, this, ↓reduceIte, ha, hb, hd .other (by simp), Option.bind_some]

theorem W.one {code : Int} : W u [kw code] := W.cons.2 ⟨W.word, W.nil⟩

theorem unions_c {l : List (List (IntersectionElements DV DD))} (h : Prints u (union1 simple) l) (hn : l ≠ []) :
    (∃ b, valueSet simple (.unions l) = some b ∧ W u b) ∧ (∃ b, elements simple (.unions l) = some b ∧ W u b) := by
  obtain ⟨a, ha, hw⟩ := h
  have := nonempty_c (all_ne ha hn)
  constructor
  · exact ⟨sep Tok.PIPE a, by simp only [valueSet, unions_all, ha, this, Option.bind_some], W.sep hw⟩
  · exact ⟨round (sep Tok.PIPE a), by simp only [elements, unions_all, ha, this, Option.bind_some], W.round (W.sep hw)⟩

theorem union1_c {x : List (IntersectionElements DV DD)} (h : Prints u (except simple) x) (hn : x ≠ []) : ∃ b, union1 simple x = some b ∧ W u b := by
  obtain ⟨a, ha, hw⟩ := h
  have := nonempty_c (all_ne ha hn)
  exact ⟨sep Tok.CARET a, by simp only [union1, ha, this, Option.bind_some], W.sep hw⟩

mutual

theorem type_c : ∀ {c : Bool} {a : List Token} {t : Ty DV DD}, TypeText Links.written simple c a t → F u a → TypePrints u simple c t
  | _, _, _, .boolean _, _ => .word (fun _ => by rw [type]) W.one
  | _, _, _, .integer _, _ => .word (fun _ => by simp only [type, all, Option.bind_some, List.isEmpty_nil, ↓reduceIte]; try rfl) W.one
  | _, _, _, .integerNames _ a l h, hf => by
    simp only [F.cons, F.append] at hf
    obtain ⟨⟨b, hb, hw⟩, hn⟩ := namedNumbers_c h hf.2.2.1
    have := all_ne hb hn
    refine .word (b := kw Tok.INTEGER :: braces (commas b)) (fun _ => ?_) (W.cons.2 ⟨W.word, W.braces (W.sep hw)⟩)
    simp only [type, hb, Option.bind_some, List.isEmpty_iff, this, ↓reduceIte]
  | _, _, _, .enumerated _ a l h, hf => by
    simp only [F.cons, F.append] at hf
    obtain ⟨⟨b, hb, hw⟩, hn⟩ := enum_c h hf.2.2.1
    refine .word (b := kw Tok.ENUMERATED :: braces (commas b)) (fun _ => ?_) (W.cons.2 ⟨W.word, W.braces (W.sep hw)⟩)
    simp only [type, hb, Option.bind_some, nonempty_c hn, List.isEmpty_nil, ↓reduceIte]
  | _, _, _, .real _, _ => .word (fun _ => by rw [type]) W.one
  | _, _, _, .bitString _, _ => .word (fun _ => by simp only [type, all, Option.bind_some, List.isEmpty_nil, ↓reduceIte]; try rfl) (W.cons.2 ⟨W.word, W.one⟩)
  | _, _, _, .bitStringNames _ a l h, hf => by
    simp only [F.cons, F.append] at hf
    obtain ⟨⟨b, hb, hw⟩, hn⟩ := namedBits_c h hf.2.2.2.1
    have := all_ne hb hn
    refine .word (b := kw Tok.BIT :: kw Tok.STRING :: braces (commas b)) (fun _ => ?_) (W.cons.2 ⟨W.word, W.cons.2 ⟨W.word, W.braces (W.sep hw)⟩⟩)
    simp only [type, hb, Option.bind_some, List.isEmpty_iff, this, ↓reduceIte]
  | _, _, _, .octetString _, _ => .word (fun _ => by rw [type]) (W.cons.2 ⟨W.word, W.one⟩)
  | _, _, _, .null _, _ => .word (fun _ => by rw [type]) W.one
  | _, _, _, .objectIdentifier _, _ => .word (fun _ => by rw [type]) (W.cons.2 ⟨W.word, W.one⟩)
  | _, _, _, .any _, _ => .word (fun _ => by rw [type]; rfl) W.one
  | _, _, _, .anyDefinedBy _ s, hf => by
    simp only [F.cons] at hf
    refine .word (fun _ => by rw [type]) ?_
    split
    · exact W.one
    · simp only [W.cons]
      exact ⟨W.word, W.word, W.word, hf.2.2.2.1.lower_w, W.nil⟩
  | _, _, _, .string _ code h, _ => .word (fun _ => by simp only [type, h, ↓reduceIte]; try rfl) W.one
  | _, _, _, .characterString _, _ => .word (fun _ => by rw [type]) (W.cons.2 ⟨W.word, W.one⟩)
  | _, _, _, .generalizedTime _, _ => .word (fun _ => by rw [type]; rfl) W.one
  | _, _, _, .utcTime _, _ => .word (fun _ => by rw [type]; rfl) W.one
  | _, _, _, .ref _ s, hf => .word (fun _ => by rw [type]) (W.cons.2 ⟨typeName_w (F.cons.1 hf).1.upper_w, W.nil⟩)
  | _, _, _, .choice _ a l h, hf => by
    simp only [F.cons, F.append] at hf
    exact choice_c (e := []) (namedTypes_c h hf.2.2.1).1 .nil
  | _, _, _, .choiceMore _ a b d l e h _ h', hf => by
    simp only [F.cons, F.append] at hf
    obtain ⟨e', rfl, he⟩ := alternatives_c h' hf.2.2.2.2.2.2.1
    exact choice_c (namedTypes_c h hf.2.2.1).1 he
  | _, _, _, .choiceOpen _ b d e _ h', hf => by
    simp only [F.cons, F.append] at hf
    obtain ⟨e', rfl, he⟩ := alternatives_c h' hf.2.2.2.2.1
    exact choice_c .nil he
  | _, _, _, .sequence _ a l e h, hf => by
    simp only [F.cons, F.append] at hf
    obtain ⟨a, b, d, ha, hb, hd, hw⟩ := body_c (bodyText_c h hf.2.2.1)
    exact .word (fun _ => by simp only [type, ha, hb, hd, Option.bind_some]; try rfl) (W.cons.2 ⟨W.word, W.braces hw⟩)
  | _, _, _, .set _ a l e h, hf => by
    simp only [F.cons, F.append] at hf
    obtain ⟨a, b, d, ha, hb, hd, hw⟩ := body_c (bodyText_c h hf.2.2.1)
    exact .word (fun _ => by simp only [type, ha, hb, hd, Option.bind_some]; try rfl) (W.cons.2 ⟨W.word, W.braces hw⟩)
  | _, _, _, .tagged a b d g i x t hg hi ht, hf => by
    simp only [F.append] at hf
    exact tagged_c (tag_c hg hf.1) (tagging_c hi) (type_c ht hf.2.2)
  | _, _, _, .sequenceOf a t h, hf => (of_c (elementType_c h (F.cons.1 (F.cons.1 hf).2).2)).1
  | _, _, _, .setOf a t h, hf => (of_c (elementType_c h (F.cons.1 (F.cons.1 hf).2).2)).2
  | _, _, _, .constrained c a b t k h h', hf => constrained_c (type_c h (F.append.1 hf).1) (constraint_c h' (F.append.1 hf).2)
  | _, _, _, .constrainedSequenceOf a b t k h h', hf => by
    simp only [F.cons, F.append] at hf
    exact (ofConstrained_c (elementType_c h' hf.2.2.2) (ofConstraint_c h hf.2.1)).1
  | _, _, _, .constrainedSetOf a b t k h h', hf => by
    simp only [F.cons, F.append] at hf
    exact (ofConstrained_c (elementType_c h' hf.2.2.2) (ofConstraint_c h hf.2.1)).2

theorem elementType_c : ∀ {a : List Token} {t : Ty DV DD}, ElementTypeText Links.written simple a t → F u a →
    ∃ b, type simple .element t = some b ∧ W u b
  | _, _, .type a t h, hf => by
    obtain ⟨b, hb, hw⟩ := type_c h hf
    exact ⟨b, hb _ (by simp), hw⟩
  | _, _, .named a n h, hf => by
    obtain ⟨b, hb, hw⟩ := namedType_c h hf
    exact ⟨b, by simp only [type, ↓reduceIte, hb]; try rfl, hw⟩

theorem ofConstraint_c : ∀ {a : List Token} {k : Constraint DV DD}, OfConstraintText Links.written simple a k → F u a →
    ∃ b, constraint simple k = some b ∧ W u b
  | _, _, .constraint a k h, hf => constraint_c h hf
  | _, _, .size a k h, hf => by
    obtain ⟨b, hb, hw⟩ := constraint_c h (F.cons.1 hf).2
    refine ⟨round (kw Tok.SIZE :: b), ?_, W.round (W.cons.2 ⟨W.word, hw⟩)⟩
    simp [constraint, constraintSpec, valueSet, unions, intersections, except, elements, hb, nonempty, sep]

theorem namedType_c : ∀ {a : List Token} {n : NamedType DV DD}, NamedTypeText Links.written simple a n → F u a →
    ∃ b, namedType simple n = some b ∧ W u b
  | _, _, .mk s a t h, hf => by
    obtain ⟨b, hb, hw⟩ := type_c h (F.cons.1 hf).2
    exact ⟨lower s :: b, by simp only [namedType, hb .other (by simp), Option.bind_some]; try rfl, W.cons.2 ⟨(F.cons.1 hf).1.lower_w, hw⟩⟩

theorem namedTypes_c : ∀ {a : List Token} {l : List (NamedType DV DD)}, NamedTypesText Links.written simple a l → F u a →
    Prints u (namedType simple) l ∧ l ≠ []
  | _, _, .one a x h, hf => by
    obtain ⟨b, hb, hw⟩ := namedType_c h hf
    exact ⟨.one hb hw, by simp⟩
  | _, _, .snoc a b l x h h', hf => by
    simp only [F.cons, F.append] at hf
    obtain ⟨c, hc, hw⟩ := namedType_c h' hf.2.2
    exact ⟨.append (namedTypes_c h hf.1).1 (.one hc hw), by simp⟩

theorem alternatives_c : ∀ {a : List Token} {l : List (Ty DV DD)}, AlternativesText Links.written simple a l → F u a →
    ∃ e, l = e.map .named ∧ Prints u (namedType simple) e
  | _, _, .none, _ => ⟨[], rfl, .nil⟩
  | _, _, .some a l h, hf => ⟨l, rfl, (namedTypes_c h (F.cons.1 hf).2).1⟩

theorem component_c : ∀ {a : List Token} {x : ComponentType DV DD}, ComponentText Links.written simple a x → F u a →
    ∃ b, component simple x = some b ∧ W u b
  | _, _, .required a n h, hf => by
    obtain ⟨b, hb, hw⟩ := namedType_c h hf
    exact ⟨b, by simp only [component, hb]; try rfl, hw⟩
  | _, _, .optional a n h, hf => by
    obtain ⟨b, hb, hw⟩ := namedType_c h (F.append.1 hf).1
    exact ⟨_, by simp only [component, hb, Option.bind_some]; try rfl, W.append.2 ⟨hw, W.one⟩⟩
  | _, _, .default a b n v hs h h', hf => by
    simp only [F.cons, F.append] at hf
    obtain ⟨c, hc, hw⟩ := namedType_c h hf.1
    obtain ⟨d, hd, _, hw'⟩ := value_c h' hf.2.2
    subst hs
    exact ⟨_, by simp only [component, Links.written, id, hc, hd, Option.bind_some, Bool.false_eq_true, ↓reduceIte]; try rfl,
      W.append.2 ⟨hw, W.cons.2 ⟨W.word, hw'⟩⟩⟩
  | _, _, .componentsOf a t h, hf => by
    obtain ⟨b, hb, hw⟩ := type_c h (F.cons.1 (F.cons.1 hf).2).2
    exact ⟨_, by simp only [component, hb .other (by simp), Option.bind_some]; try rfl, W.cons.2 ⟨W.word, W.cons.2 ⟨W.word, hw⟩⟩⟩

theorem components_c : ∀ {a : List Token} {l : List (ComponentType DV DD)}, ComponentsText Links.written simple a l → F u a →
    Prints u (component simple) l ∧ l ≠ []
  | _, _, .one a x h, hf => by
    obtain ⟨b, hb, hw⟩ := component_c h hf
    exact ⟨.one hb hw, by simp⟩
  | _, _, .snoc a b l x h h', hf => by
    simp only [F.cons, F.append] at hf
    obtain ⟨c, hc, hw⟩ := component_c h' hf.2.2
    exact ⟨.append (components_c h hf.1).1 (.one hc hw), by simp⟩

theorem addition_c : ∀ {a : List Token} {l : List (ComponentType DV DD)}, AdditionText Links.written simple a l → F u a →
    Prints u (component simple) l
  | _, _, .component a x h, hf => by
    obtain ⟨b, hb, hw⟩ := component_c h hf
    exact .one hb hw
  | _, _, .group a b l _ _, _ => .nil

theorem additions_c : ∀ {a : List Token} {l : List (ComponentType DV DD)}, AdditionsText Links.written simple a l → F u a →
    Prints u (component simple) l
  | _, _, .one a x h, hf => addition_c h hf
  | _, _, .snoc a b l x h h', hf => by
    simp only [F.cons, F.append] at hf
    exact .append (additions_c h hf.1) (addition_c h' hf.2.2)

theorem bodyText_c : ∀ {a : List Token} {l e : List (ComponentType DV DD)}, BodyText Links.written simple a l e → F u a →
    Prints u (component simple) l ∧ Prints u (component simple) e ∧ (l = [] → e = [])
  | _, _, _, .empty, _ => ⟨.nil, .nil, fun _ => rfl⟩
  | _, _, _, .ellipsis b _, _ => ⟨.nil, .nil, fun _ => rfl⟩
  | _, _, _, .twoEllipses b _, _ => ⟨.nil, .nil, fun _ => rfl⟩
  | _, _, _, .components a l h, hf => ⟨(components_c h hf).1, .nil, fun _ => rfl⟩
  | _, _, _, .extensible a b l h _, hf => ⟨(components_c h (F.append.1 hf).1).1, .nil, fun _ => rfl⟩
  | _, _, _, .extended a b d l e h _ h', hf => by
    simp only [F.cons, F.append] at hf
    obtain ⟨h1, h2⟩ := components_c h hf.1
    exact ⟨h1, additions_c h' hf.2.2.2.2.2, fun h => absurd h h2⟩

theorem constraint_c : ∀ {a : List Token} {k : Constraint DV DD}, ConstraintText Links.written simple a k → F u a →
    ∃ b, constraint simple k = some b ∧ W u b
  | _, _, .mk a b l h _, hf => by
    simp only [F.cons, F.append] at hf
    obtain ⟨b, hb, hw⟩ := sets_c h hf.2.1
    exact ⟨b, by rw [constraint, hb], hw⟩

theorem sets_c : ∀ {a : List Token} {l : List (Elements DV DD)}, SetsText Links.written simple a l → F u a →
    ∃ b, constraintSpec simple (.subtype l) = some b ∧ W u b
  | _, _, .one a e h, hf => by
    obtain ⟨⟨b, hb, hw⟩, _⟩ := set_c h hf
    exact ⟨round b, by simp only [constraintSpec, hb, Option.bind_some]; try rfl, W.round hw⟩
  | _, _, .extensible a e h, hf => by
    obtain ⟨⟨b, hb, hw⟩, _⟩ := set_c h (F.append.1 hf).1
    exact ⟨round b, by simp only [constraintSpec, hb, Option.bind_some]; try rfl, W.round hw⟩
  | _, _, .extended a b e f h h', hf => by
    simp only [F.cons, F.append] at hf
    obtain ⟨⟨c, hc, hw⟩, _⟩ := set_c h hf.1
    obtain ⟨⟨d, hd, hw'⟩, _⟩ := set_c h' hf.2.2.2.2
    exact ⟨_, by simp only [constraintSpec, hc, hd, Option.bind_some]; try rfl,
      W.round (W.append.2 ⟨hw, W.cons.2 ⟨W.word, W.cons.2 ⟨W.word, W.cons.2 ⟨W.word, hw'⟩⟩⟩⟩)⟩

theorem set_c : ∀ {a : List Token} {e : Elements DV DD}, SetText Links.written simple a e → F u a →
    (∃ b, valueSet simple e = some b ∧ W u b) ∧ (∃ b, elements simple e = some b ∧ W u b)
  | _, _, .unions a l h, hf => by
    obtain ⟨h1, h2⟩ := unionsText_c h hf
    exact unions_c h1 h2
  | _, _, .allExcept a e h, hf => by
    obtain ⟨b, hb, _, hw⟩ := elements_c h (F.cons.1 (F.cons.1 hf).2).2
    exact ⟨⟨_, by simp only [valueSet, hb, Option.bind_some]; try rfl, W.cons.2 ⟨W.word, W.cons.2 ⟨W.word, hw⟩⟩⟩,
      ⟨_, by simp only [elements, hb, Option.bind_some]; try rfl, W.round (W.cons.2 ⟨W.word, W.cons.2 ⟨W.word, hw⟩⟩)⟩⟩

theorem unionsText_c : ∀ {a : List Token} {l : List (List (IntersectionElements DV DD))}, UnionsText Links.written simple a l → F u a →
    Prints u (union1 simple) l ∧ l ≠ []
  | _, _, .one a x h, hf => by
    obtain ⟨h1, h2⟩ := intersectionsText_c h hf
    obtain ⟨b, hb, hw⟩ := union1_c h1 h2
    exact ⟨.one hb hw, by simp⟩
  | _, _, .snoc code a b l x h _ h', hf => by
    simp only [F.cons, F.append] at hf
    obtain ⟨h1, h2⟩ := intersectionsText_c h' hf.2.2
    obtain ⟨c, hc, hw⟩ := union1_c h1 h2
    exact ⟨.append (unionsText_c h hf.1).1 (.one hc hw), by simp⟩

theorem intersectionsText_c : ∀ {a : List Token} {l : List (IntersectionElements DV DD)}, IntersectionsText Links.written simple a l → F u a →
    Prints u (except simple) l ∧ l ≠ []
  | _, _, .one a x h, hf => by
    obtain ⟨b, hb, hw⟩ := except_c h hf
    exact ⟨.one hb hw, by simp⟩
  | _, _, .snoc code a b l x h _ h', hf => by
    simp only [F.cons, F.append] at hf
    obtain ⟨c, hc, hw⟩ := except_c h' hf.2.2
    exact ⟨.append (intersectionsText_c h hf.1).1 (.one hc hw), by simp⟩

theorem except_c : ∀ {a : List Token} {x : IntersectionElements DV DD}, ExceptText Links.written simple a x → F u a →
    ∃ b, except simple x = some b ∧ W u b
  | _, _, .plain a e h, hf => by
    obtain ⟨b, hb, _, hw⟩ := elements_c h hf
    exact ⟨b, by rw [except, hb], hw⟩
  | _, _, .except a b e f h h', hf => by
    simp only [F.cons, F.append] at hf
    obtain ⟨c, hc, _, hw⟩ := elements_c h hf.1
    obtain ⟨d, hd, hn, hw'⟩ := elements_c h' hf.2.2
    refine ⟨c ++ kw Tok.EXCEPT :: d, ?_, W.append.2 ⟨hw, W.cons.2 ⟨W.word, hw'⟩⟩⟩
    cases f <;> first | exact absurd rfl hn | simp only [except, hc, hd, Option.bind_some]

theorem elements_c : ∀ {a : List Token} {e : Elements DV DD}, ElementsText Links.written simple a e → F u a →
    ∃ b, elements simple e = some b ∧ e ≠ .nil ∧ W u b
  | _, _, .value a v h, hf => by
    obtain ⟨b, hb, _, hw⟩ := value_c h hf
    exact ⟨b, by rw [elements, hb], by simp, hw⟩
  | _, _, .range a v w h, hf => by
    obtain ⟨b, hb, hw⟩ := range_c h hf
    exact ⟨b, by rw [elements, hb], by simp, hw⟩
  | _, _, .size a k h, hf => by
    obtain ⟨b, hb, hw⟩ := constraint_c h (F.cons.1 hf).2
    exact ⟨_, by simp only [elements, hb, Option.bind_some]; try rfl, by simp, W.cons.2 ⟨W.word, hw⟩⟩
  | _, _, .type a t h, hf => by
    obtain ⟨b, hb, hw⟩ := type_c h hf
    exact ⟨b, by rw [elements, hb .other (by simp)], by simp, hw⟩
  | _, _, .component a k _, _ => ⟨_, by rw [elements], by simp, W.cons.2 ⟨W.word, W.cons.2 ⟨W.word, W.braces (W.cons.2 ⟨x_w, W.nil⟩)⟩⟩⟩
  | _, _, .components a _, _ => ⟨_, by rw [elements], by simp, W.cons.2 ⟨W.word, W.cons.2 ⟨W.word, W.braces (W.cons.2 ⟨x_w, W.nil⟩)⟩⟩⟩
  | _, _, .someComponents a _, _ => ⟨_, by rw [elements], by simp, W.cons.2 ⟨W.word, W.cons.2 ⟨W.word, W.braces (W.cons.2 ⟨x_w, W.nil⟩)⟩⟩⟩
  | _, _, .parentheses a e h, hf => by
    simp only [F.cons, F.append] at hf
    obtain ⟨b, hb, hw⟩ := (set_c h hf.2.1).2
    refine ⟨b, hb, ?_, hw⟩
    rintro rfl
    simp [elements] at hb

end

theorem assignment_c {a x} (h : AssignmentText Links.written simple a x) (hf : F u a) : ∃ b, assignment simple x = some b ∧ W u b := by
  cases h with
  | type s a t h =>
    simp only [F.cons] at hf
    obtain ⟨b, hb, hw⟩ := type_c h hf.2.2
    exact ⟨_, by simp only [assignment, hb .other (by simp), Option.bind_some]; try rfl, W.cons.2 ⟨hf.1.upper_w, W.cons.2 ⟨W.word, hw⟩⟩⟩
  | value s a b t v h h' =>
    simp only [F.cons, F.append] at hf
    obtain ⟨c, hc, hw⟩ := type_c h hf.2.1
    obtain ⟨d, hd, _, hw'⟩ := value_c h' hf.2.2.2
    exact ⟨_, by simp only [assignment, hc .other (by simp), hd, Option.bind_some]; try rfl,
      W.cons.2 ⟨hf.1.lower_w, W.append.2 ⟨hw, W.cons.2 ⟨W.word, hw'⟩⟩⟩⟩

theorem assignments_c {a l} (h : AssignmentsText Links.written simple a l) (hf : F u a) : Prints u (assignment simple) l ∧ l ≠ [] := by
  induction h with
  | one a x h =>
    obtain ⟨b, hb, hw⟩ := assignment_c h hf
    exact ⟨.one hb hw, by simp⟩
  | snoc a b l x _ h ih =>
    simp only [F.append] at hf
    obtain ⟨c, hc, hw⟩ := assignment_c h hf.2
    exact ⟨.append (ih hf.1).1 (.one hc hw), by simp⟩

theorem symbol_c {a x} (h : SymbolText a x) (hf : F u a) : ∃ b, symbol x = some b ∧ W u b := by
  cases h with
  | type s => exact ⟨_, rfl, W.cons.2 ⟨(F.cons.1 hf).1.upper_w, W.nil⟩⟩
  | value s => exact ⟨_, rfl, W.cons.2 ⟨(F.cons.1 hf).1.lower_w, W.nil⟩⟩

theorem symbols_c {a l} (h : SymbolsText a l) (hf : F u a) : Prints u symbol l ∧ l ≠ [] := by
  induction h with
  | one a x h =>
    obtain ⟨b, hb, hw⟩ := symbol_c h hf
    exact ⟨.one hb hw, by simp⟩
  | snoc a b l x _ h ih =>
    simp only [F.cons, F.append] at hf
    obtain ⟨c, hc, hw⟩ := symbol_c h hf.2.2
    exact ⟨.append (ih hf.1).1 (.one hc hw), by simp⟩

theorem imported_c {c last a x} (h : FromText Links.written simple c a x) (hl : last = false → c = true) (hf : F u a) :
    ∃ b, imported simple last x = some b ∧ W u b := by
  cases h with
  | oid _ a b l s o h h' =>
    simp only [F.cons, F.append] at hf
    obtain ⟨⟨d, hd, hw⟩, hn⟩ := symbols_c h hf.1
    obtain ⟨e, he, hw'⟩ := oid_c h' hf.2.2.2
    exact ⟨_, by simp only [imported, nonempty_c hn, hd, he, Option.bind_some]; try rfl,
      W.append.2 ⟨W.sep hw, W.cons.2 ⟨W.word, W.cons.2 ⟨hf.2.2.1.upper_w, hw'⟩⟩⟩⟩
  | defined _ a b l s d h h' =>
    simp only [F.cons, F.append] at hf
    obtain ⟨⟨e, he, hw⟩, hn⟩ := symbols_c h hf.1
    exact ⟨_, by simp only [imported, nonempty_c hn, he, Option.bind_some]; try rfl,
      W.append.2 ⟨W.sep hw, W.cons.2 ⟨W.word, W.cons.2 ⟨hf.2.2.1.upper_w, defined_w h' hf.2.2.2⟩⟩⟩⟩
  | none a l s h =>
    simp only [F.cons, F.append] at hf
    obtain ⟨⟨e, he, hw⟩, hn⟩ := symbols_c h hf.1
    have : last = true := by cases last <;> simp_all
    exact ⟨_, by simp only [imported, nonempty_c hn, he, Option.bind_some, this, ↓reduceIte]; try rfl,
      W.append.2 ⟨W.sep hw, W.cons.2 ⟨W.word, W.cons.2 ⟨hf.2.2.1.upper_w, W.nil⟩⟩⟩⟩

/-- Imports before others. -/
theorem imports_append {x : SymbolsFromModule DV} {b : List Token} (hx : imported simple true x = some b) :
    ∀ {l : List (SymbolsFromModule DV)}, (∀ y ∈ l, ∃ c, imported simple false y = some c ∧ W u c) → W u b →
      ∃ d, imports simple (l ++ [x]) = some d ∧ W u d
  | [], _, hw => ⟨b, by simp only [List.nil_append, imports, hx]; try rfl, hw⟩
  | y :: l, h, hw => by
    obtain ⟨c, hc, hwc⟩ := h y (by simp)
    obtain ⟨d, hd, hwd⟩ := imports_append hx (l := l) (fun z hz => h z (by simp [hz])) hw
    refine ⟨c ++ d, ?_, W.append.2 ⟨hwc, hwd⟩⟩
    cases l with
    | nil =>
      simp only [List.nil_append] at hd
      simp only [List.cons_append, List.nil_append, imports, hc, Option.bind_some] at hd ⊢
      rw [hd]; rfl
    | cons z l =>
      simp only [List.cons_append] at hd
      simp only [List.cons_append, imports, hc, hd, Option.bind_some]

theorem froms_c {c a l} (h : FromsText Links.written simple c a l) (hf : F u a) :
    (∃ d, imports simple l = some d ∧ W u d) ∧ (c = true → ∀ y ∈ l, ∃ c, imported simple false y = some c ∧ W u c) ∧ l ≠ [] := by
  induction h with
  | one c a x h =>
    obtain ⟨b, hb, hw⟩ := imported_c (last := true) h (by simp) hf
    refine ⟨⟨b, by simp only [imports, hb]; try rfl, hw⟩, ?_, by simp⟩
    intro hc
    simpa using imported_c (last := false) h (fun _ => hc) hf
  | snoc c a b l x h h' ih =>
    simp only [F.append] at hf
    obtain ⟨h1, h2, h3⟩ := ih hf.1
    obtain ⟨d, hd, hw⟩ := imported_c (last := true) h' (by simp) hf.2
    refine ⟨imports_append hd (h2 rfl) hw, ?_, by simp⟩
    intro hc y hy
    rcases List.mem_append.1 hy with hy | hy
    · exact h2 rfl y hy
    · simp only [List.mem_singleton] at hy
      subst hy
      exact imported_c (last := false) h' (fun _ => hc) hf.2

theorem imports_c {a l} (h : ImportsText Links.written simple a l) (hf : F u a) : ∃ d, imports simple l = some d ∧ W u d := by
  cases h with
  | none => exact ⟨[], by rw [imports], W.nil⟩
  | empty => exact ⟨[], by rw [imports], W.nil⟩
  | some a l h =>
    simp only [F.cons, F.append] at hf
    exact (froms_c h hf.2.1).1

theorem moduleBody_c {a m} (h : ModuleBodyText Links.written simple a m) (hf : F u a) : ∃ d, moduleBody simple m = some d ∧ W u d := by
  cases h with
  | empty => exact ⟨[], rfl, W.nil⟩
  | some a b d i l h h' h'' =>
    simp only [F.append] at hf
    obtain ⟨⟨e, he, hw⟩, hn⟩ := assignments_c h'' hf.2.2
    obtain ⟨f, hf', hw'⟩ := imports_c h' hf.2.1
    refine ⟨_, by simp only [moduleBody, List.isEmpty_iff, hn, ↓reduceIte, he, hf', Option.bind_some]; try rfl, ?_⟩
    refine W.append.2 ⟨?_, W.flatten hw⟩
    split
    · exact W.nil
    · exact W.cons.2 ⟨W.word, W.append.2 ⟨hw', W.one⟩⟩

theorem definitive_c {a x} (h : DefinitiveText a x) (hf : F u a) : ∃ b, definitive x = some b ∧ W u b := by
  cases h with
  | name s =>
    have := (F.cons.1 hf).1
    have hn := this.lower_ne
    exact ⟨[lower s], by simp [definitive, natural, hn], W.cons.2 ⟨this.lower_w, W.nil⟩⟩
  | number r n => exact ⟨[number n], by simp [definitive, natural_cast], W.cons.2 ⟨(F.cons.1 hf).1.number_w, W.nil⟩⟩
  | both s r n =>
    simp only [F.cons] at hf
    have hn := hf.1.lower_ne
    refine ⟨_, by simp only [definitive, natural_cast, hn, ↓reduceIte, Option.bind_some]; rfl, ?_⟩
    split
    · exact W.cons.2 ⟨hf.1.lower_w, W.nil⟩
    · exact W.cons.2 ⟨hf.1.lower_w, W.round (W.cons.2 ⟨hf.2.2.1.number_w, W.nil⟩)⟩

theorem definitives_c {a l} (h : DefinitivesText a l) (hf : F u a) : Prints u definitive l ∧ l ≠ [] := by
  induction h with
  | one a x h =>
    obtain ⟨b, hb, hw⟩ := definitive_c h hf
    exact ⟨.one hb hw, by simp⟩
  | cons a b x l h _ ih =>
    simp only [F.append] at hf
    obtain ⟨c, hc, hw⟩ := definitive_c h hf.1
    exact ⟨.append (l := [x]) (.one hc hw) (ih hf.2).1, by simp⟩

theorem identifier_c {a l} (h : Notation.IdentifierText a l) (hf : F u a) : Prints u definitive l := by
  cases h with
  | none => exact .nil
  | some a l h =>
    simp only [F.cons, F.append] at hf
    exact (definitives_c h hf.2.1).1

theorem tags_c {a i} (h : TagsText a i) : ∃ b, tags i = some b ∧ W u b := by
  cases h
  · exact ⟨_, rfl, W.nil⟩
  · exact ⟨_, rfl, W.cons.2 ⟨W.word, W.one⟩⟩
  · exact ⟨_, rfl, W.cons.2 ⟨W.word, W.one⟩⟩
  · exact ⟨_, rfl, W.nil⟩

/-- A module there is notation for can be printed. -/
theorem module_c {a m} (h : ModuleText Links.written simple a m) (hf : F u a) : ∃ b, Print.module simple m = some b ∧ W u b := by
  obtain ⟨s, a, b, d, e, i, g, x, m, h1, h2, h3, h4⟩ := h
  simp only [F.cons, F.append] at hf
  obtain ⟨f, hf', hwf⟩ := identifier_c h1 hf.2.1
  obtain ⟨k, hk, hwk⟩ := tags_c (u := u) h2
  obtain ⟨n, hn, hwn⟩ := moduleBody_c h4 (by tauto)
  refine ⟨_, by simp only [Print.module, hf', hk, hn, Option.bind_some]; rfl, ?_⟩
  simp only [W.cons, W.append]
  refine ⟨hf.1.upper_w, ?_, W.word, hwk, ?_, W.word, W.word, hwn, W.word, W.nil⟩
  · split
    · exact W.nil
    · exact W.braces (W.flatten hwf)
  · split
    · exact W.cons.2 ⟨W.word, W.one⟩
    · exact W.nil

end Asn1go.Print
