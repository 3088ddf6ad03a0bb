import Verif.Spec.Print

/-! In notation for a module the `E` of real numbers follows a number, and every other keyword has a spelling. -/

namespace Asn1go.Print

open Asn1go Spec Spec.Notation

/-- The token codes with a fixed spelling. -/
def spelled : List Int := (reservedWords ++ symbols).map (·.2)

/-- `after` says that a number stands before the tokens. -/
def Shape : Bool → List Token → Prop
  | _, [] => True
  | after, t :: l => (t.2 = .none → t.1 ∈ spelled ∨ (t.1 = Tok.EXPONENT ∧ after = true)) ∧ Shape (t.1 == Tok.NUMBER) l

theorem Shape.mono {after : Bool} {a : List Token} (h : Shape false a) : Shape after a := by
  cases a with
  | nil => trivial
  | cons t l =>
    refine ⟨fun ht => ?_, h.2⟩
    rcases h.1 ht with h | h
    · exact .inl h
    · simp at h

theorem Shape.append {after : Bool} {a b : List Token} (ha : Shape after a) (hb : Shape false b) : Shape after (a ++ b) := by
  induction a generalizing after with
  | nil => exact hb.mono
  | cons t l ih => exact ⟨ha.1, ih ha.2⟩

theorem Shape.kw {after : Bool} {c : Int} {a : List Token} (hc : c ∈ spelled) (h : Shape false a) : Shape after (kw c :: a) :=
  ⟨fun _ => .inl hc, h.mono⟩

theorem Shape.upper {after : Bool} {s : Str} {a : List Token} (h : Shape false a) : Shape after (upper s :: a) :=
  ⟨fun h => by simp at h, h.mono⟩

theorem Shape.lower {after : Bool} {s : Str} {a : List Token} (h : Shape false a) : Shape after (lower s :: a) :=
  ⟨fun h => by simp at h, h.mono⟩

theorem Shape.num {after : Bool} {s : Str} {n : Nat} {a : List Token} (h : Shape true a) : Shape after (num s n :: a) :=
  ⟨fun h => by simp at h, h⟩

theorem Shape.exponent {a : List Token} (h : Shape false a) : Shape true (Notation.kw Tok.EXPONENT :: a) :=
  ⟨fun _ => .inr ⟨rfl, rfl⟩, h.mono⟩

theorem Shape.nil {after : Bool} : Shape after [] := trivial

local macro "shape" : tactic => `(tactic|
  repeat (first
    | assumption
    | exact Shape.mono (by assumption)
    | apply Shape.nil
    | refine Shape.append ?_ ?_
    | refine Shape.exponent ?_
    | refine Shape.kw (by decide) ?_
    | refine Shape.kw (by assumption) ?_
    | refine Shape.upper ?_
    | refine Shape.lower ?_
    | refine Shape.num ?_))

theorem defined_shape {a d} (h : DefinedText a d) : Shape false a := by cases h <;> shape

theorem signed_shape {a d} (h : SignedText a d) : Shape false a := by cases h <;> shape

theorem exponent_shape {a d} (h : ExponentText a d) : Shape false a := by cases h <;> shape

theorem real_shape {a d} (h : RealText a d) : Shape false a := by
  cases h with
  | fraction => shape
  | both _ _ _ _ _ _ h => have := exponent_shape h; shape
  | exponent _ _ _ _ h => have := exponent_shape h; shape

theorem namedNumber_shape {a d} (h : NamedNumberText a d) : Shape false a := by
  cases h with
  | number _ _ _ h => have := signed_shape h; shape
  | defined _ _ _ h => have := defined_shape h; shape

theorem namedNumbers_shape {a d} (h : NamedNumbersText a d) : Shape false a := by
  induction h with
  | one _ _ h => exact namedNumber_shape h
  | snoc _ _ _ _ _ h _ => have := namedNumber_shape h; shape

theorem enumItem_shape {a d} (h : EnumItemText a d) : Shape false a := by
  cases h with
  | number _ _ h => exact namedNumber_shape h
  | name => shape

theorem enum_shape {a d} (h : EnumText a d) : Shape false a := by
  induction h with
  | one _ _ h => exact enumItem_shape h
  | cons _ _ _ _ h => have := enumItem_shape h; shape

section

variable {R D : Type} {L : Links R D} {simple : Bool}

theorem oidElement_shape {a d} (h : OidElementText L a d) : Shape false a := by
  cases h with
  | nameDefined _ _ _ h => have := defined_shape h; shape
  | _ => shape

theorem oidComponent_shape {a d} (h : OidComponentText L a d) : Shape false a := by
  cases h with
  | element _ h => exact oidElement_shape h
  | defined _ h => exact defined_shape h

theorem oidComponents_shape {a d} (h : OidComponentsText L a d) : Shape false a := by
  induction h with
  | one _ _ h => exact oidComponent_shape h
  | cons _ _ _ _ h => have := oidComponent_shape h; shape

theorem oid_shape {a d} (h : OidText L simple a d) : Shape false a := by
  cases h with
  | one _ _ h => have := oidComponent_shape h; shape
  | many _ _ _ _ h h' => have := oidElement_shape h; have := oidComponents_shape h'; shape
  | head _ _ _ _ _ h h' => have := defined_shape h; have := oidComponents_shape h'; shape

theorem value_shape {a d} (h : ValueText L simple a d) : Shape false a := by
  cases h with
  | number _ _ h => exact signed_shape h
  | oid _ _ h => exact oid_shape h
  | real _ _ h => exact real_shape h
  | minusReal _ _ h => have := real_shape h; shape
  | _ => shape

theorem namedBit_shape {a} {d : NamedBit R} (h : NamedBitText a d) : Shape false a := by
  cases h with
  | number => shape
  | defined _ _ _ h => have := defined_shape h; shape

theorem namedBits_shape {a} {d : List (NamedBit R)} (h : NamedBitsText a d) : Shape false a := by
  induction h with
  | one _ _ h => exact namedBit_shape h
  | snoc _ _ _ _ _ h _ => have := namedBit_shape h; shape

theorem class_shape {a d} (h : ClassText a d) : Shape false a := by cases h <;> shape

theorem tag_shape {a} {d : Tag R} (h : TagText a d) : Shape false a := by
  cases h with
  | number _ _ _ _ h => have := class_shape h; shape
  | defined _ _ _ _ h h' => have := class_shape h; have := defined_shape h'; shape

theorem tagging_shape {a i b} (h : TaggingText a i b) : Shape false a := by cases h <;> shape

theorem lower_shape {a d} (h : LowerText L simple a d) : Shape false a := by
  cases h with
  | value _ _ h => exact value_shape h
  | min => shape

theorem upper_shape {a d} (h : UpperText L simple a d) : Shape false a := by
  cases h with
  | value _ _ h => exact value_shape h
  | max => shape

theorem range_shape {a d e} (h : RangeText L simple a d e) : Shape false a := by
  rcases h with ⟨_, _, _, _, h, h'⟩ | ⟨_, _, _, _, h, h'⟩ | ⟨_, _, _, _, h, h'⟩ | ⟨_, _, _, _, h, h'⟩ <;>
    · have := lower_shape h
      have := upper_shape h'
      shape

theorem presence_shape {a} (h : PresenceText a) : Shape false a := by cases h <;> shape

theorem version_shape {a} (h : VersionText a) : Shape false a := by cases h <;> shape

theorem stringTypes_spelled {c : Int} (h : c ∈ stringTypes) : c ∈ spelled := by
  have : ∀ c ∈ stringTypes, c ∈ spelled := by decide
  exact this c h

theorem pipe_spelled {c : Int} (h : c ∈ [Tok.PIPE, Tok.UNION]) : c ∈ spelled := by
  have : ∀ c ∈ [Tok.PIPE, Tok.UNION], c ∈ spelled := by decide
  exact this c h

theorem caret_spelled {c : Int} (h : c ∈ [Tok.CARET, Tok.INTERSECTION]) : c ∈ spelled := by
  have : ∀ c ∈ [Tok.CARET, Tok.INTERSECTION], c ∈ spelled := by decide
  exact this c h

local macro "leaf" : tactic => `(tactic| first
    | exact Shape.nil
    | assumption
    | exact Shape.mono (by assumption)
    | exact defined_shape (by assumption)
    | exact signed_shape (by assumption)
    | exact namedNumbers_shape (by assumption)
    | exact enum_shape (by assumption)
    | exact value_shape (by assumption)
    | exact namedBits_shape (by assumption)
    | exact tag_shape (by assumption)
    | exact tagging_shape (by assumption)
    | exact range_shape (by assumption)
    | exact presence_shape (by assumption)
    | exact version_shape (by assumption))

local macro "shapes" : tactic => `(tactic|
  repeat (first
    | leaf
    | refine Shape.append ?_ ?_
    | refine Shape.kw (by decide) ?_
    | refine Shape.kw (stringTypes_spelled (by assumption)) ?_
    | refine Shape.kw (pipe_spelled (by assumption)) ?_
    | refine Shape.kw (caret_spelled (by assumption)) ?_
    | refine Shape.upper ?_
    | refine Shape.lower ?_
    | refine Shape.num ?_))

theorem type_shape {c a t} (h : TypeText L simple c a t) : Shape false a := by
  refine TypeText.rec (L := L) (simple := simple) (motive_1 := fun _ a _ _ => Shape false a) (motive_2 := fun a _ _ => Shape false a)
    (motive_3 := fun a _ _ => Shape false a) (motive_4 := fun a _ _ => Shape false a) (motive_5 := fun a _ _ => Shape false a)
    (motive_6 := fun a _ _ => Shape false a) (motive_7 := fun a _ _ => Shape false a) (motive_8 := fun a _ _ => Shape false a)
    (motive_9 := fun a _ _ => Shape false a) (motive_10 := fun a _ _ => Shape false a) (motive_11 := fun a _ _ _ => Shape false a)
    (motive_12 := fun a _ _ => Shape false a) (motive_13 := fun a _ _ => Shape false a) (motive_14 := fun a _ _ => Shape false a)
    (motive_15 := fun a _ _ => Shape false a) (motive_16 := fun a _ _ => Shape false a) (motive_17 := fun a _ _ => Shape false a)
    (motive_18 := fun a _ _ => Shape false a) (motive_19 := fun a _ => Shape false a) (motive_20 := fun a _ => Shape false a)
    (motive_21 := fun a _ => Shape false a)
    ?_ ?_ ?_ ?_ ?_ ?_ ?_ ?_ ?_ ?_ ?_ ?_ ?_ ?_ ?_ ?_ ?_ ?_ ?_ ?_ ?_ ?_ ?_ ?_ ?_ ?_ ?_ ?_ ?_ ?_ ?_ ?_ ?_ ?_ ?_ ?_ ?_ ?_ ?_ ?_ ?_ ?_
    ?_ ?_ ?_ ?_ ?_ ?_ ?_ ?_ ?_ ?_ ?_ ?_ ?_ ?_ ?_ ?_ ?_ ?_ ?_ ?_ ?_ ?_ ?_ ?_ ?_ ?_ ?_ ?_ ?_ ?_ ?_ ?_ ?_ ?_ ?_ ?_ ?_ ?_ ?_ h
  all_goals (intros; shapes)

theorem assignment_shape {a x} (h : AssignmentText L simple a x) : Shape false a := by
  cases h with
  | type _ _ _ h => have := type_shape h; shape
  | value _ _ _ _ _ h h' => have := type_shape h; have := value_shape h'; shape

theorem assignments_shape {a x} (h : AssignmentsText L simple a x) : Shape false a := by
  induction h with
  | one _ _ h => exact assignment_shape h
  | snoc _ _ _ _ _ h _ => have := assignment_shape h; shape

theorem symbol_shape {a x} (h : SymbolText a x) : Shape false a := by cases h <;> shape

theorem symbols_shape {a x} (h : SymbolsText a x) : Shape false a := by
  induction h with
  | one _ _ h => exact symbol_shape h
  | snoc _ _ _ _ _ h _ => have := symbol_shape h; shape

theorem from_shape {c a x} (h : FromText L simple c a x) : Shape false a := by
  cases h with
  | oid _ _ _ _ _ _ h h' => have := symbols_shape h; have := oid_shape h'; shape
  | defined _ _ _ _ _ _ h h' => have := symbols_shape h; have := defined_shape h'; shape
  | none _ _ _ h => have := symbols_shape h; shape

theorem froms_shape {c a x} (h : FromsText L simple c a x) : Shape false a := by
  induction h with
  | one _ _ _ h => exact from_shape h
  | snoc _ _ _ _ _ _ h _ => have := from_shape h; shape

theorem exports_shape {a} (h : ExportsText a) : Shape false a := by
  cases h with
  | symbols _ _ h => have := symbols_shape h; shape
  | _ => shape

theorem imports_shape {a x} (h : ImportsText L simple a x) : Shape false a := by
  cases h with
  | some _ _ h => have := froms_shape h; shape
  | _ => shape

theorem body_shape {a x} (h : ModuleBodyText L simple a x) : Shape false a := by
  cases h with
  | empty => shape
  | some _ _ _ _ _ h h' h'' => have := exports_shape h; have := imports_shape h'; have := assignments_shape h''; shape

theorem definitive_shape {a x} (h : DefinitiveText a x) : Shape false a := by cases h <;> shape

theorem definitives_shape {a x} (h : DefinitivesText a x) : Shape false a := by
  induction h with
  | one _ _ h => exact definitive_shape h
  | cons _ _ _ _ h => have := definitive_shape h; shape

theorem identifier_shape {a x} (h : Notation.IdentifierText a x) : Shape false a := by
  cases h with
  | none => shape
  | some _ _ h => have := definitives_shape h; shape

theorem tags_shape {a x} (h : TagsText a x) : Shape false a := by cases h <;> shape

theorem extensibility_shape {a x} (h : ExtensibilityText a x) : Shape false a := by cases h <;> shape

theorem module_shape {a m} (h : ModuleText L simple a m) : Shape false a := by
  obtain ⟨_, _, _, _, _, _, _, _, _, h1, h2, h3, h4⟩ := h
  have := identifier_shape h1
  have := tags_shape h2
  have := extensibility_shape h3
  have := body_shape h4
  shape

end

end Asn1go.Print
