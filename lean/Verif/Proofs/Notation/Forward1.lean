import Verif.Proofs.Notation.Reads

/-! Notation without types has preferred derivations with the value it stands for. -/

namespace Asn1go.Notation

open Asn1go Spec LR Spec.Notation

variable {R D : Type} (L : Links R D) (simple : Bool)

theorem upper_type (s : Str) : ∃ x, x.typeReference = s ∧ ∀ p next, Rd L simple (.n NT.typereference) [upper s] p next x :=
  ⟨_, rfl, fun _ _ => .node 2 (.last .leaf)⟩

theorem upper_module (s : Str) : ∃ x, x.name = s ∧ ∀ p next, Rd L simple (.n NT.modulereference) [upper s] p next x :=
  ⟨_, rfl, fun _ _ => .node 3 (.last .leaf)⟩

theorem lower_value (s : Str) : ∃ x, x.valueReference = s ∧ ∀ p next, Rd L simple (.n NT.valuereference) [lower s] p next x :=
  ⟨_, rfl, fun _ _ => .node 4 (.last .leaf)⟩

theorem lower_identifier (s : Str) : ∃ x, x.name = s ∧ ∀ p next, Rd L simple (.n NT.identifier) [lower s] p next x :=
  ⟨_, rfl, fun _ _ => .node 6 (.last .leaf)⟩

theorem num_number (r : Str) (n : Nat) : ∃ x, x.number = (n : Int) ∧ ∀ p next, Rd L simple (.n NT.number) [num r n] p next x :=
  ⟨_, rfl, fun _ _ => .node 5 (.last .leaf)⟩

variable {a : List Token}

theorem defined_rd {d : DefinedValue} (h : DefinedText a d) :
    ∃ x, x.definedValue = d ∧ ∀ p next, Rd L simple (.n NT.DefinedValue) a p next x := by
  cases h with
  | ext m v =>
    obtain ⟨x, rfl, hx⟩ := upper_module L simple m
    obtain ⟨y, rfl, hy⟩ := lower_value L simple v
    exact ⟨_, rfl, fun _ _ => .node 52 (.cons (hx _ _) (.cons .leaf (.last (hy _ _))))⟩
  | plain v =>
    obtain ⟨y, rfl, hy⟩ := lower_value L simple v
    exact ⟨_, rfl, fun _ _ => .node 53 (.last (hy _ _))⟩

theorem signed_rd {n : Int} (h : SignedText a n) :
    ∃ x, x.number = n ∧ ∀ p next, Rd L simple (.n NT.SignedNumber) a p next x := by
  cases h with
  | pos r n => exact ⟨_, rfl, fun _ _ => .node 92 (.last .leaf)⟩
  | neg r n => exact ⟨_, rfl, fun _ _ => .node 93 (.cons .leaf (.last .leaf))⟩

theorem namedNumber_rd {n : NamedNumber} (h : NamedNumberText a n) :
    ∃ x, x.namedNumber = n ∧ ∀ p next, Rd L simple (.n NT.NamedNumber) a p next x := by
  cases h with
  | number s a n h =>
    obtain ⟨x, rfl, hx⟩ := lower_identifier L simple s
    obtain ⟨y, rfl, hy⟩ := signed_rd L simple h
    exact ⟨_, rfl, fun _ _ => .node 90 (.cons (hx _ _) (.cons .leaf (.cons (hy _ _) (.last .leaf))))⟩
  | defined s a d h =>
    obtain ⟨x, rfl, hx⟩ := lower_identifier L simple s
    obtain ⟨y, rfl, hy⟩ := defined_rd L simple h
    exact ⟨_, rfl, fun _ _ => .node 91 (.cons (hx _ _) (.cons .leaf (.cons (hy _ _) (.last .leaf))))⟩

theorem namedNumbers_rd {l : List NamedNumber} (h : NamedNumbersText a l) :
    ∃ x, x.namedNumberList = l ∧ ∀ p next, Rd L simple (.n NT.NamedNumberList) a p next x := by
  induction h with
  | one a x h =>
    obtain ⟨x, rfl, hx⟩ := namedNumber_rd L simple h
    exact ⟨_, rfl, fun _ _ => .node 88 (.last (hx _ _))⟩
  | snoc a b l x _ h ih =>
    obtain ⟨x, rfl, hx⟩ := namedNumber_rd L simple h
    obtain ⟨y, rfl, hy⟩ := ih
    exact ⟨_, rfl, fun _ _ => .node 89 (.cons (hy _ _) (.cons .leaf (.last (hx _ _))))⟩

theorem enumItem_rd {e : EnumerationItem} (h : EnumItemText a e) :
    ∃ x, x.enumerationItem = e ∧ ∀ p next, Rd L simple (.n NT.EnumerationItem) a p next x := by
  cases h with
  | number a x h =>
    obtain ⟨x, rfl, hx⟩ := namedNumber_rd L simple h
    exact ⟨_, rfl, fun _ _ => .node 104 (.last (hx _ _))⟩
  | name s =>
    obtain ⟨x, rfl, hx⟩ := lower_identifier L simple s
    exact ⟨_, rfl, fun _ _ => .node 105 (.last (hx _ _))⟩

theorem enum_rd {l : List EnumerationItem} (h : EnumText a l) :
    ∃ x, x.enumeration = l ∧ ∀ p next, next ≠ Tok.COMMA → Rd L simple (.n NT.Enumeration) a p next x := by
  induction h with
  | one a x h =>
    obtain ⟨x, rfl, hx⟩ := enumItem_rd L simple h
    exact ⟨_, rfl, fun _ _ hn => .node_unless Tok.COMMA 102 hn (.last (hx _ _))⟩
  | cons a b x l h _ ih =>
    obtain ⟨x, rfl, hx⟩ := enumItem_rd L simple h
    obtain ⟨y, rfl, hy⟩ := ih
    exact ⟨_, rfl, fun _ _ hn => .node 103 (.cons (hx _ _) (.cons .leaf (.last (hy _ _ hn))))⟩

theorem exponent_rd {e : Int} (h : ExponentText a e) :
    ∃ x, x.number = e ∧ ∀ p next, Rd L simple (.n NT.SignedExponent) a p next x := by
  cases h with
  | pos r n => exact ⟨_, rfl, fun _ _ => .node 117 (.last .leaf)⟩
  | neg r n => exact ⟨_, rfl, fun _ _ => .node 118 (.cons .leaf (.last .leaf))⟩

theorem real_rd {e : GoReal} (h : RealText a e) :
    ∃ x, x.real = e ∧ ∀ p next, Rd L simple (.n NT.realnumber) a p next x := by
  cases h with
  | fraction r s i f => exact ⟨_, rfl, fun _ _ => .node 114 (.cons .leaf (.cons .leaf (.last .leaf)))⟩
  | both r s i f a e h =>
    obtain ⟨x, rfl, hx⟩ := exponent_rd L simple h
    exact ⟨_, rfl, fun _ _ => .node 115 (.cons .leaf (.cons .leaf (.cons .leaf (.cons .leaf (.last (hx _ _))))))⟩
  | exponent r i a e h =>
    obtain ⟨x, rfl, hx⟩ := exponent_rd L simple h
    exact ⟨_, rfl, fun _ _ => .node 116 (.cons .leaf (.cons .leaf (.last (hx _ _))))⟩

theorem oidElement_rd {e : ObjectIdElement R} (h : OidElementText L a e) :
    ∃ x, x.objectIdElement = e ∧ ∀ p next, Rd L simple (.n NT.ObjIdComponents) a p next x := by
  cases h with
  | number r n => exact ⟨_, rfl, fun _ _ => .node 192 (.last (.node 195 (.last .leaf)))⟩
  | nameNumber s r n =>
    obtain ⟨x, rfl, hx⟩ := lower_identifier L simple s
    exact ⟨_, rfl, fun _ _ => .node 193 (.last (.node 197 (.cons (hx _ _) (.cons .leaf (.cons (.node 195 (.last .leaf)) (.last .leaf))))))⟩
  | nameDefined s a d h =>
    obtain ⟨x, rfl, hx⟩ := lower_identifier L simple s
    obtain ⟨y, rfl, hy⟩ := defined_rd L simple h
    exact ⟨_, rfl, fun _ _ => .node 193 (.last (.node 197 (.cons (hx _ _) (.cons .leaf
      (.cons (.node 196 (.last (hy _ _))) (.last .leaf))))))⟩

theorem oidComponent_rd {e : ObjectIdElement R} (h : OidComponentText L a e) :
    ∃ x, x.objectIdElement = e ∧ ∀ next, Rd L simple (.n NT.ObjIdComponents) a .other next x := by
  cases h with
  | element _ h =>
    obtain ⟨x, rfl, hx⟩ := oidElement_rd L simple h
    exact ⟨_, rfl, fun _ => hx _ _⟩
  | defined _ h =>
    obtain ⟨y, rfl, hy⟩ := defined_rd L simple h
    exact ⟨_, rfl, fun _ => .node 194 (.last (hy _ _))⟩

theorem oidComponents_rd {l : List (ObjectIdElement R)} (h : OidComponentsText L a l) :
    ∃ x, x.objectIdentifierValue = l ∧ ∀ next, Rd L simple (.n NT.ObjIdComponentsList) a .other next x := by
  induction h with
  | one a e h =>
    obtain ⟨x, rfl, hx⟩ := oidComponent_rd L simple h
    exact ⟨_, rfl, fun _ => .node 189 (.last (hx _))⟩
  | cons a b e l h _ ih =>
    obtain ⟨x, rfl, hx⟩ := oidComponent_rd L simple h
    obtain ⟨y, rfl, hy⟩ := ih
    exact ⟨_, rfl, fun _ => .node 190 (.cons (hx _) (.last (hy _)))⟩

theorem cast_rd {X : Sym} {a b : List Token} {p : Place} {next : Int} {x : SymType R D} (e : a = b) (h : Rd L simple X a p next x) :
    Rd L simple X b p next x := e ▸ h

theorem oid_rd {l : List (ObjectIdElement R)} (h : OidText L simple a l) :
    ∃ x, x.objectIdentifierValue = l ∧ ∀ p next, Rd L simple (.n NT.ObjectIdentifierValue) a p next x := by
  cases h with
  | one a e h =>
    obtain ⟨x, rfl, hx⟩ := oidComponent_rd L simple h
    exact ⟨_, rfl, fun _ _ => .node 187 (.cons .leaf (.cons (.node 189 (.last (hx _))) (.last .leaf)))⟩
  | many a b e l h h' =>
    obtain ⟨x, rfl, hx⟩ := oidElement_rd L simple h
    obtain ⟨y, rfl, hy⟩ := oidComponents_rd L simple h'
    refine ⟨_, rfl, fun _ _ => cast_rd L simple ?_ (.node 187 (.cons .kw (.cons (.node 190 (.cons (hx _ _) (.last (hy _)))) (.last .kw))))⟩
    simp
  | head a b d l hs h h' =>
    obtain ⟨x, rfl, hx⟩ := defined_rd L simple h
    obtain ⟨y, rfl, hy⟩ := oidComponents_rd L simple h'
    refine ⟨_, rfl, fun _ _ => .node_allowed 188 (allowed_of_free rfl) (.cons .leaf (.cons (hx _ _) (.cons (hy _) (.last .leaf)))) ?_⟩
    simp [hs]

theorem value_rd {v : Value R} (h : ValueText L simple a v) :
    ∃ x, x.value = v ∧ ∀ p next, Rd L simple (.n NT.Value) a p next x := by
  cases h with
  | true => exact ⟨_, rfl, fun _ _ => .node 78 (.last (.node 79 (.last (.node 84 (.last .leaf)))))⟩
  | false => exact ⟨_, rfl, fun _ _ => .node 78 (.last (.node 79 (.last (.node 85 (.last .leaf)))))⟩
  | number a n h =>
    obtain ⟨x, rfl, hx⟩ := signed_rd L simple h
    exact ⟨_, rfl, fun _ _ => .node 78 (.last (.node 80 (.last (.node 94 (.last (hx _ _))))))⟩
  | name s =>
    obtain ⟨x, rfl, hx⟩ := lower_identifier L simple s
    exact ⟨_, rfl, fun _ _ => .node 78 (.last (.node 80 (.last (.node 95 (.last (hx _ _))))))⟩
  | oid a l h =>
    obtain ⟨x, rfl, hx⟩ := oid_rd L simple h
    exact ⟨_, rfl, fun _ _ => .node 78 (.last (.node 81 (.last (hx _ _))))⟩
  | real a y h =>
    obtain ⟨x, rfl, hx⟩ := real_rd L simple h
    exact ⟨_, rfl, fun _ _ => .node 78 (.last (.node 82 (.last (.node 107 (.last (.node 109 (.last (hx _ _))))))))⟩
  | minusReal a y h =>
    obtain ⟨x, rfl, hx⟩ := real_rd L simple h
    exact ⟨_, rfl, fun _ _ => .node 78 (.last (.node 82 (.last (.node 107 (.last (.node 110 (.cons .leaf (.last (hx _ _)))))))))⟩
  | plusInfinity => exact ⟨_, rfl, fun _ _ => .node 78 (.last (.node 82 (.last (.node 108 (.last (.node 111 (.last .leaf)))))))⟩
  | minusInfinity => exact ⟨_, rfl, fun _ _ => .node 78 (.last (.node 82 (.last (.node 108 (.last (.node 112 (.last .leaf)))))))⟩

theorem namedBit_rd {n : NamedBit R} (h : NamedBitText a n) :
    ∃ x, x.namedBit = n ∧ ∀ p next, Rd L simple (.n NT.NamedBit) a p next x := by
  cases h with
  | number s r n =>
    obtain ⟨x, rfl, hx⟩ := lower_identifier L simple s
    obtain ⟨y, h, hy⟩ := num_number L simple r n
    exact ⟨_, by rw [← h]; rfl, fun _ _ => .node 123 (.cons (hx _ _) (.cons .leaf (.cons (hy _ _) (.last .leaf))))⟩
  | defined s a d h =>
    obtain ⟨x, rfl, hx⟩ := lower_identifier L simple s
    obtain ⟨y, rfl, hy⟩ := defined_rd L simple h
    exact ⟨_, rfl, fun _ _ => .node 124 (.cons (hx _ _) (.cons .leaf (.cons (hy _ _) (.last .leaf))))⟩

theorem namedBits_rd {l : List (NamedBit R)} (h : NamedBitsText a l) :
    ∃ x, x.namedBitList = l ∧ ∀ p next, Rd L simple (.n NT.NamedBitList) a p next x := by
  induction h with
  | one a x h =>
    obtain ⟨x, rfl, hx⟩ := namedBit_rd L simple h
    exact ⟨_, rfl, fun _ _ => .node 121 (.last (hx _ _))⟩
  | snoc a b l x _ h ih =>
    obtain ⟨x, rfl, hx⟩ := namedBit_rd L simple h
    obtain ⟨y, rfl, hy⟩ := ih
    exact ⟨_, rfl, fun _ _ => .node 122 (.cons (hy _ _) (.cons .leaf (.last (hx _ _))))⟩

theorem class_rd {c : Int} (h : ClassText a c) : ∃ x, x.cls = c ∧ ∀ p next, Rd L simple (.n NT.Class) a p next x := by
  cases h with
  | universal => exact ⟨_, rfl, fun _ _ => .node 180 (.last .leaf)⟩
  | application => exact ⟨_, rfl, fun _ _ => .node 181 (.last .leaf)⟩
  | privateClass => exact ⟨_, rfl, fun _ _ => .node 182 (.last .leaf)⟩
  | context => exact ⟨_, rfl, fun _ _ => .node 183 .nil⟩

theorem tag_rd {g : Tag R} (h : TagText a g) : ∃ x, x.tag = g ∧ ∀ p next, Rd L simple (.n NT.Tag) a p next x := by
  cases h with
  | number a c r n h =>
    obtain ⟨x, rfl, hx⟩ := class_rd L simple h
    obtain ⟨y, h, hy⟩ := num_number L simple r n
    exact ⟨_, by rw [← h]; rfl, fun _ _ => .node 177 (.cons .leaf (.cons (hx _ _) (.cons (.node 178 (.last (hy _ _))) (.last .leaf))))⟩
  | defined a b c d h h' =>
    obtain ⟨x, rfl, hx⟩ := class_rd L simple h
    obtain ⟨y, rfl, hy⟩ := defined_rd L simple h'
    exact ⟨_, rfl, fun _ _ => .node 177 (.cons .leaf (.cons (hx _ _) (.cons (.node 179 (.last (hy _ _))) (.last .leaf))))⟩

theorem lowerBound_rd {v : Value R} (h : LowerText L simple a v) :
    ∃ x, x.value = v ∧ ∀ p next, Rd L simple (.n NT.LowerEndValue) a p next x := by
  cases h with
  | value a v h =>
    obtain ⟨x, rfl, hx⟩ := value_rd L simple h
    exact ⟨_, rfl, fun _ _ => .node 264 (.last (hx _ _))⟩
  | min => exact ⟨_, rfl, fun _ _ => .node 265 (.last .leaf)⟩

theorem upperBound_rd {v : Value R} (h : UpperText L simple a v) :
    ∃ x, x.value = v ∧ ∀ p next, Rd L simple (.n NT.UpperEndValue) a p next x := by
  cases h with
  | value a v h =>
    obtain ⟨x, rfl, hx⟩ := value_rd L simple h
    exact ⟨_, rfl, fun _ _ => .node 266 (.last (hx _ _))⟩
  | max => exact ⟨_, rfl, fun _ _ => .node 267 (.last .leaf)⟩

theorem range_rd {v w : RangeEndpoint R} (h : RangeText L simple a v w) :
    ∃ x, x.elements = .valueRange v w ∧ ∀ p next, Rd L simple (.n NT.ValueRange) a p next x := by
  cases h with
  | closed a b v w h h' =>
    obtain ⟨x, rfl, hx⟩ := lowerBound_rd L simple h
    obtain ⟨y, rfl, hy⟩ := upperBound_rd L simple h'
    exact ⟨_, rfl, fun _ _ => .node 259 (.cons (.node 260 (.last (hx _ _))) (.cons .leaf (.last (.node 262 (.last (hy _ _))))))⟩
  | openLower a b v w h h' =>
    obtain ⟨x, rfl, hx⟩ := lowerBound_rd L simple h
    obtain ⟨y, rfl, hy⟩ := upperBound_rd L simple h'
    refine ⟨_, rfl, fun _ _ => cast_rd L simple ?_
      (.node 259 (.cons (.node 261 (.cons (hx _ _) (.last .kw))) (.cons .kw (.last (.node 262 (.last (hy _ _)))))))⟩
    simp
  | openUpper a b v w h h' =>
    obtain ⟨x, rfl, hx⟩ := lowerBound_rd L simple h
    obtain ⟨y, rfl, hy⟩ := upperBound_rd L simple h'
    exact ⟨_, rfl, fun _ _ =>
      .node 259 (.cons (.node 260 (.last (hx _ _))) (.cons .leaf (.last (.node 263 (.cons .leaf (.last (hy _ _)))))))⟩
  | openBoth a b v w h h' =>
    obtain ⟨x, rfl, hx⟩ := lowerBound_rd L simple h
    obtain ⟨y, rfl, hy⟩ := upperBound_rd L simple h'
    refine ⟨_, rfl, fun _ _ => cast_rd L simple ?_
      (.node 259 (.cons (.node 261 (.cons (hx _ _) (.last .kw))) (.cons .kw (.last (.node 263 (.cons .kw (.last (hy _ _))))))))⟩
    simp

theorem presence_rd (h : PresenceText a) : ∃ x, ∀ p next, Rd L simple (.n NT.PresenceConstraint) a p next x := by
  cases h with
  | present => exact ⟨_, fun _ _ => .node 283 (.last .leaf)⟩
  | absent => exact ⟨_, fun _ _ => .node 284 (.last .leaf)⟩
  | optional => exact ⟨_, fun _ _ => .node 285 (.last .leaf)⟩
  | none => exact ⟨_, fun _ _ => .node 286 .nil⟩

theorem version_rd (h : VersionText a) : ∃ x, ∀ p next, Rd L simple (.n NT.VersionNumber) a p next x := by
  cases h with
  | none => exact ⟨_, fun _ _ => .node 146 .nil⟩
  | number r n => exact ⟨_, fun _ _ => .node 147 (.cons .leaf (.last .leaf))⟩

end Asn1go.Notation
