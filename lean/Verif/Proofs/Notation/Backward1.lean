import Verif.Proofs.Notation.Splits1

/-! Preferred derivations come from notation: notation without types. -/

namespace Asn1go.Notation

open Asn1go Spec LR Spec.Notation

variable {R D : Type} {L : Links R D} {simple : Bool} {n : Nat} {a : List Token} {p : Place} {next : Int} {s : SymType R D}

/-- What a rule is not followed by. -/
theorem not_before {r : Nat} (h : Allowed r p next) (c : Int) (hm : ∃ e ∈ notBefore, e.1 = r ∧ c ∈ e.2 := by decide) : next ≠ c := by
  obtain ⟨e, he, hr, hc⟩ := hm
  rintro rfl
  exact h.2.2 e he hr hc

/-- Where a rule is not used. -/
theorem not_there {r : Nat} (h : Allowed r p next) (hm : (r, p) ∈ notThere := by decide) : False := h.2.1 hm

theorem type_upper (h : Rs L simple n (.n NT.typereference) a p next s) : ∃ w, a = [upper w] ∧ s.typeReference = w := by
  obtain ⟨w, _, rfl, rfl⟩ := split_typereference h.succ
  exact ⟨w, rfl, rfl⟩

theorem module_upper (h : Rs L simple n (.n NT.modulereference) a p next s) : ∃ w, a = [upper w] ∧ s.name = w := by
  obtain ⟨w, _, rfl, rfl⟩ := split_modulereference h.succ
  exact ⟨w, rfl, rfl⟩

theorem value_lower (h : Rs L simple n (.n NT.valuereference) a p next s) : ∃ w, a = [lower w] ∧ s.valueReference = w := by
  obtain ⟨w, _, rfl, rfl⟩ := split_valuereference h.succ
  exact ⟨w, rfl, rfl⟩

theorem identifier_lower (h : Rs L simple n (.n NT.identifier) a p next s) : ∃ w, a = [lower w] ∧ s.name = w := by
  obtain ⟨w, _, rfl, rfl⟩ := split_identifier h.succ
  exact ⟨w, rfl, rfl⟩

theorem number_num (h : Rs L simple n (.n NT.number) a p next s) : ∃ w m, a = [num w m] ∧ s.number = (m : Int) := by
  obtain ⟨w, m, _, rfl, rfl⟩ := split_number h.succ
  exact ⟨w, m, rfl, rfl⟩

theorem defined_bk (h : Rs L simple n (.n NT.DefinedValue) a p next s) : DefinedText a s.definedValue := by
  rcases split_DefinedValue h.succ with ⟨_, _, _, _, _, rfl, h1, h2, rfl⟩ | ⟨_, _, _, rfl, h1, rfl⟩
  · obtain ⟨w, rfl, rfl⟩ := module_upper h1
    obtain ⟨v, rfl, rfl⟩ := value_lower h2
    exact .ext _ _
  · obtain ⟨v, rfl, rfl⟩ := value_lower h1
    exact .plain _

theorem signed_bk (h : Rs L simple n (.n NT.SignedNumber) a p next s) : SignedText a s.number := by
  rcases split_SignedNumber h.succ with ⟨_, _, _, rfl, rfl⟩ | ⟨_, _, _, rfl, rfl⟩
  · exact .pos _ _
  · exact .neg _ _

theorem namedNumber_bk (h : Rs L simple n (.n NT.NamedNumber) a p next s) : NamedNumberText a s.namedNumber := by
  rcases split_NamedNumber h.succ with ⟨_, _, _, _, _, rfl, h1, h2, rfl⟩ | ⟨_, _, _, _, _, rfl, h1, h2, rfl⟩
  · obtain ⟨w, rfl, rfl⟩ := identifier_lower h1
    exact .number _ _ _ (signed_bk h2)
  · obtain ⟨w, rfl, rfl⟩ := identifier_lower h1
    exact .defined _ _ _ (defined_bk h2)

theorem namedNumbers_bk : ∀ {n : Nat} {a : List Token} {p : Place} {next : Int} {s : SymType R D},
    Rs L simple n (.n NT.NamedNumberList) a p next s → NamedNumbersText a s.namedNumberList := by
  intro n
  induction n with
  | zero => intro a p next s h; exact h.not_zero.elim
  | succ n ih =>
    intro a p next s h
    rcases split_NamedNumberList h with ⟨_, _, _, rfl, h1, rfl⟩ | ⟨_, _, _, _, _, rfl, h1, h2, rfl⟩
    · exact .one _ _ (namedNumber_bk h1)
    · exact .snoc _ _ _ _ (ih h1) (namedNumber_bk h2)

theorem enumItem_bk (h : Rs L simple n (.n NT.EnumerationItem) a p next s) : EnumItemText a s.enumerationItem := by
  rcases split_EnumerationItem h.succ with ⟨_, _, _, rfl, h1, rfl⟩ | ⟨_, _, _, rfl, h1, rfl⟩
  · exact .number _ _ (namedNumber_bk h1)
  · obtain ⟨w, rfl, rfl⟩ := identifier_lower h1
    exact .name _

theorem enum_bk : ∀ {n : Nat} {a : List Token} {p : Place} {next : Int} {s : SymType R D},
    Rs L simple n (.n NT.Enumeration) a p next s → next ≠ Tok.COMMA ∧ EnumText a s.enumeration := by
  intro n
  induction n with
  | zero => intro a p next s h; exact h.not_zero.elim
  | succ n ih =>
    intro a p next s h
    rcases split_Enumeration h with ⟨_, _, ha, rfl, h1, rfl⟩ | ⟨_, _, _, _, _, rfl, h1, h2, rfl⟩
    · exact ⟨not_before ha _, .one _ _ (enumItem_bk h1)⟩
    · exact ⟨(ih h2).1, .cons _ _ _ _ (enumItem_bk h1) (ih h2).2⟩

theorem exponent_bk (h : Rs L simple n (.n NT.SignedExponent) a p next s) : ExponentText a s.number := by
  rcases split_SignedExponent h.succ with ⟨_, _, _, rfl, rfl⟩ | ⟨_, _, _, rfl, rfl⟩
  · exact .pos _ _
  · exact .neg _ _

theorem real_bk (h : Rs L simple n (.n NT.realnumber) a p next s) : RealText a s.real := by
  rcases split_realnumber h.succ with ⟨_, _, _, _, _, rfl, rfl⟩ | ⟨_, _, _, _, _, _, _, rfl, h1, rfl⟩ | ⟨_, _, _, _, _, rfl, h1, rfl⟩
  · exact .fraction _ _ _ _
  · exact .both _ _ _ _ _ _ (exponent_bk h1)
  · exact .exponent _ _ _ _ (exponent_bk h1)

theorem nameAndNumber_bk (h : Rs L simple n (.n NT.NameAndNumberForm) a p next s) : OidElementText L a s.objectIdElement := by
  obtain ⟨_, _, _, _, _, rfl, h1, h2, rfl⟩ := split_NameAndNumberForm h.succ
  obtain ⟨w, rfl, rfl⟩ := identifier_lower h1
  rcases split_NumberForm h2.succ with ⟨_, _, _, rfl, rfl⟩ | ⟨_, _, _, rfl, h3, rfl⟩
  · exact .nameNumber _ _ _
  · exact .nameDefined _ _ _ (defined_bk h3)

theorem oidComponent_bk (h : Rs L simple n (.n NT.ObjIdComponents) a p next s) :
    OidComponentText L a s.objectIdElement ∧ (p = .oidHead → OidElementText L a s.objectIdElement) := by
  rcases split_ObjIdComponents h.succ with ⟨_, _, _, rfl, h1, rfl⟩ | ⟨_, _, _, rfl, h1, rfl⟩ | ⟨_, _, ha, rfl, h1, rfl⟩
  · rcases split_NumberForm h1.succ with ⟨_, _, _, rfl, rfl⟩ | ⟨_, _, ha, rfl, h3, rfl⟩
    · exact ⟨.element _ _ (.number _ _), fun _ => .number _ _⟩
    · exact (not_there ha).elim
  · exact ⟨.element _ _ (nameAndNumber_bk h1), fun _ => nameAndNumber_bk h1⟩
  · refine ⟨.defined _ _ (defined_bk h1), ?_⟩
    rintro rfl
    exact (not_there ha).elim

theorem child_190_one : Place.child 190 p 1 = .other := by cases p <;> rfl

theorem oidComponents_bk : ∀ {n : Nat} {a : List Token} {p : Place} {next : Int} {s : SymType R D},
    Rs L simple n (.n NT.ObjIdComponentsList) a p next s → OidComponentsText L a s.objectIdentifierValue := by
  intro n
  induction n with
  | zero => intro a p next s h; exact h.not_zero.elim
  | succ n ih =>
    intro a p next s h
    rcases split_ObjIdComponentsList h with ⟨_, _, _, rfl, h1, rfl⟩ | ⟨_, _, _, _, _, rfl, h1, h2, rfl⟩
    · exact .one _ _ (oidComponent_bk h1).1
    · exact .cons _ _ _ _ (oidComponent_bk h1).1 (ih h2)

theorem oid_bk (h : Rs L simple n (.n NT.ObjectIdentifierValue) a p next s) : OidText L simple a s.objectIdentifierValue := by
  rcases split_ObjectIdentifierValue h.succ with ⟨_, _, _, rfl, h1, rfl⟩ | ⟨_, _, _, _, _, hs, rfl, h1, h2, rfl⟩
  · rcases split_ObjIdComponentsList h1.succ with ⟨_, _, _, rfl, h3, rfl⟩ | ⟨_, _, _, _, _, rfl, h3, h2, rfl⟩
    · exact .one _ _ (oidComponent_bk h3).1
    · rw [List.append_assoc]
      exact .many _ _ _ _ ((oidComponent_bk h3).2 rfl) (oidComponents_bk h2)
  · exact .head _ _ _ _ hs (defined_bk h1) (oidComponents_bk h2)

theorem value_bk (h : Rs L simple n (.n NT.Value) a p next s) : ValueText L simple a s.value := by
  obtain ⟨_, _, _, rfl, h1, rfl⟩ := split_Value h.succ
  rcases split_BuiltinValue h1.succ with ⟨_, _, _, rfl, h2, rfl⟩ | ⟨_, _, _, rfl, h2, rfl⟩ | ⟨_, _, _, rfl, h2, rfl⟩ | ⟨_, _, _, rfl, h2, rfl⟩
  · rcases split_BooleanValue h2.succ with ⟨_, rfl, rfl⟩ | ⟨_, rfl, rfl⟩
    · exact .true
    · exact .false
  · rcases split_IntegerValue h2.succ with ⟨_, _, _, rfl, h3, rfl⟩ | ⟨_, _, _, rfl, h3, rfl⟩
    · exact .number _ _ (signed_bk h3)
    · obtain ⟨w, rfl, rfl⟩ := identifier_lower h3
      exact .name _
  · exact .oid _ _ (oid_bk h2)
  · rcases split_RealValue h2.succ with ⟨_, _, _, rfl, h3, rfl⟩ | ⟨_, _, _, rfl, h3, rfl⟩
    · rcases split_NumericRealValue h3.succ with ⟨_, _, _, rfl, h4, rfl⟩ | ⟨_, _, _, rfl, h4, rfl⟩
      · exact .real _ _ (real_bk h4)
      · exact .minusReal _ _ (real_bk h4)
    · rcases split_SpecialRealValue h3.succ with ⟨_, rfl, rfl⟩ | ⟨_, rfl, rfl⟩
      · exact .plusInfinity
      · exact .minusInfinity

theorem namedBit_bk (h : Rs L simple n (.n NT.NamedBit) a p next s) : NamedBitText a s.namedBit := by
  rcases split_NamedBit h.succ with ⟨_, _, _, _, _, rfl, h1, h2, rfl⟩ | ⟨_, _, _, _, _, rfl, h1, h2, rfl⟩
  · obtain ⟨w, rfl, rfl⟩ := identifier_lower h1
    obtain ⟨r, m, rfl, e⟩ := number_num h2
    have : ∀ (x : SymType R D) (y : SymType R D), (act L 123 [x, leafValue .none, y, leafValue .none]).namedBit = ⟨x.name, .number y.number⟩ :=
      fun _ _ => rfl
    rw [this, e]
    exact .number _ _ _
  · obtain ⟨w, rfl, rfl⟩ := identifier_lower h1
    exact .defined _ _ _ (defined_bk h2)

theorem namedBits_bk : ∀ {n : Nat} {a : List Token} {p : Place} {next : Int} {s : SymType R D},
    Rs L simple n (.n NT.NamedBitList) a p next s → NamedBitsText a s.namedBitList := by
  intro n
  induction n with
  | zero => intro a p next s h; exact h.not_zero.elim
  | succ n ih =>
    intro a p next s h
    rcases split_NamedBitList h with ⟨_, _, _, rfl, h1, rfl⟩ | ⟨_, _, _, _, _, rfl, h1, h2, rfl⟩
    · exact .one _ _ (namedBit_bk h1)
    · exact .snoc _ _ _ _ (ih h1) (namedBit_bk h2)

theorem class_bk (h : Rs L simple n (.n NT.Class) a p next s) : ClassText a s.cls := by
  rcases split_Class h.succ with ⟨_, rfl, rfl⟩ | ⟨_, rfl, rfl⟩ | ⟨_, rfl, rfl⟩ | ⟨_, rfl, rfl⟩
  · exact .universal
  · exact .application
  · exact .privateClass
  · exact .context

theorem tag_bk (h : Rs L simple n (.n NT.Tag) a p next s) : TagText a s.tag := by
  obtain ⟨_, _, _, _, _, rfl, h1, h2, rfl⟩ := split_Tag h.succ
  rcases split_ClassNumber h2.succ with ⟨_, _, _, rfl, h3, rfl⟩ | ⟨_, _, _, rfl, h3, rfl⟩
  · obtain ⟨r, m, rfl, e⟩ := number_num h3
    have : ∀ (x y : SymType R D), (act L 177 [leafValue .none, x, act L 178 [y], leafValue .none]).tag = ⟨x.cls, .number y.number⟩ :=
      fun _ _ => rfl
    rw [this, e]
    exact .number _ _ _ _ (class_bk h1)
  · exact .defined _ _ _ _ (class_bk h1) (defined_bk h3)

theorem lowerBound_bk (h : Rs L simple n (.n NT.LowerEndValue) a p next s) : LowerText L simple a s.value := by
  rcases split_LowerEndValue h.succ with ⟨_, _, _, rfl, h1, rfl⟩ | ⟨_, rfl, rfl⟩
  · exact .value _ _ (value_bk h1)
  · exact .min

theorem upperBound_bk (h : Rs L simple n (.n NT.UpperEndValue) a p next s) : UpperText L simple a s.value := by
  rcases split_UpperEndValue h.succ with ⟨_, _, _, rfl, h1, rfl⟩ | ⟨_, rfl, rfl⟩
  · exact .value _ _ (value_bk h1)
  · exact .max

theorem range_bk (h : Rs L simple n (.n NT.ValueRange) a p next s) : ∃ v w, s.elements = .valueRange v w ∧ RangeText L simple a v w := by
  obtain ⟨_, _, _, _, _, rfl, h1, h2, rfl⟩ := split_ValueRange h.succ
  rcases split_LowerEndpoint h1.succ with ⟨_, _, _, rfl, h3, rfl⟩ | ⟨_, _, _, rfl, h3, rfl⟩ <;>
    rcases split_UpperEndpoint h2.succ with ⟨_, _, _, rfl, h4, rfl⟩ | ⟨_, _, _, rfl, h4, rfl⟩
  · exact ⟨_, _, rfl, .closed _ _ _ _ (lowerBound_bk h3) (upperBound_bk h4)⟩
  · exact ⟨_, _, rfl, .openUpper _ _ _ _ (lowerBound_bk h3) (upperBound_bk h4)⟩
  · rw [List.append_assoc]
    exact ⟨_, _, rfl, .openLower _ _ _ _ (lowerBound_bk h3) (upperBound_bk h4)⟩
  · rw [List.append_assoc]
    exact ⟨_, _, rfl, .openBoth _ _ _ _ (lowerBound_bk h3) (upperBound_bk h4)⟩

theorem presence_bk (h : Rs L simple n (.n NT.PresenceConstraint) a p next s) : PresenceText a := by
  rcases split_PresenceConstraint h.succ with ⟨_, rfl, rfl⟩ | ⟨_, rfl, rfl⟩ | ⟨_, rfl, rfl⟩ | ⟨_, rfl, rfl⟩
  · exact .present
  · exact .absent
  · exact .optional
  · exact .none

theorem version_bk (h : Rs L simple n (.n NT.VersionNumber) a p next s) : VersionText a := by
  rcases split_VersionNumber h.succ with ⟨_, rfl, rfl⟩ | ⟨_, _, _, rfl, rfl⟩
  · exact .none
  · exact .number _ _

theorem string_bk (h : Rs L simple n (.n NT.RestrictedCharacterStringType) a p next s) :
    ∃ code ∈ stringTypes, a = [kw code] ∧ s.type = .restrictedString code := by
  rcases split_RestrictedCharacterStringType h.succ with ⟨_, rfl, rfl⟩ | ⟨_, rfl, rfl⟩ | ⟨_, rfl, rfl⟩ | ⟨_, rfl, rfl⟩ | ⟨_, rfl, rfl⟩ |
    ⟨_, rfl, rfl⟩ | ⟨_, rfl, rfl⟩ | ⟨_, rfl, rfl⟩ | ⟨_, rfl, rfl⟩ | ⟨_, rfl, rfl⟩ | ⟨_, rfl, rfl⟩ | ⟨_, rfl, rfl⟩ | ⟨_, rfl, rfl⟩
  all_goals exact ⟨_, by decide, rfl, rfl⟩

end Asn1go.Notation
