import Verif.Proofs.Notation.Backward1

/-! Preferred derivations come from notation: types and constraints. -/

namespace Asn1go.Notation

open Asn1go Spec LR Spec.Notation

variable {R D : Type} {L : Links R D} {simple : Bool} {N : Nat} {a : List Token} {p : Place} {next : Int} {s : SymType R D}

/-- What is to be shown of derivations of size at most `N`. -/
structure Back (L : Links R D) (simple : Bool) (N : Nat) : Prop where
  type : ∀ {a : List Token} {p : Place} {next : Int} {s : SymType R D}, Rs L simple N (.n NT.Type) a p next s →
    ∀ c : Bool, c = false ∨ next = Tok.OPEN_ROUND → TypeText L simple c a s.type
  constraint : ∀ {a : List Token} {p : Place} {next : Int} {s : SymType R D}, Rs L simple N (.n NT.Constraint) a p next s →
    ConstraintText L simple a s.constraint
  set : ∀ {a : List Token} {p : Place} {next : Int} {s : SymType R D}, Rs L simple N (.n NT.ElementSetSpec) a p next s →
    SetText L simple a s.elementSetSpec

theorem Back.plain (B : Back L simple N) (h : Rs L simple N (.n NT.Type) a p next s) : TypeText L simple false a s.type :=
  B.type h _ (.inl rfl)

theorem namedType_bk (B : Back L simple N) (h : Rs L simple N (.n NT.NamedType) a p next s) :
    next ≠ Tok.OPEN_ROUND ∧ NamedTypeText L simple a s.namedType := by
  obtain ⟨_, _, _, _, ha, rfl, h1, h2, rfl⟩ := split_NamedType h.succ
  obtain ⟨w, rfl, rfl⟩ := identifier_lower h1
  exact ⟨not_before ha _, .mk _ _ _ (B.plain h2)⟩

theorem namedTypes_bk (B : Back L simple N) : ∀ {n : Nat} {a : List Token} {p : Place} {next : Int} {s : SymType R D}, n ≤ N →
    Rs L simple n (.n NT.AlternativeTypeList) a p next s → NamedTypesText L simple a s.alternativeTypeList := by
  intro n
  induction n with
  | zero => intro a p next s _ h; exact h.not_zero.elim
  | succ n ih =>
    intro a p next s hn h
    rcases split_AlternativeTypeList h with ⟨_, _, _, rfl, h1, rfl⟩ | ⟨_, _, _, _, _, rfl, h1, h2, rfl⟩
    · exact .one _ _ (namedType_bk B (h1.mono (by omega))).2
    · exact .snoc _ _ _ _ (ih (by omega) h1) (namedType_bk B (h2.mono (by omega))).2

theorem extensionAlternatives_bk (B : Back L simple N) : ∀ {n : Nat} {a : List Token} {p : Place} {next : Int} {s : SymType R D}, n ≤ N →
    Rs L simple n (.n NT.ExtensionAdditionAlternativesList) a p next s →
      ∃ l, s.extensionAdditionAlternativesList = l.map .named ∧ NamedTypesText L simple a l := by
  intro n
  induction n with
  | zero => intro a p next s _ h; exact h.not_zero.elim
  | succ n ih =>
    intro a p next s hn h
    rcases split_ExtensionAdditionAlternativesList h with ⟨_, _, _, rfl, h1, rfl⟩ | ⟨_, _, _, _, _, rfl, h1, h2, rfl⟩
    · obtain ⟨_, _, _, rfl, h4, rfl⟩ := split_ExtensionAdditionAlternative (h1.mono (Nat.le_of_succ_le hn)).succ
      exact ⟨[_], rfl, .one _ _ (namedType_bk B h4).2⟩
    · obtain ⟨_, _, _, rfl, h4, rfl⟩ := split_ExtensionAdditionAlternative (h2.mono (Nat.le_of_succ_le hn)).succ
      obtain ⟨l, e, hl⟩ := ih (by omega) h1
      refine ⟨_, ?_, .snoc _ _ _ _ hl (namedType_bk B h4).2⟩
      rw [List.map_append, ← e]
      rfl

theorem alternatives_bk (B : Back L simple N) (h : Rs L simple N (.n NT.ExtensionAdditionAlternatives) a p next s) :
    next ≠ Tok.COMMA ∧ AlternativesText L simple a s.extensionAdditionAlternativesList := by
  rcases split_ExtensionAdditionAlternatives h.succ with ⟨_, _, ha, rfl, h1, rfl⟩ | ⟨ha, rfl, rfl⟩
  · obtain ⟨l, e, hl⟩ := extensionAlternatives_bk B (Nat.le_refl _) h1
    refine ⟨not_before ha _, ?_⟩
    have := AlternativesText.some _ _ hl
    rw [← e] at this
    exact this
  · exact ⟨not_before ha _, .none⟩

theorem component_bk (B : Back L simple N) (h : Rs L simple N (.n NT.ComponentType) a p next s) : ComponentText L simple a s.componentType := by
  rcases split_ComponentType h.succ with ⟨_, _, _, rfl, h1, rfl⟩ | ⟨_, _, _, rfl, h1, rfl⟩ | ⟨_, _, _, _, _, hs, rfl, h1, h2, rfl⟩ |
    ⟨_, _, _, rfl, h1, rfl⟩
  · exact .required _ _ (namedType_bk B h1).2
  · exact .optional _ _ (namedType_bk B h1).2
  · exact .default _ _ _ _ hs (namedType_bk B h1).2 (value_bk h2)
  · exact .componentsOf _ _ (B.plain h1)

theorem components_bk (B : Back L simple N) : ∀ {n : Nat} {a : List Token} {p : Place} {next : Int} {s : SymType R D}, n ≤ N →
    Rs L simple n (.n NT.ComponentTypeList) a p next s → ComponentsText L simple a s.componentTypeList := by
  intro n
  induction n with
  | zero => intro a p next s _ h; exact h.not_zero.elim
  | succ n ih =>
    intro a p next s hn h
    rcases split_ComponentTypeList h with ⟨_, _, _, rfl, h1, rfl⟩ | ⟨_, _, _, _, _, rfl, h1, h2, rfl⟩
    · exact .one _ _ (component_bk B (h1.mono (by omega)))
    · exact .snoc _ _ _ _ (ih (by omega) h1) (component_bk B (h2.mono (by omega)))

theorem addition_bk (B : Back L simple N) (h : Rs L simple N (.n NT.ExtensionAddition) a p next s) :
    AdditionText L simple a s.extensionAdditions := by
  rcases split_ExtensionAddition h.succ with ⟨_, _, _, rfl, h1, rfl⟩ | ⟨_, _, _, rfl, h1, rfl⟩
  · exact .component _ _ (component_bk B h1)
  · obtain ⟨_, _, _, _, _, rfl, h2, h3, rfl⟩ := split_ExtensionAdditionGroup h1.succ
    exact .group _ _ _ (version_bk h2) (components_bk B (Nat.le_refl _) h3)

theorem additions_bk (B : Back L simple N) : ∀ {n : Nat} {a : List Token} {p : Place} {next : Int} {s : SymType R D}, n ≤ N →
    Rs L simple n (.n NT.ExtensionAdditionList) a p next s → AdditionsText L simple a s.extensionAdditions := by
  intro n
  induction n with
  | zero => intro a p next s _ h; exact h.not_zero.elim
  | succ n ih =>
    intro a p next s hn h
    rcases split_ExtensionAdditionList h with ⟨_, _, _, rfl, h1, rfl⟩ | ⟨_, _, _, _, _, rfl, h1, h2, rfl⟩
    · exact .one _ _ (addition_bk B (h1.mono (by omega)))
    · exact .snoc _ _ _ _ (ih (by omega) h1) (addition_bk B (h2.mono (by omega)))

theorem exception_bk (B : Back L simple N) (h : Rs L simple N (.n NT.ExceptionSpec) a p next s) : ExceptionText L simple a := by
  rcases split_ExceptionSpec h.succ with ⟨_, _, _, rfl, h1, rfl⟩ | ⟨_, rfl, rfl⟩
  · rcases split_ExceptionIdentification h1.succ with ⟨_, _, _, rfl, h2, rfl⟩ | ⟨_, _, _, rfl, h2, rfl⟩ | ⟨_, _, _, _, _, rfl, h2, h3, rfl⟩
    · exact .number _ _ (signed_bk h2)
    · exact .defined _ _ (defined_bk h2)
    · exact .typed _ _ _ _ (B.plain h2) (value_bk h3)
  · exact .none

theorem ellipsis_bk (B : Back L simple N) (h : Rs L simple N (.n NT.ExtensionAndException) a p next s) :
    ∃ b, a = kw Tok.ELLIPSIS :: b ∧ ExceptionText L simple b := by
  rcases split_ExtensionAndException h.succ with ⟨_, rfl, rfl⟩ | ⟨_, _, _, rfl, h1, rfl⟩
  · exact ⟨_, rfl, .none⟩
  · exact ⟨_, rfl, exception_bk B h1⟩

theorem marker_bk (h : Rs L simple N (.n NT.OptionalExtensionMarker) a p next s) : a = [] ∨ a = [kw Tok.COMMA, kw Tok.ELLIPSIS] := by
  rcases split_OptionalExtensionMarker h.succ with ⟨_, rfl, rfl⟩ | ⟨_, rfl, rfl⟩
  · exact .inr rfl
  · exact .inl rfl

/-- What stands between the braces, with at least one component. -/
theorem lists_bk (B : Back L simple N) (h : Rs L simple N (.n NT.ComponentTypeLists) a p next s) :
    BodyText L simple a (s.componentTypeLists.components ++ s.componentTypeLists.trailingComponents)
      s.componentTypeLists.extensionAdditions := by
  rcases split_ComponentTypeLists h.succ with ⟨_, x, _, rfl, h1, rfl⟩ | ⟨_, x, _, y, _, z, _, w, _, rfl, h1, h2, h3, h4, rfl⟩ |
    ⟨_, _, _, _, _, _, _, _, _, _, _, rfl, h1, h2, h3, h4, h5, rfl⟩
  · have := BodyText.components _ _ (components_bk B (Nat.le_refl _) h1)
    rw [← List.append_nil x.componentTypeList] at this
    exact this
  · obtain ⟨b, rfl, hb⟩ := ellipsis_bk B h2
    rcases split_ExtensionAdditions h3.succ with ⟨_, e, ha, rfl, h5, rfl⟩ | ⟨ha, rfl, rfl⟩
    · rcases marker_bk h4 with rfl | rfl
      · have := BodyText.extended _ _ _ _ _ (components_bk B (Nat.le_refl _) h1) hb (additions_bk B (Nat.le_refl _) h5)
        rw [← List.append_nil x.componentTypeList] at this
        rw [List.append_nil]
        exact this
      · exact absurd rfl (not_before ha Tok.COMMA)
    · rcases marker_bk h4 with rfl | rfl
      · have := BodyText.extensible _ _ _ (components_bk B (Nat.le_refl _) h1) hb
        rw [← List.append_nil x.componentTypeList] at this
        rw [List.append_nil, List.append_nil]
        exact this
      · exact absurd rfl (not_before ha Tok.COMMA)
  · obtain ⟨_, rfl, rfl⟩ := split_ExtensionEndMarker h4.succ
    rcases split_ExtensionAdditions h3.succ with ⟨_, e, ha, rfl, h5, rfl⟩ | ⟨ha, rfl, rfl⟩
    · exact absurd rfl (not_before ha Tok.COMMA)
    · exact absurd rfl (not_before ha Tok.COMMA)

theorem extensionBody_bk (B : Back L simple N) {b : List Token} {q : Place} {next' : Int} {s' : SymType R D}
    (h1 : Rs L simple N (.n NT.ExtensionAndException) a p next s) (h2 : Rs L simple N (.n NT.OptionalExtensionMarker) b q next' s') :
    BodyText L simple (a ++ b) [] [] := by
  obtain ⟨e, rfl, he⟩ := ellipsis_bk B h1
  rcases marker_bk h2 with rfl | rfl
  · rw [List.append_nil]
    exact .ellipsis _ he
  · exact .twoEllipses _ he

theorem sequence_bk (B : Back L simple N) (h : Rs L simple N (.n NT.SequenceType) a p next s) (c : Bool) : TypeText L simple c a s.type := by
  rcases split_SequenceType h.succ with ⟨_, rfl, rfl⟩ | ⟨_, _, _, _, _, rfl, h1, h2, rfl⟩ | ⟨_, _, _, rfl, h1, rfl⟩
  · exact .sequence _ _ _ _ .empty
  · rw [← List.append_assoc]
    exact .sequence _ _ _ _ (extensionBody_bk B h1 h2)
  · exact .sequence _ _ _ _ (lists_bk B h1)

theorem setType_bk (B : Back L simple N) (h : Rs L simple N (.n NT.SetType) a p next s) (c : Bool) : TypeText L simple c a s.type := by
  rcases split_SetType h.succ with ⟨_, rfl, rfl⟩ | ⟨_, _, _, _, _, rfl, h1, h2, rfl⟩ | ⟨_, _, _, rfl, h1, rfl⟩
  · exact .set _ _ _ _ .empty
  · rw [← List.append_assoc]
    exact .set _ _ _ _ (extensionBody_bk B h1 h2)
  · exact .set _ _ _ _ (lists_bk B h1)

theorem choice_bk (B : Back L simple N) (h : Rs L simple N (.n NT.ChoiceType) a p next s) (c : Bool) : TypeText L simple c a s.type := by
  obtain ⟨_, _, _, rfl, h1, rfl⟩ := split_ChoiceType h.succ
  rcases split_AlternativeTypeLists h1.succ with ⟨_, _, _, _, _, _, _, _, _, rfl, h2, h3, h4, h5, rfl⟩ | ⟨_, _, _, rfl, h2, rfl⟩ |
    ⟨_, _, _, _, _, _, _, rfl, h3, h4, h5, rfl⟩
  · obtain ⟨e, rfl, he⟩ := ellipsis_bk B h3
    rcases marker_bk h5 with rfl | rfl
    · have := TypeText.choiceMore c _ _ _ _ _ (namedTypes_bk B (Nat.le_refl _) h2) he (alternatives_bk B h4).2
      simp only [List.append_nil, List.append_assoc, List.cons_append]
      exact this
    · exact absurd rfl (alternatives_bk B h4).1
  · exact .choice _ _ _ (namedTypes_bk B (Nat.le_refl _) h2)
  · obtain ⟨e, rfl, he⟩ := ellipsis_bk B h3
    rcases marker_bk h5 with rfl | rfl
    · have := TypeText.choiceOpen c _ _ _ he (alternatives_bk B h4).2
      simp only [List.append_nil, List.append_assoc, List.cons_append]
      exact this
    · exact absurd rfl (alternatives_bk B h4).1

theorem open_of_constraint {b : List Token} {k : Constraint R D} (h : ConstraintText L simple b k) (next : Int) :
    firstCode next b = Tok.OPEN_ROUND := by
  cases h
  rfl

theorem size_bk (B : Back L simple N) (h : Rs L simple N (.n NT.SizeConstraint) a p next s) :
    OfConstraintText L simple a (singleElementConstraint s.elements) ∧ ElementsText L simple a s.elements := by
  obtain ⟨_, _, _, rfl, h1, rfl⟩ := split_SizeConstraint h.succ
  exact ⟨.size _ _ (B.constraint h1), .size _ _ (B.constraint h1)⟩

/-- The types before which a constraint would be misread. -/
theorem no_open {c : Bool} {r : Nat} {P : Bool → Prop} (ha : Allowed r p next) (hc : c = false ∨ next = Tok.OPEN_ROUND) (hP : P false)
    (hm : ∃ e ∈ notBefore, e.1 = r ∧ Tok.OPEN_ROUND ∈ e.2 := by decide) : P c := by
  rcases hc with rfl | h
  · exact hP
  · exact absurd h (not_before ha Tok.OPEN_ROUND hm)

theorem no_open' {c : Bool} {P : Bool → Prop} (ha : next ≠ Tok.OPEN_ROUND) (hc : c = false ∨ next = Tok.OPEN_ROUND) (hP : P false) : P c := by
  rcases hc with rfl | h
  · exact hP
  · exact absurd h ha

theorem withConstraint_bk (B : Back L simple N) (h : Rs L simple N (.n NT.TypeWithConstraint) a p next s) (c : Bool)
    (hc : c = false ∨ next = Tok.OPEN_ROUND) : TypeText L simple c a s.type := by
  rcases split_TypeWithConstraint h.succ with ⟨_, _, _, _, ha, rfl, h1, h2, rfl⟩ | ⟨_, _, _, _, ha, rfl, h1, h2, rfl⟩ |
    ⟨_, _, _, _, ha, rfl, h1, h2, rfl⟩ | ⟨_, _, _, _, ha, rfl, h1, h2, rfl⟩ | ⟨_, _, _, _, ha, rfl, h1, h2, rfl⟩ |
    ⟨_, _, _, _, ha, rfl, h1, h2, rfl⟩ | ⟨_, _, _, _, ha, rfl, h1, h2, rfl⟩ | ⟨_, _, _, _, ha, rfl, h1, h2, rfl⟩
  · refine no_open (P := fun c => TypeText L simple c _ _) ha hc ?_
    exact .constrainedSetOf _ _ _ _ (.constraint _ _ (B.constraint h1)) (.type _ _ (B.plain h2))
  · refine no_open (P := fun c => TypeText L simple c _ _) ha hc ?_
    exact .constrainedSetOf _ _ _ _ (size_bk B h1).1 (.type _ _ (B.plain h2))
  · refine no_open (P := fun c => TypeText L simple c _ _) ha hc ?_
    exact .constrainedSequenceOf _ _ _ _ (.constraint _ _ (B.constraint h1)) (.type _ _ (B.plain h2))
  · refine no_open (P := fun c => TypeText L simple c _ _) ha hc ?_
    exact .constrainedSequenceOf _ _ _ _ (size_bk B h1).1 (.type _ _ (B.plain h2))
  · refine no_open' (P := fun c => TypeText L simple c _ _) (namedType_bk B h2).1 hc ?_
    exact .constrainedSetOf _ _ _ _ (.constraint _ _ (B.constraint h1)) (.named _ _ (namedType_bk B h2).2)
  · refine no_open' (P := fun c => TypeText L simple c _ _) (namedType_bk B h2).1 hc ?_
    exact .constrainedSetOf _ _ _ _ (size_bk B h1).1 (.named _ _ (namedType_bk B h2).2)
  · refine no_open' (P := fun c => TypeText L simple c _ _) (namedType_bk B h2).1 hc ?_
    exact .constrainedSequenceOf _ _ _ _ (.constraint _ _ (B.constraint h1)) (.named _ _ (namedType_bk B h2).2)
  · refine no_open' (P := fun c => TypeText L simple c _ _) (namedType_bk B h2).1 hc ?_
    exact .constrainedSequenceOf _ _ _ _ (size_bk B h1).1 (.named _ _ (namedType_bk B h2).2)

theorem tagged_bk (B : Back L simple N) (h : Rs L simple N (.n NT.TaggedType) a p next s) (c : Bool)
    (hc : c = false ∨ next = Tok.OPEN_ROUND) : TypeText L simple c a s.type := by
  rcases split_TaggedType h.succ with ⟨_, _, _, _, ha, rfl, h1, h2, rfl⟩ | ⟨_, _, _, _, ha, rfl, h1, h2, rfl⟩ |
    ⟨_, _, _, _, ha, rfl, h1, h2, rfl⟩
  · refine no_open (P := fun c => TypeText L simple c _ _) ha hc ?_
    exact .tagged _ _ _ _ _ _ _ (tag_bk h1) .none (B.plain h2)
  · refine no_open (P := fun c => TypeText L simple c _ _) ha hc ?_
    exact .tagged _ _ _ _ _ _ _ (tag_bk h1) .implicit (B.plain h2)
  · refine no_open (P := fun c => TypeText L simple c _ _) ha hc ?_
    exact .tagged _ _ _ _ _ _ _ (tag_bk h1) .explicit (B.plain h2)

theorem setOf_bk (B : Back L simple N) (h : Rs L simple N (.n NT.SetOfType) a p next s) (c : Bool)
    (hc : c = false ∨ next = Tok.OPEN_ROUND) : TypeText L simple c a s.type := by
  rcases split_SetOfType h.succ with ⟨_, _, ha, rfl, h1, rfl⟩ | ⟨_, _, ha, rfl, h1, rfl⟩
  · refine no_open (P := fun c => TypeText L simple c _ _) ha hc ?_
    exact .setOf _ _ (.type _ _ (B.plain h1))
  · refine no_open' (P := fun c => TypeText L simple c _ _) (namedType_bk B h1).1 hc ?_
    exact .setOf _ _ (.named _ _ (namedType_bk B h1).2)

theorem sequenceOf_bk (B : Back L simple N) (h : Rs L simple N (.n NT.SequenceOfType) a p next s) (c : Bool)
    (hc : c = false ∨ next = Tok.OPEN_ROUND) : TypeText L simple c a s.type := by
  rcases split_SequenceOfType h.succ with ⟨_, _, ha, rfl, h1, rfl⟩ | ⟨_, _, ha, rfl, h1, rfl⟩
  · refine no_open (P := fun c => TypeText L simple c _ _) ha hc ?_
    exact .sequenceOf _ _ (.type _ _ (B.plain h1))
  · refine no_open' (P := fun c => TypeText L simple c _ _) (namedType_bk B h1).1 hc ?_
    exact .sequenceOf _ _ (.named _ _ (namedType_bk B h1).2)

theorem builtin_bk (B : Back L simple N) (h : Rs L simple N (.n NT.BuiltinType) a p next s) (c : Bool)
    (hc : c = false ∨ next = Tok.OPEN_ROUND) : TypeText L simple c a s.type := by
  rcases split_BuiltinType h.succ with ⟨_, _, _, rfl, h1, rfl⟩ | ⟨_, _, _, rfl, h1, rfl⟩ | ⟨_, _, _, rfl, h1, rfl⟩ | ⟨_, _, _, rfl, h1, rfl⟩ |
    ⟨_, _, _, rfl, h1, rfl⟩ | ⟨_, _, _, rfl, h1, rfl⟩ | ⟨_, _, _, rfl, h1, rfl⟩ | ⟨_, _, _, rfl, h1, rfl⟩ |
    ⟨_, _, _, rfl, h1, rfl⟩ | ⟨_, _, _, rfl, h1, rfl⟩ | ⟨_, _, _, rfl, h1, rfl⟩ | ⟨_, _, _, rfl, h1, rfl⟩ |
    ⟨_, _, _, rfl, h1, rfl⟩ | ⟨_, _, _, rfl, h1, rfl⟩ | ⟨_, _, _, rfl, h1, rfl⟩ | ⟨_, _, _, rfl, h1, rfl⟩
  · rcases split_BitStringType h1.succ with ⟨_, rfl, rfl⟩ | ⟨_, _, _, rfl, h2, rfl⟩
    · exact .bitString _
    · exact .bitStringNames _ _ _ (namedBits_bk h2)
  · obtain ⟨_, rfl, rfl⟩ := split_BooleanType h1.succ
    exact .boolean _
  · rcases split_CharacterStringType h1.succ with ⟨_, _, _, rfl, h2, rfl⟩ | ⟨_, _, _, rfl, h2, rfl⟩
    · obtain ⟨code, hm, rfl, e⟩ := string_bk h2
      have := TypeText.string (L := L) (simple := simple) c code hm
      rw [← e] at this
      exact this
    · obtain ⟨_, rfl, rfl⟩ := split_UnrestrictedCharacterStringType h2.succ
      exact .characterString _
  · exact choice_bk B h1 c
  · obtain ⟨_, _, _, rfl, h2, rfl⟩ := split_EnumeratedType h1.succ
    rcases split_Enumerations h2.succ with ⟨_, _, _, rfl, h3, rfl⟩ | ⟨_, _, _, _, _, rfl, h3, _, rfl⟩ | ⟨_, _, _, _, _, _, _, rfl, h3, _, _, rfl⟩
    · obtain ⟨_, _, _, rfl, h4, rfl⟩ := split_RootEnumeration h3.succ
      exact .enumerated _ _ _ (enum_bk h4).2
    · obtain ⟨_, _, _, rfl, h4, rfl⟩ := split_RootEnumeration h3.succ
      exact absurd rfl (enum_bk h4).1
    · obtain ⟨_, _, _, rfl, h4, rfl⟩ := split_RootEnumeration h3.succ
      exact absurd rfl (enum_bk h4).1
  · rcases split_IntegerType h1.succ with ⟨_, rfl, rfl⟩ | ⟨_, _, _, rfl, h2, rfl⟩
    · exact .integer _
    · exact .integerNames _ _ _ (namedNumbers_bk h2)
  · obtain ⟨_, rfl, rfl⟩ := split_NullType h1.succ
    exact .null _
  · obtain ⟨_, rfl, rfl⟩ := split_ObjectIdentifierType h1.succ
    exact .objectIdentifier _
  · obtain ⟨_, rfl, rfl⟩ := split_OctetStringType h1.succ
    exact .octetString _
  · obtain ⟨_, rfl, rfl⟩ := split_RealType h1.succ
    exact .real _
  · exact sequence_bk B h1 c
  · exact sequenceOf_bk B h1 c hc
  · exact setType_bk B h1 c
  · exact setOf_bk B h1 c hc
  · rcases split_AnyType h1.succ with ⟨_, rfl, rfl⟩ | ⟨_, _, _, rfl, h2, rfl⟩
    · exact .any _
    · obtain ⟨w, rfl, rfl⟩ := identifier_lower h2
      exact .anyDefinedBy _ _
  · exact tagged_bk B h1 c hc

theorem referenced_bk (h : Rs L simple N (.n NT.ReferencedType) a p next s) (c : Bool) : TypeText L simple c a s.type := by
  rcases split_ReferencedType h.succ with ⟨_, _, _, rfl, h1, rfl⟩ | ⟨_, _, _, rfl, h1, rfl⟩
  · obtain ⟨_, _, _, rfl, h2, rfl⟩ := split_DefinedType h1.succ
    obtain ⟨w, rfl, rfl⟩ := type_upper h2
    exact .ref _ _
  · rcases split_UsefulType h1.succ with ⟨_, rfl, rfl⟩ | ⟨_, rfl, rfl⟩
    · exact .generalizedTime _
    · exact .utcTime _

theorem type_step (B : Back L simple N) (h : Rs L simple (N + 1) (.n NT.Type) a p next s) (c : Bool)
    (hc : c = false ∨ next = Tok.OPEN_ROUND) : TypeText L simple c a s.type := by
  rcases split_Type h with ⟨_, _, _, rfl, h1, rfl⟩ | ⟨_, _, _, rfl, h1, rfl⟩ | ⟨_, _, _, rfl, h1, rfl⟩
  · exact builtin_bk B h1 c hc
  · exact referenced_bk h1 c
  · rcases split_ConstrainedType h1.succ with ⟨_, _, _, _, _, rfl, h2, h3, rfl⟩ | ⟨_, _, _, rfl, h2, rfl⟩
    · exact .constrained _ _ _ _ _ (B.type h2 true (.inr (open_of_constraint (B.constraint h3) _))) (B.constraint h3)
    · exact withConstraint_bk B h2 c hc

theorem sets_bk (B : Back L simple N) (h : Rs L simple N (.n NT.ElementSetSpecs) a p next s) : SetsText L simple a s.subtypeConstraint := by
  rcases split_ElementSetSpecs h.succ with ⟨_, _, _, rfl, h1, rfl⟩ | ⟨_, _, _, rfl, h1, rfl⟩ | ⟨_, _, _, _, _, rfl, h1, h2, rfl⟩
  · obtain ⟨_, _, _, rfl, h3, rfl⟩ := split_RootElementSetSpec h1.succ
    exact .one _ _ (B.set h3)
  · obtain ⟨_, _, _, rfl, h3, rfl⟩ := split_RootElementSetSpec h1.succ
    exact .extensible _ _ (B.set h3)
  · obtain ⟨_, _, _, rfl, h3, rfl⟩ := split_RootElementSetSpec h1.succ
    obtain ⟨_, _, _, rfl, h4, rfl⟩ := split_AdditionalElementSetSpec h2.succ
    exact .extended _ _ _ _ (B.set h3) (B.set h4)

theorem constraint_step (B : Back L simple N) (h : Rs L simple (N + 1) (.n NT.Constraint) a p next s) :
    ConstraintText L simple a s.constraint := by
  obtain ⟨_, _, _, _, _, rfl, h1, h2, rfl⟩ := split_Constraint h
  obtain ⟨_, _, _, rfl, h3, rfl⟩ := split_ConstraintSpec h1.succ
  obtain ⟨_, _, _, rfl, h4, rfl⟩ := split_SubtypeConstraint h3.succ
  exact .mk _ _ _ (sets_bk B h4) (exception_bk B h2)

theorem namedConstraint_bk (B : Back L simple N) (h : Rs L simple N (.n NT.NamedConstraint) a p next s) : NamedConstraintText L simple a := by
  obtain ⟨_, _, _, _, _, rfl, h1, h2, rfl⟩ := split_NamedConstraint h.succ
  obtain ⟨w, rfl, _⟩ := identifier_lower h1
  obtain ⟨_, _, _, _, _, rfl, h3, h4, rfl⟩ := split_ComponentConstraint h2.succ
  rcases split_ValueConstraint h3.succ with ⟨_, _, _, rfl, h5, rfl⟩ | ⟨_, rfl, rfl⟩
  · have := NamedConstraintText.constraint (L := L) (simple := simple) w _ _ _ (B.constraint h5) (presence_bk h4)
    exact this
  · exact .presence _ _ (presence_bk h4)

theorem inner_bk (B : Back L simple N) : ∀ {n : Nat} {a : List Token} {p : Place} {next : Int} {s : SymType R D}, n ≤ N →
    Rs L simple n (.n NT.TypeConstraints) a p next s → InnerText L simple a := by
  intro n
  induction n with
  | zero => intro a p next s _ h; exact h.not_zero.elim
  | succ n ih =>
    intro a p next s hn h
    rcases split_TypeConstraints h with ⟨_, _, _, rfl, h1, rfl⟩ | ⟨_, _, _, _, _, rfl, h1, h2, rfl⟩
    · exact .one _ (namedConstraint_bk B (h1.mono (by omega)))
    · exact .cons _ _ (namedConstraint_bk B (h1.mono (by omega))) (ih (by omega) h2)

theorem elements_bk (B : Back L simple N) (h : Rs L simple N (.n NT.Elements) a p next s) : ElementsText L simple a s.elements := by
  rcases split_Elements h.succ with ⟨_, _, _, rfl, h1, rfl⟩ | ⟨_, _, _, rfl, h1, rfl⟩
  · rcases split_SubtypeElements h1.succ with ⟨_, _, _, rfl, h2, rfl⟩ | ⟨_, _, _, rfl, h2, rfl⟩ | ⟨_, _, _, rfl, h2, rfl⟩ |
      ⟨_, _, _, rfl, h2, rfl⟩ | ⟨_, _, _, rfl, h2, rfl⟩
    · obtain ⟨_, _, _, rfl, h3, rfl⟩ := split_SingleValue h2.succ
      exact .value _ _ (value_bk h3)
    · obtain ⟨v, w, e, h3⟩ := range_bk h2
      have := ElementsText.range (L := L) (simple := simple) _ _ _ h3
      rw [← e] at this
      exact this
    · exact (size_bk B h2).2
    · obtain ⟨_, _, _, rfl, h3, rfl⟩ := split_TypeConstraint h2.succ
      exact .type _ _ (B.plain h3)
    · rcases split_InnerTypeConstraints h2.succ with ⟨_, _, _, rfl, h3, rfl⟩ | ⟨_, _, _, rfl, h3, rfl⟩
      · obtain ⟨_, _, _, rfl, h4, rfl⟩ := split_SingleTypeConstraint h3.succ
        exact .component _ _ (B.constraint h4)
      · rcases split_MultipleTypeConstraints h3.succ with ⟨_, _, _, rfl, h4, rfl⟩ | ⟨_, _, _, rfl, h4, rfl⟩
        · obtain ⟨_, _, _, rfl, h5, rfl⟩ := split_FullSpecification h4.succ
          exact .components _ (inner_bk B (Nat.le_refl _) h5)
        · obtain ⟨_, _, _, rfl, h5, rfl⟩ := split_PartialSpecification h4.succ
          exact .someComponents _ (inner_bk B (Nat.le_refl _) h5)
  · exact .parentheses _ _ (B.set h1)

theorem exclusions_bk (B : Back L simple N) (h : Rs L simple N (.n NT.Exclusions) a p next s) :
    ∃ b, a = kw Tok.EXCEPT :: b ∧ ElementsText L simple b s.exclusions := by
  obtain ⟨_, _, _, rfl, h1, rfl⟩ := split_Exclusions h.succ
  exact ⟨_, rfl, elements_bk B h1⟩

theorem except_bk (B : Back L simple N) (h : Rs L simple N (.n NT.IntersectionElements) a p next s) :
    ExceptText L simple a s.intersectionElements := by
  rcases split_IntersectionElements h.succ with ⟨_, _, _, rfl, h1, rfl⟩ | ⟨_, _, _, _, _, rfl, h1, h2, rfl⟩
  · exact .plain _ _ (elements_bk B h1)
  · obtain ⟨_, _, _, rfl, h3, rfl⟩ := split_Elems h1.succ
    obtain ⟨b, rfl, h4⟩ := exclusions_bk B h2
    exact .except _ _ _ _ (elements_bk B h3) h4

theorem intersections_bk (B : Back L simple N) : ∀ {n : Nat} {a : List Token} {p : Place} {next : Int} {s : SymType R D}, n ≤ N →
    Rs L simple n (.n NT.Intersections) a p next s → IntersectionsText L simple a s.intersections := by
  intro n
  induction n with
  | zero => intro a p next s _ h; exact h.not_zero.elim
  | succ n ih =>
    intro a p next s hn h
    rcases split_Intersections h with ⟨_, _, _, rfl, h1, rfl⟩ | ⟨_, _, _, _, _, _, _, rfl, h1, h2, h3, rfl⟩
    · exact .one _ _ (except_bk B (h1.mono (by omega)))
    · obtain ⟨_, _, _, rfl, h4, rfl⟩ := split_IElems h1.succ
      rcases split_IntersectionMark h2.succ with ⟨_, rfl, rfl⟩ | ⟨_, rfl, rfl⟩
      · exact .snoc _ _ _ _ _ (ih (by omega) h4) (by simp) (except_bk B (h3.mono (by omega)))
      · exact .snoc _ _ _ _ _ (ih (by omega) h4) (by simp) (except_bk B (h3.mono (by omega)))

theorem unions_bk (B : Back L simple N) : ∀ {n : Nat} {a : List Token} {p : Place} {next : Int} {s : SymType R D}, n ≤ N →
    Rs L simple n (.n NT.Unions) a p next s → UnionsText L simple a s.unions := by
  intro n
  induction n with
  | zero => intro a p next s _ h; exact h.not_zero.elim
  | succ n ih =>
    intro a p next s hn h
    rcases split_Unions h with ⟨_, _, _, rfl, h1, rfl⟩ | ⟨_, _, _, _, _, _, _, rfl, h1, h2, h3, rfl⟩
    · exact .one _ _ (intersections_bk B (by omega) h1)
    · obtain ⟨_, _, _, rfl, h4, rfl⟩ := split_UElems h1.succ
      rcases split_UnionMark h2.succ with ⟨_, rfl, rfl⟩ | ⟨_, rfl, rfl⟩
      · exact .snoc _ _ _ _ _ (ih (by omega) h4) (by simp) (intersections_bk B (by omega) h3)
      · exact .snoc _ _ _ _ _ (ih (by omega) h4) (by simp) (intersections_bk B (by omega) h3)

theorem set_step (B : Back L simple N) (h : Rs L simple (N + 1) (.n NT.ElementSetSpec) a p next s) : SetText L simple a s.elementSetSpec := by
  rcases split_ElementSetSpec h with ⟨_, _, _, rfl, h1, rfl⟩ | ⟨_, _, _, rfl, h1, rfl⟩
  · exact .unions _ _ (unions_bk B (Nat.le_refl _) h1)
  · obtain ⟨b, rfl, h2⟩ := exclusions_bk B h1
    exact .allExcept _ _ h2

theorem back : ∀ N, Back L simple N
  | 0 => ⟨fun h => h.not_zero.elim, fun h => h.not_zero.elim, fun h => h.not_zero.elim⟩
  | N + 1 => ⟨type_step (back N), constraint_step (back N), set_step (back N)⟩

end Asn1go.Notation
