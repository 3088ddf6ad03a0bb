import Verif.Proofs.Notation.Forward1

/-! Notation of types and constraints has preferred derivations with the value it stands for. -/

namespace Asn1go.Notation

open Asn1go Spec LR Spec.Notation

variable {R D : Type} (L : Links R D) (simple : Bool)

theorem string_rd {code : Int} (h : code ∈ stringTypes) :
    ∃ x, x.type = .restrictedString code ∧ ∀ p next, Rd L simple (.n NT.RestrictedCharacterStringType) [kw code] p next x := by
  simp only [stringTypes, List.mem_cons, List.not_mem_nil, or_false] at h
  rcases h with rfl | rfl | rfl | rfl | rfl | rfl | rfl | rfl | rfl | rfl | rfl | rfl | rfl
  · exact ⟨_, rfl, fun _ _ => .node 201 (.last .leaf)⟩
  · exact ⟨_, rfl, fun _ _ => .node 202 (.last .leaf)⟩
  · exact ⟨_, rfl, fun _ _ => .node 203 (.last .leaf)⟩
  · exact ⟨_, rfl, fun _ _ => .node 204 (.last .leaf)⟩
  · exact ⟨_, rfl, fun _ _ => .node 205 (.last .leaf)⟩
  · exact ⟨_, rfl, fun _ _ => .node 206 (.last .leaf)⟩
  · exact ⟨_, rfl, fun _ _ => .node 207 (.last .leaf)⟩
  · exact ⟨_, rfl, fun _ _ => .node 208 (.last .leaf)⟩
  · exact ⟨_, rfl, fun _ _ => .node 209 (.last .leaf)⟩
  · exact ⟨_, rfl, fun _ _ => .node 210 (.last .leaf)⟩
  · exact ⟨_, rfl, fun _ _ => .node 211 (.last .leaf)⟩
  · exact ⟨_, rfl, fun _ _ => .node 212 (.last .leaf)⟩
  · exact ⟨_, rfl, fun _ _ => .node 213 (.last .leaf)⟩

/-- `next` does not start a constraint, or the type may be followed by one. -/
abbrev May (c : Bool) (next : Int) : Prop := c = true ∨ next ≠ Tok.OPEN_ROUND

theorem May.ne {next : Int} (h : May false next) : next ≠ Tok.OPEN_ROUND := h.resolve_left (by simp)

/-- What is to be shown of a type. -/
abbrev TypeRd (c : Bool) (a : List Token) (t : Ty R D) : Prop :=
  ∃ x, x.type = t ∧ ∀ p next, May c next → Rd L simple (.n NT.Type) a p next x

theorem may {c : Bool} {code next : Int} {q : Payload} {l : List Token} (h : code ≠ Tok.OPEN_ROUND := by decide) :
    May c (firstCode next ((code, q) :: l)) := .inr h

theorem nor {code next : Int} {q : Payload} {l : List Token} (h : code ≠ Tok.OPEN_ROUND := by decide) :
    firstCode next ((code, q) :: l) ≠ Tok.OPEN_ROUND := h

theorem noc {code next : Int} {q : Payload} {l : List Token} (h : code ≠ Tok.COMMA := by decide) :
    firstCode next ((code, q) :: l) ≠ Tok.COMMA := h

theorem Rd.close {p : Place} {next : Int} : Rd L simple (.t Tok.CLOSE_CURLY) [(Tok.CLOSE_CURLY, .none)] p next (leafValue .none) := .leaf

theorem Rd.comma {p : Place} {next : Int} : Rd L simple (.t Tok.COMMA) [(Tok.COMMA, .none)] p next (leafValue .none) := .leaf

/-- The end of a list in braces. -/
theorem brace_comma {next : Int} : firstCode (firstCode next [kw Tok.CLOSE_CURLY]) [] ≠ Tok.COMMA := (by decide : Tok.CLOSE_CURLY ≠ Tok.COMMA)

theorem brace_round {next : Int} : firstCode (firstCode next [kw Tok.CLOSE_CURLY]) [] ≠ Tok.OPEN_ROUND :=
  (by decide : Tok.CLOSE_CURLY ≠ Tok.OPEN_ROUND)

/-- What is to be shown of an exception. -/
abbrev ExceptionRd (b : List Token) : Prop :=
  b = [] ∨ (∃ l, b = kw Tok.EXCLAMATION :: l) ∧ ∃ x, ∀ p next, Rd L simple (.n NT.ExceptionSpec) b p next x

variable {L simple}

theorem ellipsis_rd {b : List Token} (h : ExceptionRd L simple b) :
    ∃ x, ∀ p next, Rd L simple (.n NT.ExtensionAndException) (kw Tok.ELLIPSIS :: b) p next x := by
  rcases h with rfl | ⟨_, x, hx⟩
  · exact ⟨_, fun _ _ => .node 130 (.last .leaf)⟩
  · exact ⟨_, fun _ _ => .node 131 (.cons .leaf (.last (hx _ _)))⟩

theorem exceptionSpec_rd {b : List Token} (h : ExceptionRd L simple b) :
    ∃ x, ∀ next, Rd L simple (.n NT.ExceptionSpec) b .other next x := by
  rcases h with rfl | ⟨_, x, hx⟩
  · exact ⟨_, fun _ => .node 288 .nil⟩
  · exact ⟨_, fun _ => hx _ _⟩

theorem exception_first {b l : List Token} {next : Int} (h : ExceptionRd L simple b) (hn : firstCode next l ≠ Tok.OPEN_ROUND) :
    firstCode next (b ++ l) ≠ Tok.OPEN_ROUND := by
  rcases h with rfl | ⟨⟨l, rfl⟩, _⟩
  · exact hn
  · exact (by decide : Tok.EXCLAMATION ≠ Tok.OPEN_ROUND)

set_option maxHeartbeats 1000000

mutual

theorem type_rd : ∀ {c : Bool} {a : List Token} {t : Ty R D}, TypeText L simple c a t → TypeRd L simple c a t
  | _, _, _, .boolean _ => by as_aux_lemma => exact ⟨_, rfl, fun _ _ _ => .node 56 (.last (.node 60 (.last (.node 83 (.last .leaf)))))⟩
  | _, _, _, .integer _ => by as_aux_lemma => exact ⟨_, rfl, fun _ _ _ => .node 56 (.last (.node 64 (.last (.node 86 (.last .leaf)))))⟩
  | _, _, _, .integerNames _ a l h => by
    obtain ⟨x, rfl, hx⟩ := namedNumbers_rd L simple h
    as_aux_lemma => exact ⟨_, rfl, fun _ _ _ => .node 56 (.last (.node 64 (.last (.node 87 (.cons .leaf (.cons .leaf (.cons (hx _ _) (.last .leaf))))))))⟩
  | _, _, _, .enumerated _ a l h => by
    obtain ⟨x, rfl, hx⟩ := enum_rd L simple h
    as_aux_lemma => exact ⟨_, rfl, fun _ _ _ => .node 56 (.last (.node 63 (.last (.node 96 (.cons .leaf (.cons .leaf (.cons
      (.node 97 (.last (.node 100 (.last (hx _ _ noc))))) (.last .leaf))))))))⟩
  | _, _, _, .real _ => by as_aux_lemma => exact ⟨_, rfl, fun _ _ _ => .node 56 (.last (.node 68 (.last (.node 106 (.last .leaf)))))⟩
  | _, _, _, .bitString _ => by as_aux_lemma => exact ⟨_, rfl, fun _ _ _ => .node 56 (.last (.node 59 (.last (.node 119 (.cons .leaf (.last .leaf))))))⟩
  | _, _, _, .bitStringNames _ a l h => by
    obtain ⟨x, rfl, hx⟩ := namedBits_rd L simple h
    as_aux_lemma => exact ⟨_, rfl, fun _ _ _ => .node 56 (.last (.node 59 (.last (.node 120 (.cons .leaf (.cons .leaf (.cons .leaf
      (.cons (hx _ _) (.last .leaf)))))))))⟩
  | _, _, _, .octetString _ => by as_aux_lemma => exact ⟨_, rfl, fun _ _ _ => .node 56 (.last (.node 67 (.last (.node 125 (.cons .leaf (.last .leaf))))))⟩
  | _, _, _, .null _ => by as_aux_lemma => exact ⟨_, rfl, fun _ _ _ => .node 56 (.last (.node 65 (.last (.node 126 (.last .leaf)))))⟩
  | _, _, _, .objectIdentifier _ => by as_aux_lemma => exact ⟨_, rfl, fun _ _ _ => .node 56 (.last (.node 66 (.last (.node 186 (.cons .leaf (.last .leaf))))))⟩
  | _, _, _, .any _ => by as_aux_lemma => exact ⟨_, rfl, fun _ _ _ => .node 56 (.last (.node 73 (.last (.node 159 (.last .leaf)))))⟩
  | _, _, _, .anyDefinedBy _ s => by
    obtain ⟨x, rfl, hx⟩ := lower_identifier L simple s
    as_aux_lemma => exact ⟨_, rfl, fun _ _ _ => .node 56 (.last (.node 73 (.last (.node 160 (.cons .leaf (.cons .leaf (.cons .leaf (.last (hx _ _)))))))))⟩
  | _, _, _, .string _ code h => by
    obtain ⟨x, e, hx⟩ := string_rd L simple h
    as_aux_lemma => exact ⟨_, by rw [← e]; rfl, fun _ _ _ => .node 56 (.last (.node 61 (.last (.node 199 (.last (hx _ _))))))⟩
  | _, _, _, .characterString _ => by
    as_aux_lemma => exact ⟨_, rfl, fun _ _ _ => .node 56 (.last (.node 61 (.last (.node 200 (.last (.node 214 (.cons .leaf (.last .leaf))))))))⟩
  | _, _, _, .generalizedTime _ => by as_aux_lemma => exact ⟨_, rfl, fun _ _ _ => .node 57 (.last (.node 76 (.last (.node 215 (.last .leaf)))))⟩
  | _, _, _, .utcTime _ => by as_aux_lemma => exact ⟨_, rfl, fun _ _ _ => .node 57 (.last (.node 76 (.last (.node 216 (.last .leaf)))))⟩
  | _, _, _, .ref _ s => by
    obtain ⟨x, rfl, hx⟩ := upper_type L simple s
    as_aux_lemma => exact ⟨_, rfl, fun _ _ _ => .node 57 (.last (.node 75 (.last (.node 51 (.last (hx _ _))))))⟩
  | _, _, _, .choice _ a l h => by
    obtain ⟨x, rfl, hx⟩ := namedTypes_rd h
    as_aux_lemma => exact ⟨_, rfl, fun _ _ _ => .node 56 (.last (.node 62 (.last (.node 161 (.cons .leaf (.cons .leaf (.cons
      (.node 163 (.last (hx.1 _ _ nor))) (.last .leaf))))))))⟩
  | _, _, _, .choiceMore _ a b d l e h1 h2 h3 => by
    obtain ⟨x, rfl, hx⟩ := namedTypes_rd h1
    obtain ⟨y, hy⟩ := ellipsis_rd (exception_rd h2)
    obtain ⟨z, rfl, hz⟩ := alternatives_rd h3
    as_aux_lemma =>
      refine ⟨_, rfl, fun _ _ _ => cast_rd L simple ?_ (.node 56 (.last (.node 62 (.last (.node 161 (.cons .kw (.cons .kw (.cons
        (.node 162 (.cons (hx.1 _ _ nor) (.cons (.comma L simple) (.cons (hy _ _) (.cons (hz _ _ brace_comma brace_round) (.last (.node 133 .nil)))))))
        (.last (.close L simple))))))))))⟩
      simp
  | _, _, _, .choiceOpen _ b d e h2 h3 => by
    obtain ⟨y, hy⟩ := ellipsis_rd (exception_rd h2)
    obtain ⟨z, rfl, hz⟩ := alternatives_rd h3
    as_aux_lemma =>
      refine ⟨_, rfl, fun _ _ _ => cast_rd L simple ?_ (.node 56 (.last (.node 62 (.last (.node 161 (.cons .kw (.cons .kw (.cons
        (.node 164 (.cons (hy _ _) (.cons (hz _ _ brace_comma brace_round) (.last (.node 133 .nil)))))
        (.last (.close L simple))))))))))⟩
      simp
  | _, _, _, .sequence _ a l e h => by
    obtain ⟨x, hx, h⟩ := (body_rd h).1
    as_aux_lemma => exact ⟨_, by rw [← hx]; rfl, fun _ _ _ => .node 56 (.last (.node 69 (.last (h _ _))))⟩
  | _, _, _, .set _ a l e h => by
    obtain ⟨x, hx, h⟩ := (body_rd h).2
    as_aux_lemma => exact ⟨_, by rw [← hx]; rfl, fun _ _ _ => .node 56 (.last (.node 71 (.last (h _ _))))⟩
  | _, _, _, .tagged a b d g i h t h1 h2 h3 => by
    obtain ⟨x, rfl, hx⟩ := tag_rd L simple h1
    obtain ⟨y, rfl, hy⟩ := type_rd h3
    cases h2 with
    | none =>
      as_aux_lemma => exact ⟨_, rfl, fun _ _ hm => .node 56 (.last (.node 74 (.last (.node_unless Tok.OPEN_ROUND 174 hm.ne
        (.cons (hx _ _) (.last (hy _ _ hm)))))))⟩
    | implicit =>
      as_aux_lemma => exact ⟨_, rfl, fun _ _ hm => .node 56 (.last (.node 74 (.last (.node_unless Tok.OPEN_ROUND 175 hm.ne
        (.cons (hx _ _) (.cons .leaf (.last (hy _ _ hm))))))))⟩
    | explicit =>
      as_aux_lemma => exact ⟨_, rfl, fun _ _ hm => .node 56 (.last (.node 74 (.last (.node_unless Tok.OPEN_ROUND 176 hm.ne
        (.cons (hx _ _) (.cons .leaf (.last (hy _ _ hm))))))))⟩
  | _, _, _, .sequenceOf a t h => by
    rcases elementType_rd h with ⟨x, rfl, hx⟩ | ⟨x, rfl, hx⟩
    · as_aux_lemma => exact ⟨_, rfl, fun _ _ hm => .node 56 (.last (.node 70 (.last (.node_unless Tok.OPEN_ROUND 184 hm.ne
        (.cons .leaf (.cons .leaf (.last (hx _ _ hm.ne))))))))⟩
    · as_aux_lemma => exact ⟨_, rfl, fun _ _ hm => .node 56 (.last (.node 70 (.last (.node 185
        (.cons .leaf (.cons .leaf (.last (hx _ _ hm.ne))))))))⟩
  | _, _, _, .setOf a t h => by
    rcases elementType_rd h with ⟨x, rfl, hx⟩ | ⟨x, rfl, hx⟩
    · as_aux_lemma => exact ⟨_, rfl, fun _ _ hm => .node 56 (.last (.node 72 (.last (.node_unless Tok.OPEN_ROUND 157 hm.ne
        (.cons .leaf (.cons .leaf (.last (hx _ _ hm.ne))))))))⟩
    · as_aux_lemma => exact ⟨_, rfl, fun _ _ hm => .node 56 (.last (.node 72 (.last (.node 158
        (.cons .leaf (.cons .leaf (.last (hx _ _ hm.ne))))))))⟩
  | _, _, _, .constrained _ a b t k h1 h2 => by
    obtain ⟨x, rfl, hx⟩ := type_rd h1
    obtain ⟨y, rfl, hy⟩ := constraint_rd h2
    as_aux_lemma => exact ⟨_, rfl, fun _ _ _ => .node 58 (.last (.node 217 (.cons (hx _ _ (.inl rfl)) (.last (hy _ _)))))⟩
  | _, _, _, .constrainedSequenceOf a b t k h1 h2 => by
    rcases ofConstraint_rd h1 with ⟨y, rfl, hy⟩ | ⟨y, rfl, hy⟩
    · rcases elementType_rd h2 with ⟨x, rfl, hx⟩ | ⟨x, rfl, hx⟩
      · as_aux_lemma => exact ⟨_, rfl, fun _ _ hm => .node 58 (.last (.node 218 (.last (.node_unless Tok.OPEN_ROUND 221 hm.ne
          (.cons .leaf (.cons (hy _ _) (.cons .leaf (.last (hx _ _ hm.ne)))))))))⟩
      · as_aux_lemma => exact ⟨_, rfl, fun _ _ hm => .node 58 (.last (.node 218 (.last (.node 225
          (.cons .leaf (.cons (hy _ _) (.cons .leaf (.last (hx _ _ hm.ne)))))))))⟩
    · rcases elementType_rd h2 with ⟨x, rfl, hx⟩ | ⟨x, rfl, hx⟩
      · as_aux_lemma => exact ⟨_, rfl, fun _ _ hm => .node 58 (.last (.node 218 (.last (.node_unless Tok.OPEN_ROUND 222 hm.ne
          (.cons .leaf (.cons (hy _ _) (.cons .leaf (.last (hx _ _ hm.ne)))))))))⟩
      · as_aux_lemma => exact ⟨_, rfl, fun _ _ hm => .node 58 (.last (.node 218 (.last (.node 226
          (.cons .leaf (.cons (hy _ _) (.cons .leaf (.last (hx _ _ hm.ne)))))))))⟩
  | _, _, _, .constrainedSetOf a b t k h1 h2 => by
    rcases ofConstraint_rd h1 with ⟨y, rfl, hy⟩ | ⟨y, rfl, hy⟩
    · rcases elementType_rd h2 with ⟨x, rfl, hx⟩ | ⟨x, rfl, hx⟩
      · as_aux_lemma => exact ⟨_, rfl, fun _ _ hm => .node 58 (.last (.node 218 (.last (.node_unless Tok.OPEN_ROUND 219 hm.ne
          (.cons .leaf (.cons (hy _ _) (.cons .leaf (.last (hx _ _ hm.ne)))))))))⟩
      · as_aux_lemma => exact ⟨_, rfl, fun _ _ hm => .node 58 (.last (.node 218 (.last (.node 223
          (.cons .leaf (.cons (hy _ _) (.cons .leaf (.last (hx _ _ hm.ne)))))))))⟩
    · rcases elementType_rd h2 with ⟨x, rfl, hx⟩ | ⟨x, rfl, hx⟩
      · as_aux_lemma => exact ⟨_, rfl, fun _ _ hm => .node 58 (.last (.node 218 (.last (.node_unless Tok.OPEN_ROUND 220 hm.ne
          (.cons .leaf (.cons (hy _ _) (.cons .leaf (.last (hx _ _ hm.ne)))))))))⟩
      · as_aux_lemma => exact ⟨_, rfl, fun _ _ hm => .node 58 (.last (.node 218 (.last (.node 224
          (.cons .leaf (.cons (hy _ _) (.cons .leaf (.last (hx _ _ hm.ne)))))))))⟩

theorem elementType_rd : ∀ {a : List Token} {t : Ty R D}, ElementTypeText L simple a t →
    (∃ x, x.type = t ∧ ∀ p next, next ≠ Tok.OPEN_ROUND → Rd L simple (.n NT.Type) a p next x) ∨
    (∃ x, Ty.named x.namedType = t ∧ ∀ p next, next ≠ Tok.OPEN_ROUND → Rd L simple (.n NT.NamedType) a p next x)
  | _, _, .type a t h => by
    obtain ⟨x, rfl, hx⟩ := type_rd h
    as_aux_lemma => exact .inl ⟨x, rfl, fun _ _ hn => hx _ _ (.inr hn)⟩
  | _, _, .named a n h => by
    obtain ⟨x, rfl, hx⟩ := namedType_rd h
    as_aux_lemma => exact .inr ⟨x, rfl, hx⟩

theorem ofConstraint_rd : ∀ {a : List Token} {k : Constraint R D}, OfConstraintText L simple a k →
    (∃ x, x.constraint = k ∧ ∀ p next, Rd L simple (.n NT.Constraint) a p next x) ∨
    (∃ x, singleElementConstraint x.elements = k ∧ ∀ p next, Rd L simple (.n NT.SizeConstraint) a p next x)
  | _, _, .constraint a k h => .inl (constraint_rd h)
  | _, _, .size a k h => by
    obtain ⟨x, rfl, hx⟩ := constraint_rd h
    as_aux_lemma => exact .inr ⟨_, rfl, fun _ _ => .node 268 (.cons .leaf (.last (hx _ _)))⟩

theorem namedType_rd : ∀ {a : List Token} {n : NamedType R D}, NamedTypeText L simple a n →
    ∃ x, x.namedType = n ∧ ∀ p next, next ≠ Tok.OPEN_ROUND → Rd L simple (.n NT.NamedType) a p next x
  | _, _, .mk s a t h => by
    obtain ⟨x, rfl, hx⟩ := lower_identifier L simple s
    obtain ⟨y, rfl, hy⟩ := type_rd h
    as_aux_lemma => exact ⟨_, rfl, fun _ _ hn => .node_unless Tok.OPEN_ROUND 77 hn (.cons (hx _ _) (.last (hy _ _ (.inr hn))))⟩

theorem namedTypes_rd : ∀ {a : List Token} {l : List (NamedType R D)}, NamedTypesText L simple a l →
    ∃ x, x.alternativeTypeList = l ∧
      (∀ p next, next ≠ Tok.OPEN_ROUND → Rd L simple (.n NT.AlternativeTypeList) a p next x) ∧
      ∃ y, y.extensionAdditionAlternativesList = l.map .named ∧
        ∀ p next, next ≠ Tok.OPEN_ROUND → Rd L simple (.n NT.ExtensionAdditionAlternativesList) a p next y
  | _, _, .one a n h => by
    obtain ⟨x, rfl, hx⟩ := namedType_rd h
    as_aux_lemma => exact ⟨_, rfl, fun _ _ hn => .node 172 (.last (hx _ _ hn)), _, rfl,
      fun _ _ hn => .node 168 (.last (.node 170 (.last (hx _ _ hn))))⟩
  | _, _, .snoc a b l n h1 h2 => by
    obtain ⟨x, rfl, hx⟩ := namedType_rd h2
    obtain ⟨y, rfl, hy, z, e, hz⟩ := namedTypes_rd h1
    as_aux_lemma =>
      refine ⟨_, rfl, fun _ _ hn => .node 173 (.cons (hy _ _ nor) (.cons .leaf (.last (hx _ _ hn)))), _, ?_,
        fun _ _ hn => .node 169 (.cons (hz _ _ nor) (.cons .leaf (.last (.node 170 (.last (hx _ _ hn))))))⟩
      rw [List.map_append, ← e]
      rfl

theorem alternatives_rd : ∀ {a : List Token} {l : List (Ty R D)}, AlternativesText L simple a l →
    ∃ x, x.extensionAdditionAlternativesList = l ∧ ∀ p next, next ≠ Tok.COMMA → next ≠ Tok.OPEN_ROUND →
      Rd L simple (.n NT.ExtensionAdditionAlternatives) a p next x
  | _, _, .none => by as_aux_lemma => exact ⟨_, rfl, fun _ _ hc _ => .node_unless Tok.COMMA 167 hc .nil⟩
  | _, _, .some a l h => by
    obtain ⟨_, _, _, x, e, hx⟩ := namedTypes_rd h
    as_aux_lemma =>
      refine ⟨_, ?_, fun _ _ hc hn => .node_unless Tok.COMMA 166 hc (.cons .leaf (.last (hx _ _ hn)))⟩
      exact e

theorem component_rd : ∀ {a : List Token} {c : ComponentType R D}, ComponentText L simple a c →
    ∃ x, x.componentType = c ∧ ∀ p next, next ≠ Tok.OPEN_ROUND → Rd L simple (.n NT.ComponentType) a p next x
  | _, _, .required a n h => by
    obtain ⟨x, rfl, hx⟩ := namedType_rd h
    as_aux_lemma => exact ⟨_, rfl, fun _ _ hn => .node 150 (.last (hx _ _ hn))⟩
  | _, _, .optional a n h => by
    obtain ⟨x, rfl, hx⟩ := namedType_rd h
    as_aux_lemma => exact ⟨_, rfl, fun _ _ hn => .node 151 (.cons (hx _ _ nor) (.last .leaf))⟩
  | _, _, .default a b n v hs h h' => by
    obtain ⟨x, rfl, hx⟩ := namedType_rd h
    obtain ⟨y, rfl, hy⟩ := value_rd L simple h'
    as_aux_lemma =>
      refine ⟨_, rfl, fun _ _ hn => .node_allowed 152 (allowed_of_free rfl) (.cons (hx _ _ nor) (.cons .leaf (.last (hy _ _)))) ?_⟩
      simp [hs]
  | _, _, .componentsOf a t h => by
    obtain ⟨x, rfl, hx⟩ := type_rd h
    as_aux_lemma => exact ⟨_, rfl, fun _ _ hn => .node 153 (.cons .leaf (.cons .leaf (.last (hx _ _ (.inr hn)))))⟩

theorem components_rd : ∀ {a : List Token} {l : List (ComponentType R D)}, ComponentsText L simple a l →
    ∃ x, x.componentTypeList = l ∧ ∀ p next, next ≠ Tok.OPEN_ROUND → Rd L simple (.n NT.ComponentTypeList) a p next x
  | _, _, .one a n h => by
    obtain ⟨x, rfl, hx⟩ := component_rd h
    as_aux_lemma => exact ⟨_, rfl, fun _ _ hn => .node 148 (.last (hx _ _ hn))⟩
  | _, _, .snoc a b l n h1 h2 => by
    obtain ⟨x, rfl, hx⟩ := component_rd h2
    obtain ⟨y, rfl, hy⟩ := components_rd h1
    as_aux_lemma => exact ⟨_, rfl, fun _ _ hn => .node 149 (.cons (hy _ _ nor) (.cons .leaf (.last (hx _ _ hn))))⟩

theorem addition_rd : ∀ {a : List Token} {l : List (ComponentType R D)}, AdditionText L simple a l →
    ∃ x, x.extensionAdditions = l ∧ ∀ p next, next ≠ Tok.OPEN_ROUND → Rd L simple (.n NT.ExtensionAddition) a p next x
  | _, _, .component a n h => by
    obtain ⟨x, rfl, hx⟩ := component_rd h
    as_aux_lemma => exact ⟨_, rfl, fun _ _ hn => .node 143 (.last (hx _ _ hn))⟩
  | _, _, .group a b l h1 h2 => by
    obtain ⟨x, hx⟩ := version_rd L simple h1
    obtain ⟨y, _, hy⟩ := components_rd h2
    as_aux_lemma => exact ⟨_, rfl, fun _ _ hn => .node 144 (.last (.node 145 (.cons .leaf (.cons (hx _ _) (.cons (hy _ _ nor) (.last .leaf))))))⟩

theorem additions_rd : ∀ {a : List Token} {l : List (ComponentType R D)}, AdditionsText L simple a l →
    ∃ x, x.extensionAdditions = l ∧ ∀ p next, next ≠ Tok.OPEN_ROUND → Rd L simple (.n NT.ExtensionAdditionList) a p next x
  | _, _, .one a l h => by
    obtain ⟨x, rfl, hx⟩ := addition_rd h
    as_aux_lemma => exact ⟨_, rfl, fun _ _ hn => .node 141 (.last (hx _ _ hn))⟩
  | _, _, .snoc a b l m h1 h2 => by
    obtain ⟨x, rfl, hx⟩ := addition_rd h2
    obtain ⟨y, rfl, hy⟩ := additions_rd h1
    as_aux_lemma => exact ⟨_, rfl, fun _ _ hn => .node 142 (.cons (hy _ _ nor) (.cons .leaf (.last (hx _ _ hn))))⟩

theorem body_rd : ∀ {a : List Token} {l e : List (ComponentType R D)}, BodyText L simple a l e →
    (∃ x, x.type = .sequence l e ∧ ∀ p next,
      Rd L simple (.n NT.SequenceType) (kw Tok.SEQUENCE :: kw Tok.OPEN_CURLY :: (a ++ [kw Tok.CLOSE_CURLY])) p next x) ∧
    (∃ x, x.type = .set l e ∧ ∀ p next,
      Rd L simple (.n NT.SetType) (kw Tok.SET :: kw Tok.OPEN_CURLY :: (a ++ [kw Tok.CLOSE_CURLY])) p next x)
  | _, _, _, .empty => by as_aux_lemma => exact ⟨⟨_, rfl, fun _ _ => .node 127 (.cons .leaf (.cons .leaf (.last .leaf)))⟩,
      ⟨_, rfl, fun _ _ => .node 154 (.cons .leaf (.cons .leaf (.last .leaf)))⟩⟩
  | _, _, _, .ellipsis b h => by
    obtain ⟨y, hy⟩ := ellipsis_rd (exception_rd h)
    as_aux_lemma => exact ⟨⟨_, rfl, fun _ _ => .node 128 (.cons .leaf (.cons .leaf (.cons (hy _ _) (.cons (.node 133 .nil) (.last .leaf)))))⟩,
      ⟨_, rfl, fun _ _ => .node 155 (.cons .leaf (.cons .leaf (.cons (hy _ _) (.cons (.node 133 .nil) (.last .leaf)))))⟩⟩
  | _, _, _, .twoEllipses b h => by
    obtain ⟨y, hy⟩ := ellipsis_rd (exception_rd h)
    as_aux_lemma =>
      refine ⟨⟨_, rfl, fun _ _ => cast_rd L simple ?_ (.node 128 (.cons .kw (.cons .kw (.cons (hy _ _)
          (.cons (.node 132 (.cons .kw (.last .kw))) (.last .kw))))))⟩,
        ⟨_, rfl, fun _ _ => cast_rd L simple ?_ (.node 155 (.cons .kw (.cons .kw (.cons (hy _ _)
          (.cons (.node 132 (.cons .kw (.last .kw))) (.last .kw))))))⟩⟩
      all_goals simp
  | _, _, _, .components a l h => by
    obtain ⟨x, rfl, hx⟩ := components_rd h
    as_aux_lemma =>
      refine ⟨⟨_, ?_, fun _ _ => .node 129 (.cons .leaf (.cons .leaf (.cons (.node 134 (.last (hx _ _ nor))) (.last .leaf))))⟩,
        ⟨_, ?_, fun _ _ => .node 156 (.cons .leaf (.cons .leaf (.cons (.node 134 (.last (hx _ _ nor))) (.last .leaf))))⟩⟩
      · exact congrArg (fun l => Ty.sequence l []) (List.append_nil _)
      · exact congrArg (fun l => Ty.set l []) (List.append_nil _)
  | _, _, _, .extensible a b l h1 h2 => by
    obtain ⟨x, rfl, hx⟩ := components_rd h1
    obtain ⟨y, hy⟩ := ellipsis_rd (exception_rd h2)
    as_aux_lemma =>
      refine ⟨⟨_, ?_, fun _ _ => cast_rd L simple ?_ (.node 129 (.cons .kw (.cons .kw (.cons (.node 135 (.cons (hx _ _ nor) (.cons (.comma L simple)
          (.cons (hy _ _) (.cons (.node_unless Tok.COMMA 140 brace_comma .nil) (.last (.node 133 .nil))))))) (.last (.close L simple))))))⟩,
        ⟨_, ?_, fun _ _ => cast_rd L simple ?_ (.node 156 (.cons .kw (.cons .kw (.cons (.node 135 (.cons (hx _ _ nor) (.cons (.comma L simple)
          (.cons (hy _ _) (.cons (.node_unless Tok.COMMA 140 brace_comma .nil) (.last (.node 133 .nil))))))) (.last (.close L simple))))))⟩⟩
      · exact congrArg (fun l => Ty.sequence l []) (List.append_nil _)
      · simp
      · exact congrArg (fun l => Ty.set l []) (List.append_nil _)
      · simp
  | _, _, _, .extended a b d l e h1 h2 h3 => by
    obtain ⟨x, rfl, hx⟩ := components_rd h1
    obtain ⟨y, hy⟩ := ellipsis_rd (exception_rd h2)
    obtain ⟨z, rfl, hz⟩ := additions_rd h3
    as_aux_lemma =>
      refine ⟨⟨_, ?_, fun _ _ => cast_rd L simple ?_ (.node 129 (.cons .kw (.cons .kw (.cons (.node 135 (.cons (hx _ _ nor) (.cons (.comma L simple)
          (.cons (hy _ _) (.cons (.node_unless Tok.COMMA 139 brace_comma (.cons .kw (.last (hz _ _ brace_round))))
            (.last (.node 133 .nil))))))) (.last (.close L simple))))))⟩,
        ⟨_, ?_, fun _ _ => cast_rd L simple ?_ (.node 156 (.cons .kw (.cons .kw (.cons (.node 135 (.cons (hx _ _ nor) (.cons (.comma L simple)
          (.cons (hy _ _) (.cons (.node_unless Tok.COMMA 139 brace_comma (.cons .kw (.last (hz _ _ brace_round))))
            (.last (.node 133 .nil))))))) (.last (.close L simple))))))⟩⟩
      · exact congrArg (fun l => Ty.sequence l _) (List.append_nil _)
      · simp
      · exact congrArg (fun l => Ty.set l _) (List.append_nil _)
      · simp

theorem constraint_rd : ∀ {a : List Token} {k : Constraint R D}, ConstraintText L simple a k →
    ∃ x, x.constraint = k ∧ ∀ p next, Rd L simple (.n NT.Constraint) a p next x
  | _, _, .mk a b l h1 h2 => by
    obtain ⟨x, rfl, hx⟩ := sets_rd h1
    have he := exception_rd h2
    obtain ⟨y, hy⟩ := exceptionSpec_rd he
    as_aux_lemma => exact ⟨_, rfl, fun _ _ => .node 227 (.cons .leaf (.cons (.node 228 (.last (.node 229 (.last (hx _ _ (exception_first he nor))))))
      (.cons (hy _) (.last .leaf))))⟩

theorem sets_rd : ∀ {a : List Token} {l : List (Elements R D)}, SetsText L simple a l →
    ∃ x, x.subtypeConstraint = l ∧ ∀ p next, next ≠ Tok.OPEN_ROUND → Rd L simple (.n NT.ElementSetSpecs) a p next x
  | _, _, .one a e h => by
    obtain ⟨x, rfl, hx⟩ := set_rd h
    as_aux_lemma => exact ⟨_, rfl, fun _ _ hn => .node 230 (.last (.node 233 (.last (hx _ _ hn))))⟩
  | _, _, .extensible a e h => by
    obtain ⟨x, rfl, hx⟩ := set_rd h
    as_aux_lemma => exact ⟨_, rfl, fun _ _ _ => .node 231 (.cons (.node 233 (.last (hx _ _ nor))) (.cons .leaf (.last .leaf)))⟩
  | _, _, .extended a b e f h h' => by
    obtain ⟨x, rfl, hx⟩ := set_rd h
    obtain ⟨y, rfl, hy⟩ := set_rd h'
    as_aux_lemma => exact ⟨_, rfl, fun _ _ hn => .node 232 (.cons (.node 233 (.last (hx _ _ nor))) (.cons .leaf (.cons .leaf (.cons .leaf
      (.last (.node 234 (.last (hy _ _ hn))))))))⟩

theorem set_rd : ∀ {a : List Token} {e : Elements R D}, SetText L simple a e →
    ∃ x, x.elementSetSpec = e ∧ ∀ p next, next ≠ Tok.OPEN_ROUND → Rd L simple (.n NT.ElementSetSpec) a p next x
  | _, _, .unions a l h => by
    obtain ⟨x, rfl, hx⟩ := unions_rd h
    as_aux_lemma => exact ⟨_, rfl, fun _ _ hn => .node 235 (.last (hx _ _ hn))⟩
  | _, _, .allExcept a e h => by
    obtain ⟨x, rfl, hx⟩ := elements_rd h
    as_aux_lemma => exact ⟨_, rfl, fun _ _ hn => .node 236 (.cons .leaf (.last (.node 246 (.cons .leaf (.last (hx _ _ hn))))))⟩

theorem unions_rd : ∀ {a : List Token} {l : List (List (IntersectionElements R D))}, UnionsText L simple a l →
    ∃ x, x.unions = l ∧ ∀ p next, next ≠ Tok.OPEN_ROUND → Rd L simple (.n NT.Unions) a p next x
  | _, _, .one a e h => by
    obtain ⟨x, rfl, hx⟩ := intersections_rd h
    as_aux_lemma => exact ⟨_, rfl, fun _ _ hn => .node 237 (.last (hx _ _ hn))⟩
  | _, _, .snoc code a b l e h1 h2 h3 => by
    obtain ⟨x, rfl, hx⟩ := unions_rd h1
    obtain ⟨y, rfl, hy⟩ := intersections_rd h3
    simp only [List.mem_cons, List.not_mem_nil, or_false] at h2
    rcases h2 with rfl | rfl
    · as_aux_lemma => exact ⟨_, rfl, fun _ _ hn => .node 238 (.cons (.node 239 (.last (hx _ _ nor))) (.cons (.node 247 (.last .leaf)) (.last (hy _ _ hn))))⟩
    · as_aux_lemma => exact ⟨_, rfl, fun _ _ hn => .node 238 (.cons (.node 239 (.last (hx _ _ nor))) (.cons (.node 248 (.last .leaf)) (.last (hy _ _ hn))))⟩

theorem intersections_rd : ∀ {a : List Token} {l : List (IntersectionElements R D)}, IntersectionsText L simple a l →
    ∃ x, x.intersections = l ∧ ∀ p next, next ≠ Tok.OPEN_ROUND → Rd L simple (.n NT.Intersections) a p next x
  | _, _, .one a e h => by
    obtain ⟨x, rfl, hx⟩ := except_rd h
    as_aux_lemma => exact ⟨_, rfl, fun _ _ hn => .node 240 (.last (hx _ _ hn))⟩
  | _, _, .snoc code a b l e h1 h2 h3 => by
    obtain ⟨x, rfl, hx⟩ := intersections_rd h1
    obtain ⟨y, rfl, hy⟩ := except_rd h3
    simp only [List.mem_cons, List.not_mem_nil, or_false] at h2
    rcases h2 with rfl | rfl
    · as_aux_lemma => exact ⟨_, rfl, fun _ _ hn => .node 241 (.cons (.node 242 (.last (hx _ _ nor))) (.cons (.node 249 (.last .leaf)) (.last (hy _ _ hn))))⟩
    · as_aux_lemma => exact ⟨_, rfl, fun _ _ hn => .node 241 (.cons (.node 242 (.last (hx _ _ nor))) (.cons (.node 250 (.last .leaf)) (.last (hy _ _ hn))))⟩

theorem except_rd : ∀ {a : List Token} {e : IntersectionElements R D}, ExceptText L simple a e →
    ∃ x, x.intersectionElements = e ∧ ∀ p next, next ≠ Tok.OPEN_ROUND → Rd L simple (.n NT.IntersectionElements) a p next x
  | _, _, .plain a e h => by
    obtain ⟨x, rfl, hx⟩ := elements_rd h
    as_aux_lemma => exact ⟨_, rfl, fun _ _ hn => .node 243 (.last (hx _ _ hn))⟩
  | _, _, .except a b e f h h' => by
    obtain ⟨x, rfl, hx⟩ := elements_rd h
    obtain ⟨y, rfl, hy⟩ := elements_rd h'
    as_aux_lemma => exact ⟨_, rfl, fun _ _ hn => .node 244 (.cons (.node 245 (.last (hx _ _ nor))) (.last (.node 246 (.cons .leaf (.last (hy _ _ hn))))))⟩

theorem elements_rd : ∀ {a : List Token} {e : Elements R D}, ElementsText L simple a e →
    ∃ x, x.elements = e ∧ ∀ p next, next ≠ Tok.OPEN_ROUND → Rd L simple (.n NT.Elements) a p next x
  | _, _, .value a v h => by
    obtain ⟨x, rfl, hx⟩ := value_rd L simple h
    as_aux_lemma => exact ⟨_, rfl, fun _ _ _ => .node 251 (.last (.node 253 (.last (.node 258 (.last (hx _ _))))))⟩
  | _, _, .range a v w h => by
    obtain ⟨x, e, hx⟩ := range_rd L simple h
    as_aux_lemma =>
      refine ⟨_, ?_, fun _ _ _ => .node 251 (.last (.node 254 (.last (hx _ _))))⟩
      exact e
  | _, _, .size a k h => by
    obtain ⟨x, rfl, hx⟩ := constraint_rd h
    as_aux_lemma => exact ⟨_, rfl, fun _ _ _ => .node 251 (.last (.node 255 (.last (.node 268 (.cons .leaf (.last (hx _ _)))))))⟩
  | _, _, .type a t h => by
    obtain ⟨x, rfl, hx⟩ := type_rd h
    as_aux_lemma => exact ⟨_, rfl, fun _ _ hn => .node 251 (.last (.node 256 (.last (.node 269 (.last (hx _ _ (.inr hn)))))))⟩
  | _, _, .component a k h => by
    obtain ⟨x, _, hx⟩ := constraint_rd h
    as_aux_lemma => exact ⟨_, rfl, fun _ _ _ => .node 251 (.last (.node 257 (.last (.node 270 (.cons .leaf (.cons .leaf (.last (.node 272 (.last (hx _ _))))))))))⟩
  | _, _, .components a h => by
    obtain ⟨x, hx⟩ := inner_rd h
    as_aux_lemma => exact ⟨_, rfl, fun _ _ _ => .node 251 (.last (.node 257 (.last (.node 271 (.cons .leaf (.cons .leaf (.last (.node 273 (.last
      (.node 275 (.cons .leaf (.cons (hx _ _) (.last .leaf)))))))))))))⟩
  | _, _, .someComponents a h => by
    obtain ⟨x, hx⟩ := inner_rd h
    as_aux_lemma => exact ⟨_, rfl, fun _ _ _ => .node 251 (.last (.node 257 (.last (.node 271 (.cons .leaf (.cons .leaf (.last (.node 274 (.last
      (.node 276 (.cons .leaf (.cons .leaf (.cons .leaf (.cons (hx _ _) (.last .leaf)))))))))))))))⟩
  | _, _, .parentheses a e h => by
    obtain ⟨x, rfl, hx⟩ := set_rd h
    as_aux_lemma => exact ⟨_, rfl, fun _ _ _ => .node 252 (.cons .leaf (.cons (hx _ _ nor) (.last .leaf)))⟩

theorem inner_rd : ∀ {a : List Token}, InnerText L simple a → ∃ x, ∀ p next, Rd L simple (.n NT.TypeConstraints) a p next x
  | _, .one a h => by
    obtain ⟨x, hx⟩ := namedConstraint_rd h
    as_aux_lemma => exact ⟨_, fun _ _ => .node 277 (.last (hx _ _))⟩
  | _, .cons a b h h' => by
    obtain ⟨x, hx⟩ := namedConstraint_rd h
    obtain ⟨y, hy⟩ := inner_rd h'
    as_aux_lemma => exact ⟨_, fun _ _ => .node 278 (.cons (hx _ _) (.cons .leaf (.last (hy _ _))))⟩

theorem namedConstraint_rd : ∀ {a : List Token}, NamedConstraintText L simple a → ∃ x, ∀ p next, Rd L simple (.n NT.NamedConstraint) a p next x
  | _, .presence s a h => by
    obtain ⟨x, _, hx⟩ := lower_identifier L simple s
    obtain ⟨y, hy⟩ := presence_rd L simple h
    as_aux_lemma => exact ⟨_, fun _ _ => .node 279 (.cons (hx _ _) (.last (.node 280 (.cons (.node 282 .nil) (.last (hy _ _))))))⟩
  | _, .constraint s a b k h h' => by
    obtain ⟨x, _, hx⟩ := lower_identifier L simple s
    obtain ⟨y, hy⟩ := presence_rd L simple h'
    obtain ⟨z, _, hz⟩ := constraint_rd h
    as_aux_lemma => exact ⟨_, fun _ _ => .node 279 (.cons (hx _ _) (.last (.node 280 (.cons (.node 281 (.last (hz _ _))) (.last (hy _ _))))))⟩

theorem exception_rd : ∀ {b : List Token}, ExceptionText L simple b → ExceptionRd L simple b
  | _, .none => .inl rfl
  | _, .number a n h => by
    obtain ⟨x, _, hx⟩ := signed_rd L simple h
    as_aux_lemma => exact .inr ⟨⟨_, rfl⟩, _, fun _ _ => .node 287 (.cons .leaf (.last (.node 289 (.last (hx _ _)))))⟩
  | _, .defined a n h => by
    obtain ⟨x, _, hx⟩ := defined_rd L simple h
    as_aux_lemma => exact .inr ⟨⟨_, rfl⟩, _, fun _ _ => .node 287 (.cons .leaf (.last (.node 290 (.last (hx _ _)))))⟩
  | _, .typed a b t v h h' => by
    obtain ⟨x, _, hx⟩ := type_rd h
    obtain ⟨y, _, hy⟩ := value_rd L simple h'
    as_aux_lemma => exact .inr ⟨⟨_, rfl⟩, _, fun _ _ => .node 287 (.cons .leaf (.last (.node 291 (.cons (hx _ _ may) (.cons .leaf (.last (hy _ _)))))))⟩

end

end Asn1go.Notation
