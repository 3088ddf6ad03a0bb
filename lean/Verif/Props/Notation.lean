import Verif.Proofs.Notation.Forward3
import Verif.Proofs.Notation.Backward3
import Verif.Props.Pointers

/-! What is parsed, in terms of the notation (Spec/Notation.lean): which tokens stand for which module. -/

namespace Asn1go.Props

open Asn1go Spec LR Spec.Notation Asn1go.Notation

/-! ### C24: notation for a module is parsed to the module -/

/-- A text whose tokens are notation for the module `m`, without `DEFAULT` and without object identifier value that starts
with a value and has further components, is parsed to `m`. -/
theorem C24_notation (u : Unicode) (text : Str) (toks : List Token) (m : ModuleDefinition DefinedValue (Value DefinedValue))
    (ht : Tokens u false text toks) (h : ModuleText .written true toks m) : parseString u text = .ok m := by
  obtain ⟨t, hd, hp, hu, rfl⟩ := module_tree h
  obtain ⟨h1, h2⟩ := hu rfl
  exact C07_exact_value u text toks t ht hd hp h1 h2

/-- The tokens of `sample24`, below. -/
def tokens24 : List Token := [upper (c! "M"), kw Tok.DEFINITIONS, kw Tok.AUTOMATIC, kw Tok.TAGS, kw Tok.ASSIGNMENT, kw Tok.BEGIN,
  upper (c! "T"), kw Tok.ASSIGNMENT, kw Tok.SEQUENCE, kw Tok.OPEN_CURLY, lower (c! "a"), kw Tok.INTEGER, kw Tok.OPEN_ROUND,
  num (c! "0") 0, kw Tok.RANGE_SEPARATOR, num (c! "7") 7, kw Tok.CLOSE_ROUND, kw Tok.OPTIONAL, kw Tok.COMMA, lower (c! "b"),
  kw Tok.OPEN_SQUARE, num (c! "1") 1, kw Tok.CLOSE_SQUARE, upper (c! "T"), kw Tok.CLOSE_CURLY, kw Tok.END]

def sample24 : Str := c! "M DEFINITIONS AUTOMATIC TAGS ::= BEGIN T ::= SEQUENCE { a INTEGER (0..7) OPTIONAL, b [1] T } END"

def module24 : ModuleDefinition DefinedValue (Value DefinedValue) :=
  { moduleIdentifier := ⟨c! "M", []⟩, tagDefault := TAGS_AUTOMATIC, extensibilityImplied := false
    moduleBody := { imports := [], assignmentList := [.type (c! "T") (.sequence
      [.named (.mk (c! "a") (.constrained (.integer []) (.mk (.subtype [.unions
        [[.mk (.valueRange ⟨.number 0, false⟩ ⟨.number 7, false⟩) .nil]]])))) true none,
       .named (.mk (c! "b") (.tagged ⟨CLASS_CONTEXT_SPECIFIC, .number 1⟩ (.ref (c! "T")) 0 false)) false none] [])] } }

theorem notation24 : ModuleText .written true tokens24 module24 := by
  have hr : RangeText Links.written true _ _ _ := .closed _ _ _ _ (.value _ _ (.number _ _ (.pos (c! "0") 0)))
    (.value _ _ (.number _ _ (.pos (c! "7") 7)))
  have hk : ConstraintText Links.written true _ _ := .mk _ _ _ (.one _ _ (.unions _ _ (.one _ _ (.one _ _ (.plain _ _ (.range _ _ _ hr)))))) .none
  have ha : NamedTypeText Links.written true _ _ := .mk (c! "a") _ _ (.constrained _ _ _ _ _ (.integer _) hk)
  have hg : TagText (R := DefinedValue) _ _ := .number _ _ (c! "1") 1 .context
  have hb : NamedTypeText Links.written true _ _ := .mk (c! "b") _ _ (.tagged _ _ _ _ _ _ _ hg .none (.ref _ (c! "T")))
  have ht : TypeText Links.written true false _ _ :=
    .sequence _ _ _ _ (.components _ _ (.snoc _ _ _ _ (.one _ _ (.optional _ _ ha)) (.required _ _ hb)))
  exact .mk (c! "M") _ _ _ _ _ _ _ _ .none .automatic .none (.some _ _ _ _ _ .none .none (.one _ _ (.type (c! "T") _ _ ht)))

example : parseString asciiUnicode sample24 = .ok module24 :=
  C24_notation _ _ tokens24 _ ((tokenize_iff _ _ _).1 (by decide +kernel)) notation24

/-- In general, a text whose tokens are notation for `n` is parsed to a module that is `n` but for what the pointers for
`DEFAULT` values and for the first component of object identifier values point to. -/
theorem C24_notation_general (u : Unicode) (text : Str) (toks : List Token) (n : ModuleDefinition Ref (Value DefinedValue))
    (ht : Tokens u false text toks) (h : ModuleText .marked false toks n) :
    ∃ m m0, parseString u text = .ok m ∧ m = ModuleDefinition.map Ref.target id m0 ∧
      m0.map Ref.known (fun _ => ()) = n.map Ref.known (fun _ => ()) := by
  obtain ⟨t, hd, hp, _, rfl⟩ := module_tree h
  obtain ⟨m, m0, h1, h2, _, h3⟩ := C07_complete u text toks t ht hd hp
  exact ⟨m, m0, h1, h2, h3⟩

/-! ### C63: the texts accepted are exactly the notation for a module, and the module is determined -/

/-- Exactly the texts whose tokens are notation for a module are accepted. -/
theorem C63_accepted (u : Unicode) (text : Str) : (∃ m, parseString u text = .ok m) ↔
    ∃ toks m, Tokens u false text toks ∧ ModuleText .written false toks m := by
  rw [C07_exact]
  constructor
  · rintro ⟨toks, t, ht, hd, hp⟩
    exact ⟨toks, _, ht, module_bk (tokens_sane ht) hd hp (by simp)⟩
  · rintro ⟨toks, m, ht, h⟩
    obtain ⟨t, hd, hp, _, rfl⟩ := module_tree h
    exact ⟨toks, t, ht, hd, hp⟩

/-- Example for C63: a text with `DEFAULT`, and one that is refused since something stands after the ellipsis. -/
example : ∃ toks m, Tokens asciiUnicode false (c! "M DEFINITIONS ::= BEGIN A ::= SEQUENCE { x INTEGER DEFAULT 5 } END") toks ∧
    ModuleText .written false toks m := by
  have h : (module? (parseString asciiUnicode (c! "M DEFINITIONS ::= BEGIN A ::= SEQUENCE { x INTEGER DEFAULT 5 } END"))).map
    (fun m => m.moduleBody.assignmentList.length) = some 1 := by decide +kernel
  obtain ⟨m, h, _⟩ := ok_of_module? h
  exact (C63_accepted _ _).1 ⟨m, h⟩

example : ¬ ∃ toks m, Tokens asciiUnicode false (c! "M DEFINITIONS ::= BEGIN A ::= ENUMERATED { a, ..., b } END") toks ∧
    ModuleText .written false toks m := by
  rw [← C63_accepted]
  rintro ⟨m, h⟩
  have : (module? (parseString asciiUnicode (c! "M DEFINITIONS ::= BEGIN A ::= ENUMERATED { a, ..., b } END"))).isNone = true := by
    decide +kernel
  rw [h] at this
  cases this

/-- The notation determines the module. -/
theorem C63_determined (toks : List Token) (R D : Type) (L : Links R D) (simple : Bool) (m m' : ModuleDefinition R D)
    (h : ModuleText L simple toks m) (h' : ModuleText L simple toks m') : m = m' := by
  obtain ⟨t, hd, hp, _, rfl⟩ := module_tree h
  obtain ⟨t', hd', hp', _, rfl⟩ := module_tree h'
  rw [C08_unique toks t t' hd hp hd' hp']

/-- What is returned is what the tokens of the text are notation for, up to what pointers for `DEFAULT` values and for the
first component of object identifier values point to. -/
theorem C63_returned (u : Unicode) (text : Str) (m : ModuleDefinition DefinedValue (Value DefinedValue)) (h : parseString u text = .ok m) :
    ∃ toks n m0, Tokens u false text toks ∧ ModuleText .marked false toks n ∧ m = ModuleDefinition.map Ref.target id m0 ∧
      m0.map Ref.known (fun _ => ()) = n.map Ref.known (fun _ => ()) := by
  obtain ⟨toks, t, ht, hd, hp⟩ := (C07_exact u text).1 ⟨m, h⟩
  obtain ⟨m', m0, h1, h2, _, h3⟩ := C07_complete u text toks t ht hd hp
  rw [h, ParseResult.ok.injEq] at h1
  subst h1
  exact ⟨toks, _, m0, ht, module_bk (tokens_sane ht) hd hp (by simp), h2, h3⟩

end Asn1go.Props
