import Verif.Proofs.LR.Simul
import Verif.Proofs.Tokenize
import Verif.Props.Lexer

/-! Properties of `ParseString` and `ParseStream` (parser.go:16-29): C01-C04, C09, C15, C19, C22, C23, C25, C28. -/

namespace Asn1go.Props

open Spec LR

/-! ### The sample text used for examples -/

/-- A text with both kinds of assignments, comments and a non-default header. -/
def sample : Str := c! "M DEFINITIONS IMPLICIT TAGS EXTENSIBILITY IMPLIED ::=\nBEGIN -- types --\n A ::= SEQUENCE { x INTEGER OPTIONAL }\n b A ::= 5 /* values */ END\n"

/-- The module of a result. -/
def module? : ParseResult → Option Module
  | .ok m => some m
  | _ => none

/-- The line and message of a result that is an error. -/
def error? : ParseResult → Option (Int × ErrMsg)
  | .err n e => some (n, e)
  | _ => none

/-- The name of an assignment, with whether it assigns a type. -/
def entry {R D : Type} : Assignment R D → Option (Bool × Str)
  | .nil => none
  | .type n _ => some (true, n)
  | .value n _ _ => some (false, n)

/-- The parts of a module that C22 and C23 are about. -/
structure Outline where
  id : ModuleIdentifier
  tags : Int
  extensible : Bool
  assigned : List (Option (Bool × Str))
  deriving DecidableEq

/-- Those parts of a module. -/
def outline (m : Module) : Outline :=
  ⟨m.moduleIdentifier, m.tagDefault, m.extensibilityImplied, m.moduleBody.assignmentList.map entry⟩

theorem sample_outline : (module? (parseString asciiUnicode sample)).map outline =
    some ⟨⟨c! "M", []⟩, TAGS_IMPLICIT, true, [some (true, c! "A"), some (false, c! "b")]⟩ := by decide +kernel

theorem ok_of_module? {r : ParseResult} {α : Type} {f : Module → α} {a : α} (h : (module? r).map f = some a) :
    ∃ m, r = .ok m ∧ f m = a := by
  cases r with
  | ok m => exact ⟨m, rfl, by simpa [module?] using h⟩
  | _ => simp [module?] at h

/-! ### C01: parsing always returns -/

/-- `ParseString` returns: no index panics, no endless loop, whatever the text is. -/
theorem C01_returns (u : Unicode) (text : Str) :
    parseString u text ≠ .panic ∧ parseString u text ≠ .hang ∧ parseString u text ≠ .outOfFuel := by
  unfold parseString
  rcases parseStream_cases u text .eof with ⟨h, hf⟩ | ⟨n, e, h, _⟩ | ⟨m, toks, t, h, _⟩
  · cases hf
  · rw [h]; simp
  · rw [h]; simp

/-- `Parse` needs at most `34 n + 64` rounds for `n` characters, also when the reader fails. -/
theorem C01_rounds (u : Unicode) (text : Str) (fin : ReadEnd) :
    ∀ rounds, 34 * text.length + 64 ≤ rounds → runSteps u rounds (PState.init (LexState.init text fin)) ≠ .outOfFuel := by
  intro rounds hr
  obtain ⟨st, h, hm⟩ := init_inv u text fin
  have hm : LR.measure (PState.init (LexState.init text fin)) st < 34 * text.length + 64 := hm
  rcases run_ok rounds h (by omega) with ⟨h, _⟩ | ⟨c, s, h, _⟩ <;> rw [h] <;> simp

/-- No table or stack access is out of range, also when the reader fails. -/
theorem C01_no_panic (u : Unicode) (text : Str) (fin : ReadEnd) : parseStream u text fin ≠ .panic := by
  rcases parseStream_cases u text fin with ⟨h, _⟩ | ⟨n, e, h, _⟩ | ⟨m, toks, t, h, _⟩ <;> rw [h] <;> simp

/-! ### C02: exactly one of module and error -/

/-- `ParseString` returns a module or an error. -/
theorem C02_module_or_error (u : Unicode) (text : Str) :
    (∃ m, parseString u text = .ok m) ∨ ∃ line msg, parseString u text = .err line msg := by
  unfold parseString
  rcases parseStream_cases u text .eof with ⟨h, hf⟩ | ⟨n, e, h, _⟩ | ⟨m, toks, t, h, _⟩
  · cases hf
  · exact .inr ⟨n, e, h⟩
  · exact .inl ⟨m, h⟩

/-- Also a failing reader never makes `ParseStream` return neither. -/
theorem C02_never_nil (u : Unicode) (text : Str) (fin : ReadEnd) : parseStream u text fin ≠ .nilModule := by
  rcases parseStream_cases u text fin with ⟨h, _⟩ | ⟨n, e, h, _⟩ | ⟨m, toks, t, h, _⟩ <;> rw [h] <;> simp

example : ∃ m, parseString asciiUnicode sample = .ok m := by
  obtain ⟨m, h, _⟩ := ok_of_module? sample_outline; exact ⟨m, h⟩

example : (error? (parseString asciiUnicode (c! "M DEFINITIONS ::= \n BEGIN A END"))).map (·.1) = some 2 := by decide +kernel
example : (error? (parseString asciiUnicode [])).map (·.1) = some 1 := by decide +kernel

/-! ### C03: accepted text conforms to the grammar -/

/-- If `ParseString` returns a module, the tokens of the whole text derive from `ModuleDefinition`. -/
theorem C03_sound (u : Unicode) (text : Str) (m : Module) (h : parseString u text = .ok m) :
    ∃ toks t, Tokens u false text toks ∧ Derives (.n NT.ModuleDefinition) toks t := by
  unfold parseString at h
  rcases parseStream_cases u text .eof with ⟨h', hf⟩ | ⟨n, e, h', _⟩ | ⟨m, toks, t, h', _, hp⟩
  · cases hf
  · rw [h'] at h; cases h
  · exact ⟨toks, t, hp.tokens, hp.derives⟩

example : ∃ toks t, Tokens asciiUnicode false sample toks ∧ Derives (.n NT.ModuleDefinition) toks t := by
  obtain ⟨m, h, _⟩ := ok_of_module? sample_outline; exact C03_sound _ _ m h

/-- Nothing is skipped or left over: with any further token after `END` the text is refused. -/
example : (error? (parseString asciiUnicode (c! "M DEFINITIONS ::= BEGIN END END"))).isSome = true := by decide +kernel

/-! ### C04: the returned module is the value of its derivation -/

/-- The returned module is what the actions of asn1.y compute bottom up from a derivation tree of the text, up to
the contents of `DEFAULT` pointers and of references held as pointer into the parser stack (`Ref.onStack`: the first
component of an object identifier value with several components).  `m0` is the returned module with its references
marked as copied or held in the stack; `t.marked` is the tree's value marked in the same way. -/
theorem C04_value (u : Unicode) (text : Str) (m : Module) (h : parseString u text = .ok m) :
    ∃ toks t m0, Tokens u false text toks ∧ Derives (.n NT.ModuleDefinition) toks t ∧
      m = ModuleDefinition.map Ref.target id m0 ∧ t.ideal = ModuleDefinition.map Ref.target id t.marked ∧
      m0.map Ref.known (fun _ => ()) = t.marked.map Ref.known (fun _ => ()) := by
  unfold parseString at h
  rcases parseStream_cases u text .eof with ⟨h', hf⟩ | ⟨n, e, h', _⟩ | ⟨m', toks, t, h', _, hp⟩
  · cases hf
  · rw [h'] at h; cases h
  · rw [h'] at h
    cases h
    obtain ⟨m0, h1, h2⟩ := hp.value
    exact ⟨toks, t, m0, hp.tokens, hp.derives, h1, (marked_target hp.derives).symm, h2⟩

/-- Without looking at references and `DEFAULT` values at all, the module is exactly the meant one. -/
theorem C04_erased (u : Unicode) (text : Str) (m : Module) (h : parseString u text = .ok m) :
    ∃ toks t, Tokens u false text toks ∧ Derives (.n NT.ModuleDefinition) toks t ∧
      m.map (fun _ => ()) (fun _ => ()) = t.ideal.map (fun _ => ()) (fun _ => ()) := by
  obtain ⟨toks, t, m0, h1, h2, rfl, h4, h5⟩ := C04_value u text m h
  refine ⟨toks, t, h1, h2, ?_⟩
  rw [h4, ModuleDefinition.map_map, ModuleDefinition.map_map]
  have := congrArg (ModuleDefinition.map (fun _ => ()) (fun _ => ())) h5
  rwa [ModuleDefinition.map_map, ModuleDefinition.map_map] at this

/-! ### C09: lexical errors are never lost -/

/-- If the text is not a sequence of tokens, blank space and comments, `ParseString` returns an error. -/
theorem C09_lexical_errors (u : Unicode) (text : Str) (h : ¬ ∃ toks, Tokens u false text toks) :
    ∃ line msg, parseString u text = .err line msg := by
  rcases C02_module_or_error u text with ⟨m, hm⟩ | h'
  · obtain ⟨toks, t, ht, _⟩ := C03_sound u text m hm
    exact absurd ⟨toks, ht⟩ h
  · exact h'

theorem no_tokens {u : Unicode} {text : Str} (h : tokenize u text = none) : ¬ ∃ toks, Tokens u false text toks := by
  rintro ⟨toks, ht⟩
  rw [(tokenize_iff u text toks).2 ht] at h
  cases h

/-- An illegal character after a complete module, an over-long number and a name that ends in a hyphen. -/
example : ¬ ∃ toks, Tokens asciiUnicode false (c! "M DEFINITIONS ::= BEGIN END #") toks := no_tokens (by decide +kernel)
example : ¬ ∃ toks, Tokens asciiUnicode false (c! "M DEFINITIONS ::= BEGIN a INTEGER ::= 9223372036854775808 END") toks :=
  no_tokens (by decide +kernel)
example : ¬ ∃ toks, Tokens asciiUnicode false (c! "M DEFINITIONS ::= BEGIN a- INTEGER ::= 1 END") toks :=
  no_tokens (by decide +kernel)
example : error? (parseString asciiUnicode (c! "M DEFINITIONS ::= BEGIN END #")) = some (1, .unexpectedCharacter '#') := by
  decide +kernel

/-! ### C15: layout does not matter -/

/-- A text with the tokens of `l`, however they are laid out, is parsed like the text that has the spellings of `l`
with any white space between them. -/
theorem C15_layout (u : Unicode) (text : Str) (l : List (Str × Int × Payload × Str)) (pre : Str)
    (hp : ∀ x ∈ l, Printable u x.1 x.2.1 x.2.2.1) (hw : ∀ x ∈ l, ∀ c ∈ x.2.2.2, White c)
    (hne : ∀ x ∈ l.dropLast, x.2.2.2 ≠ []) (hpre : ∀ c ∈ pre, White c)
    (ht : Tokens u false text (l.map fun x => (x.2.1, x.2.2.1))) :
    SameResult (parseString u text) (parseString u (pre ++ joinWith (l.map fun x => (x.1, x.2.2.2)))) :=
  parse_sim u u _ _ _ ht (tokens_of_printed l pre false (fun x hx => ⟨hp x hx, hw x hx⟩) hne hpre (fun _ => rfl))

/-- Two texts with the same spellings and different white space. -/
theorem C15_white_space (u : Unicode) (l l' : List (Str × Int × Payload × Str)) (pre pre' : Str)
    (hp : ∀ x ∈ l, Printable u x.1 x.2.1 x.2.2.1) (hw : ∀ x ∈ l, ∀ c ∈ x.2.2.2, White c)
    (hw' : ∀ x ∈ l', ∀ c ∈ x.2.2.2, White c) (hne : ∀ x ∈ l.dropLast, x.2.2.2 ≠ []) (hne' : ∀ x ∈ l'.dropLast, x.2.2.2 ≠ [])
    (hpre : ∀ c ∈ pre, White c) (hpre' : ∀ c ∈ pre', White c)
    (he : l.map (fun x => (x.1, x.2.1, x.2.2.1)) = l'.map (fun x => (x.1, x.2.1, x.2.2.1))) :
    SameResult (parseString u (pre ++ joinWith (l.map fun x => (x.1, x.2.2.2))))
      (parseString u (pre' ++ joinWith (l'.map fun x => (x.1, x.2.2.2)))) := by
  have hp' : ∀ x ∈ l', Printable u x.1 x.2.1 x.2.2.1 := by
    intro x hx
    have : (x.1, x.2.1, x.2.2.1) ∈ l.map (fun x => (x.1, x.2.1, x.2.2.1)) := by
      rw [he]; exact List.mem_map.2 ⟨x, hx, rfl⟩
    obtain ⟨y, hy, e⟩ := List.mem_map.1 this
    have := hp y hy
    simp only [Prod.mk.injEq] at e
    rw [e.1, e.2.1, e.2.2] at this
    exact this
  refine C15_layout u _ l' pre' hp' hw' hne' hpre' ?_
  have := tokens_of_printed l pre false (fun x hx => ⟨hp x hx, hw x hx⟩) hne hpre (fun _ => rfl)
  have e : l.map (fun x => (x.2.1, x.2.2.1)) = l'.map (fun x => (x.2.1, x.2.2.1)) := by
    have := congrArg (List.map (fun y : Str × Int × Payload => (y.2.1, y.2.2))) he
    simpa [Function.comp_def] using this
  rwa [e] at this

/-- The tokens of `M DEFINITIONS ::= BEGIN END`. -/
def spells : List (Str × Int × Payload) := [(c! "M", Tok.TYPEORMODULEREFERENCE, .name (c! "M")), (c! "DEFINITIONS", Tok.DEFINITIONS, .none),
  (c! "::=", Tok.ASSIGNMENT, .none), (c! "BEGIN", Tok.BEGIN, .none), (c! "END", Tok.END, .none)]

/-- A text without white space around `::=` and with a comment instead. -/
example : Tokens asciiUnicode false (c! "M DEFINITIONS::=BEGIN/*x*/END") (spells.map fun x => (x.2.1, x.2.2)) :=
  (tokenize_iff _ _ _).1 (by decide +kernel)

example : ∀ x ∈ spells, Printable asciiUnicode x.1 x.2.1 x.2.2 := by
  simp only [spells, List.forall_mem_cons, List.not_mem_nil, false_imp_iff, implies_true, and_true]
  exact ⟨.typeReference _ _ ⟨⟨_, _, rfl, by decide⟩, by simp [WordChar]; decide, by decide, by decide⟩ (by decide)
      (fun code h => absurd (List.mem_map.2 ⟨_, h, rfl⟩ : c! "M" ∈ reservedWords.map (·.1)) (by decide)),
    .keyword _ _ (by decide), .symbol _ _ (by decide), .keyword _ _ (by decide), .keyword _ _ (by decide)⟩

/-- The exception: white space between a number and an exponent marker matters. -/
example : tokenize asciiUnicode (c! "1E 2") ≠ tokenize asciiUnicode (c! "1 E 2") := by decide +kernel

/-! ### C19: line numbers of parse errors -/

/-- The line in every error `ParseStream` returns is one plus the number of line ends in a prefix of the text. -/
theorem C19_parse_errors (u : Unicode) (text : Str) (fin : ReadEnd) (line : Int) (msg : ErrMsg)
    (h : parseStream u text fin = .err line msg) : ∃ c r, text = c ++ r ∧ line = (lineEnds c : Int) + 1 := by
  rcases parseStream_cases u text fin with ⟨h', _⟩ | ⟨n, e, h', hl⟩ | ⟨m, toks, t, h', _⟩
  · rw [h'] at h; cases h
  · rw [h'] at h
    cases h
    exact hl
  · rw [h'] at h; cases h

/-! ### C22, C23: header and assignments -/

/-- The module returned has the name, definitive identifier, tag default, extensibility flag and assignment names that
the tokens of the text say. -/
theorem module_text (u : Unicode) (text : Str) (m : Module) (h : parseString u text = .ok m) :
    ∃ toks, Tokens u false text toks ∧ ModuleText toks m := by
  unfold parseString at h
  rcases parseStream_cases u text .eof with ⟨h', hf⟩ | ⟨n, e, h', _⟩ | ⟨m', toks, t, h', _, hp⟩
  · cases hf
  · rw [h'] at h; cases h
  · rw [h'] at h
    cases h
    exact ⟨toks, hp.tokens, hp.shape⟩

/-- Name, definitive identifier, tag default and extensibility flag are those of the header, which is followed by
`::= BEGIN … END`. -/
theorem C22_header (u : Unicode) (text : Str) (m : Module) (h : parseString u text = .ok m) :
    ∃ idt td ed body, Tokens u false text ((Tok.TYPEORMODULEREFERENCE, .name m.moduleIdentifier.reference) :: idt ++
        (Tok.DEFINITIONS, .none) :: td ++ ed ++ (Tok.ASSIGNMENT, .none) :: (Tok.BEGIN, .none) :: body ++ [(Tok.END, .none)]) ∧
      IdentifierText idt m.moduleIdentifier.definitiveIdentifier ∧ TagDefaultText td m.tagDefault ∧
      ExtensionText ed m.extensibilityImplied := by
  obtain ⟨toks, ht, hm⟩ := module_text u text m h
  cases hm with
  | mk idt td ed body _ h1 h2 h3 h4 => exact ⟨idt, td, ed, body, ht, h1, h2, h3⟩

/-- With no tag default written, it is EXPLICIT. -/
theorem C22_default (u : Unicode) (text : Str) (m : Module) (h : parseString u text = .ok m)
    (toks : List Token) (ht : Tokens u false text toks) (hn : ∀ p, (Tok.TAGS, p) ∉ toks) : m.tagDefault = TAGS_EXPLICIT := by
  obtain ⟨idt, td, ed, body, ht', _, h2, _⟩ := C22_header u text m h
  have := C11_unique u text _ _ ht ht'
  subst this
  generalize m.tagDefault = n at h2
  cases h2 with
  | absent => rfl
  | explicit => rfl
  | implicit => exact absurd (by simp) (hn .none)
  | automatic => exact absurd (by simp) (hn .none)

/-- The sample meets the hypotheses of C22 and C23; the conclusions are what is seen in it. -/
example : ∃ m, parseString asciiUnicode sample = .ok m ∧ m.moduleIdentifier = ⟨c! "M", []⟩ ∧ m.tagDefault = TAGS_IMPLICIT ∧
    m.extensibilityImplied = true ∧ m.moduleBody.assignmentList.map entry = [some (true, c! "A"), some (false, c! "b")] := by
  obtain ⟨m, h, e⟩ := ok_of_module? sample_outline
  simp only [outline, Outline.mk.injEq] at e
  exact ⟨m, h, e⟩

/-- No tag default, a definitive identifier, exports and imports. -/
example : (module? (parseString asciiUnicode (c! "M {iso foo(3) 4} DEFINITIONS ::= BEGIN EXPORTS ALL; IMPORTS B, c FROM N {1 2}; A ::= B b A ::= c C ::= NULL END"))).map
    outline = some ⟨⟨c! "M", [⟨c! "iso", 0⟩, ⟨c! "foo", 3⟩, ⟨[], 4⟩]⟩,
      TAGS_EXPLICIT, false, [some (true, c! "A"), some (false, c! "b"), some (true, c! "C")]⟩ := by decide +kernel

/-- The tokens between `BEGIN` and `END` are the exports and imports followed by the assignments; the assignment list
has one entry for each of these, in the same order, of the same kind and with the same name. -/
theorem C23_assignments (u : Unicode) (text : Str) (m : Module) (h : parseString u text = .ok m) :
    ∃ header body, Tokens u false text (header ++ (Tok.BEGIN, .none) :: body ++ [(Tok.END, .none)]) ∧
      BodyText body m.moduleBody.assignmentList := by
  obtain ⟨toks, ht, hm⟩ := module_text u text m h
  cases hm with
  | mk idt td ed body _ h1 h2 h3 h4 =>
    refine ⟨(Tok.TYPEORMODULEREFERENCE, .name m.moduleIdentifier.reference) :: idt ++
        (Tok.DEFINITIONS, .none) :: td ++ ed ++ [(Tok.ASSIGNMENT, .none)], body, ?_, h4⟩
    simpa using ht

/-! ### C25: read errors -/

/-- C25 as wished for: a failing reader always makes `ParseStream` return an error. -/
def C25_statement : Prop := ∀ (u : Unicode) (text : Str), ∃ line msg, parseStream u text .fail = .err line msg

/-- It does not: inside a comment the read error is never looked at, so `Lex` loops for ever. -/
theorem C25_false : ¬ C25_statement := by
  intro h
  obtain ⟨n, e, h⟩ := h asciiUnicode (c! "M /* comment")
  have h' : parseStream asciiUnicode (c! "M /* comment") .fail = .hang := rfl
  rw [h'] at h
  cases h

/-- What holds: a failing reader never gives a module, nor a nil module with a nil error.  Missing: that an error is
returned, which fails only if a call of `Lex` does not return. -/
theorem C25_read_errors_partial (u : Unicode) (text : Str) :
    parseStream u text .fail = .hang ∨ ∃ line msg, parseStream u text .fail = .err line msg := by
  rcases parseStream_cases u text .fail with ⟨h, _⟩ | ⟨n, e, h, _⟩ | ⟨m, toks, t, h, hf, _⟩
  · exact .inl h
  · exact .inr ⟨n, e, h⟩
  · cases hf

/-! ### C28: parsing depends on the tokens only -/

/-- Two texts with the same tokens are parsed alike: to the same module, or to errors with the same message, whatever
the layout, the comments and the classification of non-ASCII characters. -/
theorem C28_tokens_only (u u' : Unicode) (text text' : Str) (toks : List Token) (h : Tokens u false text toks)
    (h' : Tokens u' false text' toks) : SameResult (parseString u text) (parseString u' text') :=
  parse_sim u u' text text' toks h h'

end Asn1go.Props
