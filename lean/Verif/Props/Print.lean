import Verif.Proofs.Print.Text
import Verif.Proofs.Print.Complete
import Verif.Props.Notation

/-! Modules printed and parsed again: C24 and C64. -/

namespace Asn1go.Props

open Asn1go Spec LR Spec.Notation Asn1go.Notation Spec.Print Asn1go.Print

/-! ### C24: printing and parsing -/

/-- C24: a module that can be printed, without `DEFAULT` and without object identifier value that starts with a reference and
has further components, is what parsing the printed text gives. -/
theorem C24_round_trip (u : Unicode) (m : Module) (toks : List Token) (h : Print.module true m = some toks)
    (hw : ∀ t ∈ toks, Writable u t) : parseString u (write toks) = .ok m :=
  have hs := module_sound h
  C24_notation u _ toks m (write_tokens u toks false (module_shape hs) hw) hs

/-- Example for C24. -/
example : Print.text true module24 =
    some (c! " M DEFINITIONS AUTOMATIC TAGS ::= BEGIN T ::= SEQUENCE { a INTEGER ( 0 .. 7 ) OPTIONAL , b [ 1 ] T } END") := by decide +kernel

/-- Any other printed module, with `DEFAULT` or with object identifier values that start with a reference, comes back but for what
the pointers of these point to. -/
theorem C24_general (u : Unicode) (m : Module) (toks : List Token) (h : Print.module false m = some toks)
    (hw : ∀ t ∈ toks, Writable u t) :
    ∃ m', parseString u (write toks) = .ok m' ∧ ∃ n n' : ModuleDefinition Ref (Value DefinedValue),
      m = n.map Ref.target id ∧ m' = n'.map Ref.target id ∧ n'.map Ref.known (fun _ => ()) = n.map Ref.known (fun _ => ()) := by
  have hs := module_sound h
  have ht := write_tokens u toks false (module_shape hs) hw
  obtain ⟨t, hd, hp, _, rfl⟩ := module_tree hs
  obtain ⟨m', m0, h1, h2, _, h3⟩ := C07_complete u _ toks t ht hd hp
  exact ⟨m', h1, t.marked, m0, (marked_target hd).symm, h2, h3⟩

/-- A module with `DEFAULT`, a real value with exponent and an object identifier value that starts with a reference. -/
def module24' : Module :=
  { moduleIdentifier := ⟨c! "M", [⟨c! "iso", 1⟩, ⟨[], 3⟩]⟩, tagDefault := TAGS_EXPLICIT, extensibilityImplied := false
    moduleBody := { imports := [⟨[.typeReference (c! "A"), .valueReference (c! "b")], ⟨c! "N", .nil⟩⟩], assignmentList :=
      [.value (c! "r") .real (.real (.lit 1 5 (-3))),
       .value (c! "o") .objectIdentifier (.objectIdentifier [{ reference := some { valueName := c! "b" } }, { id := 4 }]),
       .type (c! "S") (.sequence [.named (.mk (c! "x") (.integer [])) false (some (.number (-5)))] [])] } }

example : Print.text false module24' = some
    ((c! " M { iso ( 1 ) 3 } DEFINITIONS ::= BEGIN IMPORTS A , b FROM N ; r REAL ::= 1 . 5E - 3") ++
      (c! " o OBJECT IDENTIFIER ::= { b 4 } S ::= SEQUENCE { x INTEGER DEFAULT - 5 } END")) := by decide +kernel

/-- Printing loses nothing. -/
theorem C24_injective (simple : Bool) (m m' : Module) (toks : List Token) (h : Print.module simple m = some toks)
    (h' : Print.module simple m' = some toks) : m = m' :=
  C63_determined toks _ _ _ simple m m' (module_sound h) (module_sound h')

/-! ### C64: parsing and printing -/

/-- C64: a text that is notation for a module, without `DEFAULT` and without object identifier value that starts with a reference
and has further components, is parsed to a module that can be printed, and the printed text is parsed to the same module. -/
theorem C64_reprint (u : Unicode) (text : Str) (toks : List Token) (m : Module) (ht : Tokens u false text toks)
    (h : ModuleText .written true toks m) : parseString u text = .ok m ∧
      ∃ toks', Print.module true m = some toks' ∧ (∀ t ∈ toks', Writable u t) ∧ parseString u (write toks') = .ok m := by
  obtain ⟨b, hb, hw⟩ := module_c h (fine_of_tokens ht)
  exact ⟨C24_notation u text toks m ht h, b, hb, hw, C24_round_trip u m b hb hw⟩

/-- Any text that is accepted is notation for a module that can be printed, and the printed text is notation for the same module. -/
theorem C64_accepted (u : Unicode) (text : Str) (h : ∃ m, parseString u text = .ok m) :
    ∃ toks m toks', Tokens u false text toks ∧ ModuleText .written false toks m ∧ Print.module false m = some toks' ∧
      Tokens u false (write toks') toks' ∧ ModuleText .written false toks' m := by
  obtain ⟨toks, m, ht, hm⟩ := (C63_accepted u text).1 h
  obtain ⟨b, hb, hw⟩ := module_c hm (fine_of_tokens ht)
  have hs := module_sound hb
  exact ⟨toks, m, b, ht, hm, hb, write_tokens u b false (module_shape hs) hw, hs⟩

example : ∃ toks', Print.module true module24 = some toks' ∧ (∀ t ∈ toks', Writable asciiUnicode t) ∧
    parseString asciiUnicode (write toks') = .ok module24 :=
  (C64_reprint _ sample24 tokens24 _ ((tokenize_iff _ _ _).1 (by decide +kernel)) notation24).2

/-- The modules that can be printed are exactly those with a notation. -/
theorem C64_printable (u : Unicode) (simple : Bool) (m : Module) :
    (∃ toks, Print.module simple m = some toks ∧ ∀ t ∈ toks, Writable u t) ↔
      ∃ text toks, Tokens u false text toks ∧ ModuleText .written simple toks m := by
  constructor
  · rintro ⟨toks, h, hw⟩
    exact ⟨_, toks, write_tokens u toks false (module_shape (module_sound h)) hw, module_sound h⟩
  · rintro ⟨text, toks, ht, h⟩
    exact module_c h (fine_of_tokens ht)

/-- A text with comments, an export list, an exception and leading zeros, and what is printed for it. -/
def sample64 : Str := c! "M DEFINITIONS ::= BEGIN EXPORTS A; A ::= INTEGER (007 | 8, ... ! 5) -- x -- END"

def printed64 : Str := c! " M DEFINITIONS ::= BEGIN A ::= INTEGER ( 7 | 8 ) END"

def tokens64 : List Token := [upper (c! "M"), kw Tok.DEFINITIONS, kw Tok.ASSIGNMENT, kw Tok.BEGIN, upper (c! "A"), kw Tok.ASSIGNMENT,
  kw Tok.INTEGER, kw Tok.OPEN_ROUND, number 7, kw Tok.PIPE, number 8, kw Tok.CLOSE_ROUND, kw Tok.END]

/-- Example for C64 and C24: the module is printed and parsed again. -/
example : ∃ m, parseString asciiUnicode sample64 = .ok m ∧ Print.module true m = some tokens64 ∧ write tokens64 = printed64 ∧
    parseString asciiUnicode printed64 = .ok m := by
  have h : (module? (parseString asciiUnicode sample64)).map (Print.module true) = some (some tokens64) := by decide +kernel
  have h' : (module? (parseString asciiUnicode printed64)).map (Print.module true) = some (some tokens64) := by decide +kernel
  obtain ⟨m, h1, h2⟩ := ok_of_module? h
  obtain ⟨m', h1', h2'⟩ := ok_of_module? h'
  have := C24_injective _ _ _ _ h2 h2'
  subst this
  exact ⟨m, h1, h2, by decide +kernel, h1'⟩

end Asn1go.Props
