import Verif.Proofs.LR.Kept
import Verif.Props.Pointers

/-! Exact properties of what the parser returns, the pointers into its own stack included: C04, C05, C06, C07. -/

namespace Asn1go.Props

open Spec LR

/-- C04 and C07, exactly: `ParseString` returns the module `m` if and only if the text has a preferred derivation and `m` is
what the actions of asn1.y compute from it, pointers into the parser's stack being followed after the parse. -/
theorem C07_module (u : Unicode) (text : Str) (m : Module) : parseString u text = .ok m ↔
    ∃ toks t, Tokens u false text toks ∧ Derives (.n NT.ModuleDefinition) toks t ∧ t.IsPreferred ∧ m = t.exact := by
  constructor
  · intro h
    obtain ⟨toks, _, ht, _⟩ := C03_sound u text m h
    obtain ⟨t, ha, hp⟩ := accepts_of_parse ht h
    exact ⟨toks, t, ht, hp.derives, preferred_of_accepts ht ha, hp.exact⟩
  · rintro ⟨toks, t, ht, hd, hp, rfl⟩
    obtain ⟨m, hm, hpar⟩ := parse_of_accepts ht (accepts_of_preferred hd hp)
    rw [hm, hpar.exact]

/-- C04: the module returned is determined by the derivation. -/
theorem C04_exact (u : Unicode) (text : Str) (m : Module) (h : parseString u text = .ok m) :
    ∃ toks t, Tokens u false text toks ∧ Derives (.n NT.ModuleDefinition) toks t ∧ m = t.exact := by
  obtain ⟨toks, t, h1, h2, _, h4⟩ := (C07_module u text m).1 h
  exact ⟨toks, t, h1, h2, h4⟩

/-- C05 and C06 where they hold: if no place of the stack that a pointer was made to is used again before the stack has moved
elsewhere, every `DEFAULT` and every reference is as written. -/
theorem C05_kept_partial (u : Unicode) (text : Str) (toks : List Token) (t : Tree) (ht : Tokens u false text toks)
    (hd : Derives (.n NT.ModuleDefinition) toks t) (hp : t.IsPreferred) (hk : t.Kept) : parseString u text = .ok t.ideal :=
  (C07_module u text _).2 ⟨toks, t, ht, hd, hp, (exact_of_kept hd hk).symm⟩

/-- A default at the last component and an object identifier value with a reference first, both of which survive. -/
def keptText : Str :=
  c! "M DEFINITIONS ::= BEGIN A ::= SEQUENCE { a INTEGER, b INTEGER DEFAULT 6 } v OBJECT IDENTIFIER ::= { x 1 } END"

/-- The tree of `keptText`. -/
def keptTree : Tree :=
  plainModule (.node 48 [.node 47 [.node 49 [.node 54 [.node 2 [.leaf Tok.TYPEORMODULEREFERENCE (.name (c! "A"))],
    .leaf Tok.ASSIGNMENT .none, .node 56 [.node 69 [.node 129 [.leaf Tok.SEQUENCE .none, .leaf Tok.OPEN_CURLY .none,
      .node 134 [.node 149 [.node 148 [.node 150 [.node 77 [.node 6 [.leaf Tok.VALUEIDENTIFIER (.name (c! "a"))],
        .node 56 [.node 64 [.node 86 [.leaf Tok.INTEGER .none]]]]]], .leaf Tok.COMMA .none,
      defaultComponent (c! "b") (c! "6") 6]], .leaf Tok.CLOSE_CURLY .none]]]]]], oidAssignment (c! "v") (c! "x") (c! "1") 1])

theorem kept_tokens : tokenize asciiUnicode keptText = some keptTree.tokens := by decide +kernel

/-- The hypotheses of `C05_kept_partial` hold, with both kinds of pointers. -/
theorem kept_meets : Derives (.n NT.ModuleDefinition) keptTree.tokens keptTree ∧ keptTree.IsPreferred ∧ keptTree.Kept ∧
    keptTree.uses 152 = true ∧ keptTree.uses 188 = true ∧ ¬ defaultsTree.Kept ∧ ¬ oidsTree.Kept :=
  ⟨derives_of_symbol (by decide +kernel), by decide +kernel, by decide +kernel, by decide +kernel, by decide +kernel, by decide +kernel,
    by decide +kernel⟩

/-- What `C07_module` says of it. -/
example : ∃ m, parseString asciiUnicode keptText = .ok m ∧ firstDefaults m = [none, some (.number 6)] ∧
    oidHeads m = [none, some { valueName := c! "x" }] :=
  ⟨_, C05_kept_partial _ _ _ _ ((tokenize_iff _ _ _).1 kept_tokens) kept_meets.1 kept_meets.2.1 kept_meets.2.2.1,
    by decide +kernel, by decide +kernel⟩

/-- What `C07_module` says of the text of `C05_false`. -/
example : firstDefaults defaultsTree.exact = [some .nil, some (.number 7), some (.number 7)] := by decide +kernel

end Asn1go.Props
