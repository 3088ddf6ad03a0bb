import Verif.Proofs.LR.Chosen
import Verif.Proofs.TreeCheck
import Verif.Props.Parser

/-! Properties of the grammar and of what the parser accepts: C07, C08. -/

namespace Asn1go.Props

open Spec LR

/-! ### C07: every disambiguated derivation is parsed -/

/-- A text whose tokens have a preferred derivation (Spec/Preferred.lean) is accepted, and the module returned is the
value of that derivation, with the same exceptions as in C04: contents of `DEFAULT` pointers and of references held in the
parser's stack. -/
theorem C07_complete (u : Unicode) (text : Str) (toks : List Token) (t : Tree) (ht : Tokens u false text toks)
    (hd : Derives (.n NT.ModuleDefinition) toks t) (hp : t.IsPreferred) :
    ∃ m m0, parseString u text = .ok m ∧ m = ModuleDefinition.map Ref.target id m0 ∧
      t.ideal = ModuleDefinition.map Ref.target id t.marked ∧
      m0.map Ref.known (fun _ => ()) = t.marked.map Ref.known (fun _ => ()) := by
  obtain ⟨m, hm, hpar⟩ := parse_of_accepts ht (accepts_of_preferred hd hp)
  obtain ⟨m0, h1, h2⟩ := hpar.value
  exact ⟨m, m0, hm, h1, (marked_target hd).symm, h2⟩

/-- The texts accepted are exactly those with a preferred derivation. -/
theorem C07_exact (u : Unicode) (text : Str) : (∃ m, parseString u text = .ok m) ↔
    ∃ toks t, Tokens u false text toks ∧ Derives (.n NT.ModuleDefinition) toks t ∧ t.IsPreferred := by
  constructor
  · rintro ⟨m, h⟩
    obtain ⟨toks, _, ht, _⟩ := C03_sound u text m h
    obtain ⟨t, ha, hp⟩ := accepts_of_parse ht h
    exact ⟨toks, t, ht, hp.derives, preferred_of_accepts ht ha⟩
  · rintro ⟨toks, t, ht, hd, hp⟩
    obtain ⟨m, _, hm, _⟩ := C07_complete u text toks t ht hd hp
    exact ⟨m, hm⟩

/-- The tokens of `M DEFINITIONS ::= BEGIN a OBJECT IDENTIFIER ::= v END` as a tree, with `v` left open. -/
def oidModule (v : Tree) : Tree :=
  .node 1 [.node 7 [.node 3 [.leaf Tok.TYPEORMODULEREFERENCE (.name (c! "M"))], .node 9 []], .leaf Tok.DEFINITIONS .none, .node 20 [],
    .node 22 [], .leaf Tok.ASSIGNMENT .none, .leaf Tok.BEGIN .none,
    .node 23 [.node 27 [], .node 31 [], .node 47 [.node 50 [.node 55 [.node 4 [.leaf Tok.VALUEIDENTIFIER (.name (c! "a"))],
      .node 56 [.node 66 [.node 186 [.leaf Tok.OBJECT .none, .leaf Tok.IDENTIFIER .none]]], .leaf Tok.ASSIGNMENT .none,
      .node 78 [.node 81 [v]]]]]],
    .leaf Tok.END .none]

/-- The reference `b` of `{ b 3 }`. -/
def oidRef : Tree := .node 53 [.node 4 [.leaf Tok.VALUEIDENTIFIER (.name (c! "b"))]]

/-- The component `3` of `{ b 3 }`. -/
def oidThree : Tree := .node 189 [.node 192 [.node 195 [.leaf Tok.NUMBER (.number (c! "3") 3)]]]

/-- `{ b 3 }` by rule 188. -/
def oidMeant : Tree := .node 188 [.leaf Tok.OPEN_CURLY .none, oidRef, oidThree, .leaf Tok.CLOSE_CURLY .none]

/-- `{ b 3 }` by rule 187, with `b` as a component. -/
def oidOther : Tree :=
  .node 187 [.leaf Tok.OPEN_CURLY .none, .node 190 [.node 194 [oidRef], oidThree], .leaf Tok.CLOSE_CURLY .none]

/-- A text that the grammar reads in two ways, one of them preferred. -/
example : (tokenize asciiUnicode (c! "M DEFINITIONS ::= BEGIN a OBJECT IDENTIFIER ::= { b 3 } END") = some (oidModule oidMeant).tokens ∧
    (oidModule oidMeant).tokens = (oidModule oidOther).tokens) ∧
    ((oidModule oidMeant).symbol? = some (.n NT.ModuleDefinition) ∧ (oidModule oidOther).symbol? = some (.n NT.ModuleDefinition)) ∧
    (oidModule oidMeant).IsPreferred ∧ ¬ (oidModule oidOther).IsPreferred := by decide +kernel

/-- A text that conforms to the grammar in no preferred way, so it is refused: imports from two modules. -/
example : (error? (parseString asciiUnicode (c! "M DEFINITIONS ::= BEGIN IMPORTS A FROM X B FROM Y; END"))).isSome = true := by
  decide +kernel

/-! ### C08: disambiguated derivations are unique -/

/-- A token sequence has at most one preferred derivation. -/
theorem C08_unique (toks : List Token) (t t' : Tree) (hd : Derives (.n NT.ModuleDefinition) toks t) (hp : t.IsPreferred)
    (hd' : Derives (.n NT.ModuleDefinition) toks t') (hp' : t'.IsPreferred) : t = t' :=
  accepts_unique (accepts_of_preferred hd hp) (accepts_of_preferred hd' hp')

/-- Without preference derivations are not unique. -/
theorem C08_ambiguous : ∃ toks t t', Derives (.n NT.ModuleDefinition) toks t ∧ Derives (.n NT.ModuleDefinition) toks t' ∧ t ≠ t' := by
  have h : (oidModule oidMeant).tokens = (oidModule oidOther).tokens := by decide +kernel
  refine ⟨_, oidModule oidMeant, oidModule oidOther, derives_of_symbol (by decide +kernel), ?_, ?_⟩
  · rw [h]
    exact derives_of_symbol (by decide +kernel)
  · simp [oidModule, oidMeant, oidOther]

end Asn1go.Props
