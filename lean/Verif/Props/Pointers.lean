import Verif.Proofs.LR.Plain
import Verif.Props.Grammar

/-! Properties of what the actions store as pointers into the parser's own stack: C05, C06; and exact values without them. -/

namespace Asn1go.Props

open Spec LR

/-- Forget which value an object identifier component refers to, also within defaults. -/
def Module.noRefs (m : Module) : ModuleDefinition Unit (Value Unit) := m.map (fun _ => ()) (Value.map fun _ => ())

/-- Forget the values of defaults, not their presence. -/
def Module.noDefaults (m : Module) : ModuleDefinition DefinedValue Unit := m.map id (fun _ => ())

/-! ### C05: `DEFAULT` values -/

/-- Every `DEFAULT v` of an accepted text is found in the module returned. -/
def C05_statement : Prop := ∀ (u : Unicode) (text : Str) (toks : List Token) (t : Tree) (m : Module), Tokens u false text toks →
  Derives (.n NT.ModuleDefinition) toks t → t.IsPreferred → parseString u text = .ok m → Module.noRefs m = Module.noRefs t.ideal

/-- The start of the tree of `M DEFINITIONS ::= BEGIN … END`. -/
def plainModule (assignments : Tree) : Tree :=
  .node 1 [.node 7 [.node 3 [.leaf Tok.TYPEORMODULEREFERENCE (.name (c! "M"))], .node 9 []], .leaf Tok.DEFINITIONS .none, .node 20 [],
    .node 22 [], .leaf Tok.ASSIGNMENT .none, .leaf Tok.BEGIN .none, .node 23 [.node 27 [], .node 31 [], assignments], .leaf Tok.END .none]

/-- `name INTEGER DEFAULT n`. -/
def defaultComponent (name repr : Str) (n : Nat) : Tree :=
  .node 152 [.node 77 [.node 6 [.leaf Tok.VALUEIDENTIFIER (.name name)], .node 56 [.node 64 [.node 86 [.leaf Tok.INTEGER .none]]]],
    .leaf Tok.DEFAULT .none, .node 78 [.node 80 [.node 94 [.node 92 [.leaf Tok.NUMBER (.number repr n)]]]]]

/-- The tree of `defaultsText`. -/
def defaultsTree : Tree :=
  plainModule (.node 47 [.node 49 [.node 54 [.node 2 [.leaf Tok.TYPEORMODULEREFERENCE (.name (c! "A"))], .leaf Tok.ASSIGNMENT .none,
    .node 56 [.node 69 [.node 129 [.leaf Tok.SEQUENCE .none, .leaf Tok.OPEN_CURLY .none, .node 134 [.node 149 [.node 149 [
      .node 148 [defaultComponent (c! "a") (c! "5") 5], .leaf Tok.COMMA .none, defaultComponent (c! "b") (c! "6") 6],
      .leaf Tok.COMMA .none, defaultComponent (c! "c") (c! "7") 7]], .leaf Tok.CLOSE_CURLY .none]]]]]])

/-- Three components with the defaults 5, 6 and 7. -/
def defaultsText : Str :=
  c! "M DEFINITIONS ::= BEGIN A ::= SEQUENCE { a INTEGER DEFAULT 5, b INTEGER DEFAULT 6, c INTEGER DEFAULT 7 } END"

/-- The defaults of the components of the first assignment. -/
def firstDefaults {R D : Type} (m : ModuleDefinition R D) : List (Option D) :=
  match m.moduleBody.assignmentList with
  | Assignment.type _ (.sequence l _) :: _ => l.map fun
    | ComponentType.named _ _ d => d
    | _ => none
  | _ => []

theorem defaults_tokens : tokenize asciiUnicode defaultsText = some defaultsTree.tokens := by decide +kernel

theorem defaults_derives : Derives (.n NT.ModuleDefinition) defaultsTree.tokens defaultsTree := derives_of_symbol (by decide +kernel)

theorem defaults_preferred : defaultsTree.IsPreferred := by decide +kernel

theorem defaults_parsed : (module? (parseString asciiUnicode defaultsText)).map firstDefaults =
    some [some .nil, some (.number 7), some (.number 7)] := by decide +kernel

theorem defaults_meant : firstDefaults defaultsTree.ideal = [some (.number 5), some (.number 6), some (.number 7)] := by decide +kernel

/-- What the parser makes of the defaults 5, 6 and 7: the first is gone and the second has the value of the third. -/
theorem C05_witness : ∃ m, parseString asciiUnicode defaultsText = .ok m ∧
    firstDefaults m = [some .nil, some (.number 7), some (.number 7)] ∧
    firstDefaults defaultsTree.ideal = [some (.number 5), some (.number 6), some (.number 7)] := by
  obtain ⟨m, h1, h2⟩ := ok_of_module? defaults_parsed
  exact ⟨m, h1, h2, defaults_meant⟩

theorem C05_false : ¬ C05_statement := by
  intro h
  obtain ⟨m, h1, h2, h3⟩ := C05_witness
  have := h asciiUnicode defaultsText _ _ m ((tokenize_iff _ _ _).1 defaults_tokens) defaults_derives defaults_preferred h1
  have e : ∀ m : Module, firstDefaults (Module.noRefs m) = (firstDefaults m).map (Option.map (Value.map fun _ => ())) := by
    intro m
    unfold firstDefaults Module.noRefs ModuleDefinition.map ModuleBody.map
    rcases m.moduleBody.assignmentList with _ | ⟨a, l⟩
    · rfl
    · cases a with
      | type n t =>
        cases t <;> try rfl
        rename_i l' _
        simp only [List.map_cons, Assignment.map, Ty.map, ComponentType.mapList_eq, List.map_map]
        apply List.map_congr_left
        rintro (_ | _ | _) _ <;> rfl
      | _ => rfl
  have := congrArg firstDefaults this
  rw [e, e, h2, h3] at this
  revert this
  decide

/-- What holds: the module returned is the one meant but for the values of defaults and the references of C06; so a
component has a default exactly if it is written with one.  Missing: that the value of the default is the one written, which
is false (`C05_false`). -/
theorem C05_presence_partial (u : Unicode) (text : Str) (toks : List Token) (t : Tree) (m : Module) (ht : Tokens u false text toks)
    (hd : Derives (.n NT.ModuleDefinition) toks t) (hp : t.IsPreferred) (hm : parseString u text = .ok m) :
    m.map (fun _ => ()) (fun _ => ()) = t.ideal.map (fun _ => ()) (fun _ => ()) := by
  obtain ⟨m', m0, h1, h2, h3, h4⟩ := C07_complete u text toks t ht hd hp
  rw [hm] at h1
  cases h1
  rw [h2, h3, ModuleDefinition.map_map, ModuleDefinition.map_map]
  exact ModuleDefinition.map_rel (fun _ _ _ => rfl) (fun _ _ _ => rfl) h4

/-! ### C06: the first component of an object identifier value -/

/-- Every reference in an object identifier value of an accepted text is found in the module returned. -/
def C06_statement : Prop := ∀ (u : Unicode) (text : Str) (toks : List Token) (t : Tree) (m : Module), Tokens u false text toks →
  Derives (.n NT.ModuleDefinition) toks t → t.IsPreferred → parseString u text = .ok m → Module.noDefaults m = Module.noDefaults t.ideal

/-- `name OBJECT IDENTIFIER ::= { ref n }`. -/
def oidAssignment (name ref repr : Str) (n : Nat) : Tree :=
  .node 50 [.node 55 [.node 4 [.leaf Tok.VALUEIDENTIFIER (.name name)],
    .node 56 [.node 66 [.node 186 [.leaf Tok.OBJECT .none, .leaf Tok.IDENTIFIER .none]]], .leaf Tok.ASSIGNMENT .none,
    .node 78 [.node 81 [.node 188 [.leaf Tok.OPEN_CURLY .none, .node 53 [.node 4 [.leaf Tok.VALUEIDENTIFIER (.name ref)]],
      .node 189 [.node 192 [.node 195 [.leaf Tok.NUMBER (.number repr n)]]], .leaf Tok.CLOSE_CURLY .none]]]]]

/-- The tree of `oidsText`. -/
def oidsTree : Tree :=
  plainModule (.node 48 [.node 48 [.node 47 [oidAssignment (c! "a") (c! "x") (c! "1") 1], oidAssignment (c! "b") (c! "y") (c! "2") 2],
    oidAssignment (c! "c") (c! "z") (c! "3") 3])

/-- Three object identifiers starting with `x`, `y` and `z`. -/
def oidsText : Str :=
  c! "M DEFINITIONS ::= BEGIN a OBJECT IDENTIFIER ::= { x 1 } b OBJECT IDENTIFIER ::= { y 2 } c OBJECT IDENTIFIER ::= { z 3 } END"

/-- The first reference of an assigned object identifier value. -/
def oidHead {R D : Type} : Assignment R D → Option R
  | Assignment.value _ _ (.objectIdentifier (e :: _)) => e.reference
  | _ => none

/-- The first references of assigned object identifier values. -/
def oidHeads {R D : Type} (m : ModuleDefinition R D) : List (Option R) := m.moduleBody.assignmentList.map oidHead

theorem oidHead_map {R R' D D' : Type} (f : R → R') (g : D → D') (a : Assignment R D) :
    oidHead (a.map f g) = (oidHead a).map f := by
  cases a with
  | value n t v =>
    cases v with
    | objectIdentifier l => cases l <;> rfl
    | _ => rfl
  | _ => rfl

theorem oids_tokens : tokenize asciiUnicode oidsText = some oidsTree.tokens := by decide +kernel

theorem oids_derives : Derives (.n NT.ModuleDefinition) oidsTree.tokens oidsTree := derives_of_symbol (by decide +kernel)

theorem oids_preferred : oidsTree.IsPreferred := by decide +kernel

theorem oids_parsed : (module? (parseString asciiUnicode oidsText)).map oidHeads =
    some [some {}, some { valueName := c! "z" }, some { valueName := c! "z" }] := by decide +kernel

theorem oids_meant : oidHeads oidsTree.ideal = [some { valueName := c! "x" }, some { valueName := c! "y" }, some { valueName := c! "z" }] := by
  decide +kernel

/-- What the parser makes of the references `x`, `y` and `z`: the first is gone and the second is the third. -/
theorem C06_witness : ∃ m, parseString asciiUnicode oidsText = .ok m ∧
    oidHeads m = [some {}, some { valueName := c! "z" }, some { valueName := c! "z" }] ∧
    oidHeads oidsTree.ideal = [some { valueName := c! "x" }, some { valueName := c! "y" }, some { valueName := c! "z" }] := by
  obtain ⟨m, h1, h2⟩ := ok_of_module? oids_parsed
  exact ⟨m, h1, h2, oids_meant⟩

theorem C06_false : ¬ C06_statement := by
  intro h
  obtain ⟨m, h1, h2, h3⟩ := C06_witness
  have := h asciiUnicode oidsText _ _ m ((tokenize_iff _ _ _).1 oids_tokens) oids_derives oids_preferred h1
  have e : ∀ m : Module, oidHeads (Module.noDefaults m) = oidHeads m := by
    intro m
    simp only [oidHeads, Module.noDefaults, ModuleDefinition.map, ModuleBody.map, List.map_map]
    apply List.map_congr_left
    intro a _
    simp [oidHead_map]
  have := congrArg oidHeads this
  rw [e, e, h2, h3] at this
  revert this
  decide

/-- What holds: in a text without object identifier value that starts with a reference and has further components (rule
188), all references are as written.  Missing: those first components, for which it is false (`C06_false`). -/
theorem C06_others_partial (u : Unicode) (text : Str) (toks : List Token) (t : Tree) (m : Module) (ht : Tokens u false text toks)
    (hd : Derives (.n NT.ModuleDefinition) toks t) (hp : t.IsPreferred) (hu : t.uses 188 = false) (hm : parseString u text = .ok m) :
    Module.noDefaults m = Module.noDefaults t.ideal := by
  obtain ⟨m', hm', hpar⟩ := parse_of_accepts ht (accepts_of_preferred hd hp)
  rw [hm] at hm'
  cases hm'
  obtain ⟨m0, h1, h2⟩ := parsed_marks hpar false true (by simp [hu]) (by simp)
  rw [h1, ← marked_target hd, Module.noDefaults, Module.noDefaults, ModuleDefinition.map_map, ModuleDefinition.map_map]
  refine ModuleDefinition.map_rel ?_ (fun _ _ _ => rfl) h2
  rintro (a | a) (b | b) <;> simp [Ref.known, markRef, Ref.target]

/-! ### C07: exact values -/

/-- A text without `DEFAULT` and without object identifier value that starts with a reference and has further components
is parsed to exactly the module that its preferred derivation means. -/
theorem C07_exact_value (u : Unicode) (text : Str) (toks : List Token) (t : Tree) (ht : Tokens u false text toks)
    (hd : Derives (.n NT.ModuleDefinition) toks t) (hp : t.IsPreferred) (h152 : t.uses 152 = false) (h188 : t.uses 188 = false) :
    parseString u text = .ok t.ideal := by
  obtain ⟨m, hm, hpar⟩ := parse_of_accepts ht (accepts_of_preferred hd hp)
  obtain ⟨m0, h1, h2⟩ := parsed_marks hpar false false (by simp [h188]) (by simp [h152])
  rw [hm, h1, ← marked_target hd]
  congr 1
  refine ModuleDefinition.map_rel ?_ ?_ h2
  · rintro (a | a) (b | b) <;> simp [Ref.known, markRef, Ref.target]
  · intro a b h
    cases h

/-- The tree of `M DEFINITIONS ::= BEGIN A ::= SEQUENCE { x INTEGER } END`, which uses neither rule. -/
def plainTree : Tree :=
  plainModule (.node 47 [.node 49 [.node 54 [.node 2 [.leaf Tok.TYPEORMODULEREFERENCE (.name (c! "A"))], .leaf Tok.ASSIGNMENT .none,
    .node 56 [.node 69 [.node 129 [.leaf Tok.SEQUENCE .none, .leaf Tok.OPEN_CURLY .none, .node 134 [.node 148 [.node 150 [
      .node 77 [.node 6 [.leaf Tok.VALUEIDENTIFIER (.name (c! "x"))], .node 56 [.node 64 [.node 86 [.leaf Tok.INTEGER .none]]]]]]],
      .leaf Tok.CLOSE_CURLY .none]]]]]])

example : tokenize asciiUnicode (c! "M DEFINITIONS ::= BEGIN A ::= SEQUENCE { x INTEGER } END") = some plainTree.tokens ∧
    plainTree.symbol? = some (.n NT.ModuleDefinition) ∧ plainTree.IsPreferred ∧ plainTree.uses 152 = false ∧
    plainTree.uses 188 = false := by decide +kernel

end Asn1go.Props
