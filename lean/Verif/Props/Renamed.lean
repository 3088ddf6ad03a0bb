import Verif.Proofs.Codegen.Renamed
import Verif.Props.Bare

/-! Names in a module are names only (C88). -/

namespace Asn1go.Props

open Spec CG

/-- C88: for a module in which types, values and components are given other names, `Generate` makes the same declarations with the new names, or reports the same
errors, or does not return.  Different types and values must keep different names, and the names of the time types must stay. -/
theorem C88_renamed (u : Casing) (fuel : Nat) (p : GenParams) (ref ident : Str → Str) (hk : Keeps ref) (m m' : Module) (hm : ModuleRenamed ref ident m m') :
    (generateFile u fuel p m = none ∧ generateFile u fuel p m' = none) ∨
      ∃ r r', generateFile u fuel p m = some r ∧ generateFile u fuel p m' = some r' ∧ ResultRenamed ref ident u r r' := by
  unfold generateFile
  rw [← hm.tags]
  by_cases ha : m.tagDefault = TAGS_AUTOMATIC
  · rw [if_pos ha, if_pos ha]
    exact .inr ⟨_, _, rfl, rfl, .automatic⟩
  · rw [if_neg ha, if_neg ha]
    have key := decls_renamed (c := ⟨u, fuel, m.tagDefault, [], p.integerRepr⟩) hk hm.list hm.list
    simp only [onto] at key ⊢
    revert key
    generalize generateDeclarations _ m.moduleBody.assignmentList = x
    generalize generateDeclarations _ m'.moduleBody.assignmentList = y
    intro key
    cases key with
    | none => exact .inl ⟨rfl, rfl⟩
    | some a b l l' h1 h2 =>
      have he := errors_renamed h2
      refine .inr ?_
      simp only
      by_cases h : errorsOf l = []
      · have h' : errorsOf l' = [] := by
          rw [h] at he
          generalize errorsOf l' = x at he
          cases he
          rfl
        rw [if_neg (not_not.2 h), if_neg (not_not.2 h'), required_renamed h2]
        refine ⟨_, _, rfl, rfl, .ok _ _ _ _ (List.rel_append ?_ h1)⟩
        generalize requiredFrom [] l' = x
        induction x with
        | nil => exact .nil
        | cons q x ih => exact .cons (.imp q) ih
      · have h' : errorsOf l' ≠ [] := by
          intro h'
          rw [h'] at he
          cases hx : errorsOf l with
          | nil => exact h hx
          | cons q x => rw [hx] at he; cases he
        rw [if_pos h, if_pos h']
        exact ⟨_, _, rfl, rfl, .translation _ _ he⟩

/-! ### Every module can be renamed -/

section

variable (ref ident : Str → Str)

theorem value_same_as (v : Value DefinedValue) : ValueAs v v := by
  cases v with
  | number n => exact .number n
  | boolean b => exact .boolean b
  | real x => exact .real x
  | _ => exact .other _ _ nofun nofun nofun nofun nofun nofun

theorem default_same_as (v : Option (Value DefinedValue)) : DefaultAs v v := by
  cases v with
  | none => exact .none
  | some v => exact .some _ _ (value_same_as v)

theorem numbers_rename : ∀ l : List NamedNumber, List.Forall₂ (NumberRenamed ref ident) l (l.map (renameNumber ref ident))
  | [] => .nil
  | ⟨n, .number x⟩ :: l => .cons (.number n x) (numbers_rename l)
  | ⟨n, .defined ⟨m, v⟩⟩ :: l => .cons (.defined n v m m .rfl) (numbers_rename l)
  | ⟨n, .nil⟩ :: l => .cons (.nil n) (numbers_rename l)

mutual

theorem ty_rename : ∀ t : MTy, TyRenamed ref ident t (renameTy ref ident t)
  | .integer l => by rw [renameTy]; exact .integer _ _ (numbers_rename ref ident l)
  | .choice l e => by rw [renameTy]; exact .choice _ _ _ _ (alts_rename l)
  | .sequence a b => by rw [renameTy]; exact .sequence _ _ _ _ (components_rename a) (components_rename b)
  | .set a b => by rw [renameTy]; exact .set _ _ _ _ (components_rename a) (components_rename b)
  | .tagged g t k h => by rw [renameTy]; exact .tagged _ _ _ _ _ _ _ (value_same_as _) (ty_rename t)
  | .sequenceOf t => by rw [renameTy]; exact .sequenceOf _ _ (ty_rename t)
  | .setOf t => by rw [renameTy]; exact .setOf _ _ (ty_rename t)
  | .constrained t c => by rw [renameTy]; exact .constrained _ _ _ _ (ty_rename t)
  | .ref n => by rw [renameTy]; exact .ref n
  | .boolean | .characterString | .real | .octetString | .restrictedString _ | .bitString _ | .enumerated _ _ | .any _ | .objectIdentifier | .null | .nil | .named _ => by
    simp only [renameTy]; constructor

theorem alts_rename : ∀ l : List MNamed, AltsRenamed ref ident l (renameAlts ref ident l)
  | [] => by rw [renameAlts]; exact .nil
  | .mk n t :: l => by rw [renameAlts]; exact .cons _ _ _ _ _ _ (ty_rename t) (alts_rename l)

theorem components_rename : ∀ l : List MComponent, ComponentsRenamed ref ident l (renameComponents ref ident l)
  | [] => by rw [renameComponents]; exact .nil
  | .named (.mk n t) o d :: l => by rw [renameComponents]; exact .named _ _ _ _ _ _ _ _ (ty_rename t) (default_same_as d) (components_rename l)
  | .componentsOf t :: l => by rw [renameComponents]; exact .componentsOf _ _ _ _ (components_rename l)
  | .nil :: l => by rw [renameComponents]; exact .absent _ _ (components_rename l)

end

theorem assignments_rename : ∀ l : List MAssignment, .nil ∉ l → List.Forall₂ (AssignmentRenamed ref ident) l (l.map (renameAssignment ref ident))
  | [], _ => .nil
  | .type n t :: l, h => .cons (.type n _ _ (ty_rename ref ident t)) (assignments_rename l fun hh => h (List.mem_cons_of_mem _ hh))
  | .value n t v :: l, h => .cons (.value n _ _ _ _ (ty_rename ref ident t) (value_same_as v)) (assignments_rename l fun hh => h (List.mem_cons_of_mem _ hh))
  | .nil :: l, h => absurd List.mem_cons_self h

/-- Every module without missing assignments can be renamed. -/
theorem C88_rename (m : Module) (h : .nil ∉ m.moduleBody.assignmentList) : ModuleRenamed ref ident m (renameModule ref ident m) :=
  ⟨rfl, assignments_rename ref ident _ h⟩

end

theorem complete_assignments {R D : Type} {L : Links R D} {simple : Bool} {toks : List Token} {l : List (Assignment R D)}
    (h : Notation.AssignmentsText L simple toks l) : .nil ∉ l := by
  induction h with
  | one _ z hz =>
    intro hy
    rw [List.mem_singleton] at hy
    subst hy
    cases hz
  | snoc _ _ l z _ hz ih =>
    intro hy
    rcases List.mem_append.1 hy with hy | hy
    · exact ih hy
    · rw [List.mem_singleton] at hy
      subst hy
      cases hz

/-- In parsed modules no assignment is missing. -/
theorem complete_parsed {u : Unicode} {text : Str} {m : Module} (h : parseString u text = .ok m) : .nil ∉ m.moduleBody.assignmentList := by
  obtain ⟨toks, n, m0, _, hn, rfl, hs⟩ := C63_returned u text m h
  intro ha
  simp only [ModuleDefinition.map, ModuleBody.map, List.mem_map] at ha
  obtain ⟨x, hx, ha⟩ := ha
  have hb : m0.moduleBody.assignmentList.map (Assignment.map Ref.known fun _ => ()) =
      n.moduleBody.assignmentList.map (Assignment.map Ref.known fun _ => ()) := by
    have := congrArg (fun q => q.moduleBody.assignmentList) hs
    simpa only [ModuleDefinition.map, ModuleBody.map] using this
  cases x with
  | nil =>
    have hx' := List.mem_map_of_mem (f := Assignment.map Ref.known fun _ => ()) hx
    rw [hb] at hx'
    obtain ⟨y, hy, hyx⟩ := List.mem_map.1 hx'
    cases y with
    | nil =>
      cases hn with
      | mk _ _ _ _ _ _ _ _ _ _ _ _ hbody =>
        cases hbody with
        | empty => cases hy
        | some _ _ _ _ l _ _ hl => exact complete_assignments hl hy
    | value r' s' v' => simp [Assignment.map] at hyx
    | type r' s' => simp [Assignment.map] at hyx
  | value r s v => simp [Assignment.map] at ha
  | type r s => simp [Assignment.map] at ha

/-- C88 for modules that come from a text. -/
theorem C88_parsed (u : Casing) (text : Str) (m : Module) (h : parseString u.toUnicode text = .ok m) (fuel : Nat) (p : GenParams) (ref ident : Str → Str) (hk : Keeps ref) :
    (generateFile u fuel p m = none ∧ generateFile u fuel p (renameModule ref ident m) = none) ∨
      ∃ r r', generateFile u fuel p m = some r ∧ generateFile u fuel p (renameModule ref ident m) = some r' ∧ ResultRenamed ref ident u r r' :=
  C88_renamed u fuel p ref ident hk _ _ (C88_rename ref ident m (complete_parsed h))

/-! ### A case -/

/-- Two names change places. -/
def swapped (a b n : Str) : Str := if n = a then b else if n = b then a else n

theorem swapped_twice (a b n : Str) : swapped a b (swapped a b n) = n := by
  unfold swapped
  split
  · next h => subst h; split
              · next h => exact h
              · simp
  · next h1 => split
               · next h => subst h; simp
               · rfl

theorem swapped_injective (a b : Str) : Function.Injective (swapped a b) := Function.LeftInverse.injective (swapped_twice a b)

/-- `A ::= SEQUENCE { a-b [1] B, c GeneralizedTime OPTIONAL, d CHOICE { e B } }`, `B ::= INTEGER { f(1), g(h) }`, `h B ::= 7`, `C ::= SET OF A`. -/
def namesModule : Module := moduleOf TAGS_IMPLICIT [
  .type (c! "A") (.sequence [comp (c! "a-b") (tag CLASS_CONTEXT_SPECIFIC 1 (.ref (c! "B"))), .named (.mk (c! "c") (.ref (c! "GeneralizedTime"))) true none,
    comp (c! "d") (.choice [.mk (c! "e") (.ref (c! "B"))] [])] []),
  .type (c! "B") (.integer [⟨c! "f", .number 1⟩, ⟨c! "g", .defined ⟨[], c! "h"⟩⟩]), .value (c! "h") (.ref (c! "B")) (.number 7),
  .type (c! "C") (.setOf (.ref (c! "A")))]

/-- The same with `Count` for `B`, and `x` for the component `a-b`. -/
def newNames : Module := moduleOf TAGS_IMPLICIT [
  .type (c! "A") (.sequence [comp (c! "x") (tag CLASS_CONTEXT_SPECIFIC 1 (.ref (c! "Count"))), .named (.mk (c! "c") (.ref (c! "GeneralizedTime"))) true none,
    comp (c! "d") (.choice [.mk (c! "y") (.ref (c! "Count"))] [])] []),
  .type (c! "Count") (.integer [⟨c! "f", .number 1⟩, ⟨c! "g", .defined ⟨[], c! "h"⟩⟩]), .value (c! "h") (.ref (c! "Count")) (.number 7),
  .type (c! "C") (.setOf (.ref (c! "A")))]

example : Keeps (swapped (c! "B") (c! "Count")) := ⟨swapped_injective _ _, by decide, by decide⟩

example : ModuleRenamed (swapped (c! "B") (c! "Count")) (swapped (c! "a-b") (c! "x")) namesModule newNames :=
  ⟨rfl, .cons (.type (c! "A") _ _ (.sequence _ _ _ _ (.named (c! "a-b") _ _ _ _ _ _ _ (.tagged _ _ _ _ _ _ _ (.number 1) (.ref (c! "B"))) .none
      (.named (c! "c") _ _ _ _ _ _ _ (.ref (c! "GeneralizedTime")) .none (.named (c! "d") _ _ _ _ _ _ _ (.choice _ _ _ _ (.cons _ _ _ _ _ _ (.ref (c! "B")) .nil)) .none .nil)))
      .nil)) (.cons (.type (c! "B") _ _ (.integer _ _ (.cons (.number (c! "f") 1) (.cons (.defined (c! "g") (c! "h") [] [] .rfl) .nil))))
      (.cons (.value (c! "h") _ _ _ _ (.ref (c! "B")) (.number 7)) (.cons (.type (c! "C") _ _ (.setOf _ _ (.ref (c! "A")))) .nil)))⟩

/-- What is generated for them. -/
example : generateFile asciiCasing 6 int64Params namesModule = some (.ok ⟨c! "My_Mod", [.imp (c! "time"),
      .type [⟨c! "A", false, .struct [.mk (c! "A_b") (.ident (c! "B")) (some (c! "`asn1:\"tag:1\"`")),
        .mk (c! "C") (.ident (c! "time.Time")) (some (c! "`asn1:\"optional,generalized\"`")), .mk (c! "D") (.ident (c! "B")) none]⟩],
      .type [⟨c! "B", true, .ident (c! "int64")⟩], .var [⟨c! "BValF", .ident (c! "B"), .lit (c! "1")⟩, ⟨c! "BValG", .ident (c! "B"), .ident (c! "ValH")⟩],
      .var [⟨c! "ValH", .ident (c! "B"), .lit (c! "7")⟩],
      .type [⟨c! "CSET", false, .array (.ident (c! "A"))⟩, ⟨c! "C", true, .ident (c! "CSET")⟩]]⟩) ∧
    generateFile asciiCasing 6 int64Params newNames = some (.ok ⟨c! "My_Mod", [.imp (c! "time"),
      .type [⟨c! "A", false, .struct [.mk (c! "X") (.ident (c! "Count")) (some (c! "`asn1:\"tag:1\"`")),
        .mk (c! "C") (.ident (c! "time.Time")) (some (c! "`asn1:\"optional,generalized\"`")), .mk (c! "D") (.ident (c! "Count")) none]⟩],
      .type [⟨c! "Count", true, .ident (c! "int64")⟩], .var [⟨c! "CountValF", .ident (c! "Count"), .lit (c! "1")⟩, ⟨c! "CountValG", .ident (c! "Count"), .ident (c! "ValH")⟩],
      .var [⟨c! "ValH", .ident (c! "Count"), .lit (c! "7")⟩],
      .type [⟨c! "CSET", false, .array (.ident (c! "A"))⟩, ⟨c! "C", true, .ident (c! "CSET")⟩]]⟩) := ⟨rfl, rfl⟩

/-! ### The conditions are needed -/

/-- The names of the time types must stay: `A ::= CHOICE { a GeneralizedTime, b BOOLEAN }` has a file, `A ::= CHOICE { a B, b BOOLEAN }` has none. -/
theorem C88_time_needed : ∃ m m' f e, Function.Injective (swapped (c! "GeneralizedTime") (c! "B")) ∧
    ModuleRenamed (swapped (c! "GeneralizedTime") (c! "B")) id m m' ∧ generateFile asciiCasing 6 int64Params m = some (.ok f) ∧
    generateFile asciiCasing 6 int64Params m' = some (.error e) ∧ ¬ ResultRenamed (swapped (c! "GeneralizedTime") (c! "B")) id asciiCasing (.ok f) (.error e) :=
  ⟨moduleOf TAGS_IMPLICIT [.type (c! "A") (.choice [.mk (c! "a") (.ref (c! "GeneralizedTime")), .mk (c! "b") .boolean] [])],
    moduleOf TAGS_IMPLICIT [.type (c! "A") (.choice [.mk (c! "a") (.ref (c! "B")), .mk (c! "b") .boolean] [])], _, _, swapped_injective _ _,
    ⟨rfl, .cons (.type (c! "A") _ _ (.choice _ _ _ _ (.cons _ _ _ _ _ _ (.ref (c! "GeneralizedTime")) (.cons _ _ _ _ _ _ .boolean .nil)))) .nil⟩, rfl, rfl, nofun⟩

theorem renamed_single {ref ident : Str → Str} {u : Casing} {a a' : Str} {b b' : Bool} {e e' : GoExpr}
    (h : DeclRenamed ref ident u (.type [⟨a, b, e⟩]) (.type [⟨a', b', e'⟩])) : ExprRenamed ref ident u e e' := by
  cases h
  assumption

/-- Different types must keep different names: in `A ::= [1] BOOLEAN`, `B ::= BOOLEAN`, `C ::= CHOICE { a B, b BOOLEAN }`, if `B` becomes `A`, `C` becomes an
`asn1.RawValue`. -/
theorem C88_different_needed : ∃ m m' f f', ModuleRenamed (fun n => if n = c! "B" then c! "A" else n) id m m' ∧ generateFile asciiCasing 6 int64Params m = some (.ok f) ∧
    generateFile asciiCasing 6 int64Params m' = some (.ok f') ∧ ¬ ResultRenamed (fun n => if n = c! "B" then c! "A" else n) id asciiCasing (.ok f) (.ok f') := by
  refine ⟨moduleOf TAGS_IMPLICIT [.type (c! "A") (tag CLASS_CONTEXT_SPECIFIC 1 .boolean), .type (c! "B") .boolean,
      .type (c! "C") (.choice [.mk (c! "a") (.ref (c! "B")), .mk (c! "b") .boolean] [])],
    moduleOf TAGS_IMPLICIT [.type (c! "A") (tag CLASS_CONTEXT_SPECIFIC 1 .boolean), .type (c! "A") .boolean,
      .type (c! "C") (.choice [.mk (c! "a") (.ref (c! "A")), .mk (c! "b") .boolean] [])],
    ⟨c! "My_Mod", [.type [⟨c! "A", true, .ident (c! "bool")⟩], .type [⟨c! "B", true, .ident (c! "bool")⟩], .type [⟨c! "C", true, .iface⟩]]⟩,
    ⟨c! "My_Mod", [.type [⟨c! "A", true, .ident (c! "bool")⟩], .type [⟨c! "A", true, .ident (c! "bool")⟩], .type [⟨c! "C", true, .ident (c! "asn1.RawValue")⟩]]⟩,
    ⟨rfl, .cons (.type (c! "A") _ _ (.tagged _ _ _ _ _ _ _ (.number 1) .boolean)) (.cons (.type (c! "B") _ _ .boolean)
      (.cons (.type (c! "C") _ _ (.choice _ _ _ _ (.cons _ _ _ _ _ _ (.ref (c! "B")) (.cons _ _ _ _ _ _ .boolean .nil)))) .nil))⟩, rfl, rfl, fun h => ?_⟩
  cases h with
  | ok _ _ _ _ h =>
    cases h with
    | cons _ h =>
      cases h with
      | cons _ h =>
        cases h with
        | cons h _ =>
          have h := renamed_single h
          cases h

end Asn1go.Props
