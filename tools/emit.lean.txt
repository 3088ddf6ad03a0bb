import Verif.Props.Codegen
import Verif.Props.Parser

/-! Prints modules and generated files as Lean terms.  Run by tools/emit.sh; nothing here is trusted, as the kernel compares the terms with what
the model computes. -/

open Asn1go Asn1go.Props

def str (s : Str) : String := if s.isEmpty then "[]" else s!"c! {repr (String.ofList s)}"
def list {α : Type} (f : α → String) (l : List α) : String := "[" ++ ", ".intercalate (l.map f) ++ "]"
def opt {α : Type} (f : α → String) : Option α → String
  | none => "none"
  | some a => s!"(some {f a})"
def int (i : Int) : String := if i < 0 then s!"({i})" else s!"{i}"
def dv (d : DefinedValue) : String := s!"⟨{str d.moduleName}, {str d.valueName}⟩"
def oid (e : ObjectIdElement DefinedValue) : String := s!"⟨{str e.name}, {int e.id}, {opt dv e.reference}⟩"
def real : GoReal → String
  | .lit i f e => s!"(.lit {int i} {int f} {int e})"
  | .neg x => s!"(.neg {real x})"
  | .posInf => ".posInf"
  | .negInf => ".negInf"
def value : Value DefinedValue → String
  | .nil => ".nil"
  | .number n => s!"(.number {int n})"
  | .real x => s!"(.real {real x})"
  | .boolean b => s!"(.boolean {b})"
  | .defined d => s!"(.defined {dv d})"
  | .identifiedInteger n => s!"(.identifiedInteger ({str n}))"
  | .objectIdentifier l => s!"(.objectIdentifier {list oid l})"
def nn (n : NamedNumber) : String :=
  let v := match n.value with
    | .nil => ".nil"
    | .number n => s!".number {int n}"
    | .defined d => s!".defined {dv d}"
  s!"⟨{str n.name}, {v}⟩"
def enumItem : EnumerationItem → String
  | .nil => ".nil"
  | .namedNumber n => s!".namedNumber {nn n}"
  | .identifier s => s!".identifier ({str s})"
def rangeEnd (e : RangeEndpoint DefinedValue) : String := s!"⟨{value e.value}, {e.isOpen}⟩"
def bit (b : NamedBit DefinedValue) : String := s!"⟨{str b.name}, {value b.index}⟩"

mutual
partial def ty : MTy → String
  | .nil => ".nil"
  | .null => ".null"
  | .objectIdentifier => ".objectIdentifier"
  | .integer l => s!"(.integer {list nn l})"
  | .enumerated a b => s!"(.enumerated {list enumItem a} {list enumItem b})"
  | .real => ".real"
  | .boolean => ".boolean"
  | .choice a e => s!"(.choice {list nt a} {list ty e})"
  | .restrictedString n => s!"(.restrictedString {n})"
  | .characterString => ".characterString"
  | .octetString => ".octetString"
  | .sequence a b => s!"(.sequence {list ct a} {list ct b})"
  | .set a b => s!"(.set {list ct a} {list ct b})"
  | .tagged g t k h => s!"(.tagged ⟨{int g.cls}, {value g.classNumber}⟩ {ty t} {int k} {h})"
  | .sequenceOf t => s!"(.sequenceOf {ty t})"
  | .setOf t => s!"(.setOf {ty t})"
  | .any s => s!"(.any ({str s}))"
  | .bitString l => s!"(.bitString {list bit l})"
  | .constrained t c => s!"(.constrained {ty t} {con c})"
  | .ref s => s!"(.ref ({str s}))"
  | .named n => s!"(.named {nt n})"
partial def nt : NamedType DefinedValue (Value DefinedValue) → String
  | .mk i t => s!"(.mk ({str i}) {ty t})"
partial def ct : MComponent → String
  | .nil => ".nil"
  | .named n o d => s!".named {nt n} {o} {opt value d}"
  | .componentsOf t => s!".componentsOf {ty t}"
partial def con : Constraint DefinedValue (Value DefinedValue) → String
  | .mk .nil => "(.mk .nil)"
  | .mk (.subtype l) => s!"(.mk (.subtype {list el l}))"
  | .mk .general => "(.mk .general)"
partial def ie : IntersectionElements DefinedValue (Value DefinedValue) → String
  | .mk a b => s!".mk {el a} {el b}"
partial def el : Elements DefinedValue (Value DefinedValue) → String
  | .nil => ".nil"
  | .unions l => s!"(.unions {list (list ie) l})"
  | .exclusions e => s!"(.exclusions {el e})"
  | .singleValue v => s!"(.singleValue {value v})"
  | .valueRange a b => s!"(.valueRange {rangeEnd a} {rangeEnd b})"
  | .typeConstraint t => s!"(.typeConstraint {ty t})"
  | .size c => s!"(.size {con c})"
  | .inner => ".inner"
end

def assignment : MAssignment → String
  | .nil => ".nil"
  | .type r t => s!".type ({str r}) {ty t}"
  | .value r t v => s!".value ({str r}) {ty t} {value v}"

mutual
partial def expr : GoExpr → String
  | .nil => ".nil"
  | .ident n => s!"(.ident ({str n}))"
  | .star x => s!"(.star {expr x})"
  | .array x => s!"(.array {expr x})"
  | .iface => ".iface"
  | .struct fs => s!"(.struct {list field fs})"
  | .lit t => s!"(.lit ({str t}))"
  | .real x => s!"(.real {real x})"
  | .call f a => s!"(.call ({str f}) {expr a})"
partial def field : GoField → String
  | .mk n t g => s!".mk ({str n}) {expr t} {opt (fun s => s!"({str s})") g}"
end

def typeSpec (s : GoTypeSpec) : String := s!"⟨{str s.name}, {s.alias}, {expr s.type}⟩"
def valueSpec (s : GoValueSpec) : String := s!"⟨{str s.name}, {expr s.type}, {expr s.value}⟩"
def decl : GoDecl → String
  | .type l => s!".type {list typeSpec l}"
  | .var l => s!".var {list valueSpec l}"
  | .imp p => s!".imp ({str p})"

partial def chunks {α : Type} (n : Nat) : List α → List (List α)
  | [] => []
  | a :: l => (a :: l).take n :: chunks n ((a :: l).drop n)

/-- Definitions `name` (module) and `nameFile` (file) for the text in the file `path`. -/
def emit (path name doc : String) (p : GenParams) (repr : String) : IO Unit := do
  let s ← IO.FS.readFile path
  match parseString asciiUnicode s.toList with
  | .ok m =>
    let l := m.moduleBody.assignmentList
    let cs := chunks 12 l
    for (c, k) in cs.zipIdx do
      IO.println s!"/-- {doc}: assignments {12 * k + 1} to {12 * k + c.length}. -/"
      IO.println s!"def {name}Part{k} : List MAssignment := [\n  {",\n  ".intercalate (c.map assignment)}]\n"
    IO.println s!"/-- {doc}: the module. -/"
    IO.println s!"def {name} : Module where"
    IO.println s!"  moduleIdentifier := ⟨{str m.moduleIdentifier.reference}, {list (fun (c : DefinitiveObjIdComponent) => s!"⟨{str c.name}, {int c.id}⟩") m.moduleIdentifier.definitiveIdentifier}⟩"
    IO.println s!"  tagDefault := {int m.tagDefault}"
    IO.println s!"  extensibilityImplied := {m.extensibilityImplied}"
    IO.println s!"  moduleBody := ⟨{" ++ (".intercalate ((List.range cs.length).map fun k => s!"{name}Part{k}")}{"".pushn ')' (cs.length - 1)}, []⟩\n"
    match generateFile asciiCasing 1000 p m with
    | some (.ok f) =>
      let cs := chunks 12 f.decls
      for (c, k) in cs.zipIdx do
        IO.println s!"/-- {doc}, {repr}: declarations {12 * k + 1} to {12 * k + c.length}. -/"
        IO.println s!"def {name}Decls{k} : List GoDecl := [\n  {",\n  ".intercalate (c.map decl)}]\n"
      IO.println s!"/-- {doc}, {repr}: the file. -/"
      IO.println s!"def {name}File : GoFile :=\n  ⟨{str f.package}, {" ++ (".intercalate ((List.range cs.length).map fun k => s!"{name}Decls{k}")}{"".pushn ')' (cs.length - 1)}⟩\n"
    | _ => IO.println "no file"
  | _ => IO.println "no module"

def main (args : List String) : IO Unit := do
  match args with
  | [path, name, doc, "int64"] => emit path name doc { package := c! "examples", integerRepr := c! "int64" } "integers as int64"
  | [path, name, doc, "big"] => emit path name doc { package := c! "examples", integerRepr := c! "big.Int" } "integers as big.Int"
  | _ => IO.println "?"
