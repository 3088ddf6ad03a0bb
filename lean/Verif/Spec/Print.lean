import Verif.Spec.Notation
import Verif.Model.Codegen

/-! Printing modules, for C24 and C64.

The functions give the tokens a module is written with, or nothing if the module is not one that can be written; `write` then
writes the tokens as text.  With `simple` components with `DEFAULT` and object identifier values that start with a reference
and have further components are not written. -/

namespace Asn1go.Spec.Print

open Asn1go Notation

/-- Lists of tokens with a separator between them. -/
def sep (code : Int) : List (List Token) → List Token
  | [] => []
  | [a] => a
  | a :: b :: l => a ++ kw code :: sep code (b :: l)

abbrev commas (l : List (List Token)) : List Token := sep Tok.COMMA l

/-- Braces around something. -/
def braces (a : List Token) : List Token := kw Tok.OPEN_CURLY :: (a ++ [kw Tok.CLOSE_CURLY])

def round (a : List Token) : List Token := kw Tok.OPEN_ROUND :: (a ++ [kw Tok.CLOSE_ROUND])

def number (n : Nat) : Token := num (natStr n) n

/-- A number that is not negative. -/
def natural (n : Int) : Option Token := if 0 ≤ n then some (number n.toNat) else none

def signed (n : Int) : List Token := if n < 0 then [kw Tok.MINUS, number n.natAbs] else [number n.natAbs]

def defined (d : DefinedValue) : List Token :=
  if d.moduleName = [] then [lower d.valueName] else [upper d.moduleName, kw Tok.DOT, lower d.valueName]

/-- All of them, if there are all of them. -/
def all {α : Type} (f : α → Option (List Token)) : List α → Option (List (List Token))
  | [] => some []
  | x :: l => (f x).bind fun a => (all f l).bind fun b => some (a :: b)

def namedNumber (x : NamedNumber) : Option (List Token) :=
  match x.value with
  | .nil => none
  | .number n => some (lower x.name :: round (signed n))
  | .defined d => some (lower x.name :: round (defined d))

def enumItem : EnumerationItem → Option (List Token)
  | .nil => none
  | .namedNumber x => namedNumber x
  | .identifier s => some [lower s]

def literal : GoReal → Option (List Token)
  | .lit i f e => (natural i).bind fun a => (natural f).bind fun b =>
      some (if e = 0 then [a, kw Tok.DOT, b] else a :: kw Tok.DOT :: b :: kw Tok.EXPONENT :: signed e)
  | _ => none

def real : GoReal → Option (List Token)
  | .neg x => (literal x).bind fun a => some (kw Tok.MINUS :: a)
  | .posInf => some [kw Tok.PLUS_INFINITY]
  | .negInf => some [kw Tok.MINUS_INFINITY]
  | x => literal x

/-- An element of an object identifier value that is not a reference alone. -/
def oidElement (e : ObjectIdElement DefinedValue) : Option (List Token) :=
  match e.reference with
  | none => (natural e.id).bind fun a => some (if e.name = [] then [a] else lower e.name :: round [a])
  | some d => if e.id = 0 ∧ e.name ≠ [] then some (lower e.name :: round (defined d)) else none

def oidComponent (e : ObjectIdElement DefinedValue) : Option (List Token) :=
  match e.reference with
  | some d => if e.id = 0 ∧ e.name = [] then some (defined d) else oidElement e
  | none => oidElement e

def oid (simple : Bool) : List (ObjectIdElement DefinedValue) → Option (List Token)
  | [] => none
  | [e] => (oidComponent e).bind fun a => some (braces a)
  | e :: f :: l => (if simple then oidElement e else oidComponent e).bind fun a => (all oidComponent (f :: l)).bind fun b =>
      some (braces (a ++ b.flatten))

def value (simple : Bool) : Value DefinedValue → Option (List Token)
  | .nil => none
  | .number n => some (signed n)
  | .real x => real x
  | .boolean b => some [kw (if b then Tok.TRUE else Tok.FALSE)]
  | .defined _ => none
  | .identifiedInteger s => some [lower s]
  | .objectIdentifier l => oid simple l

def namedBit (x : NamedBit DefinedValue) : Option (List Token) :=
  match x.index with
  | .number n => (natural n).bind fun a => some (lower x.name :: round [a])
  | .defined d => some (lower x.name :: round (defined d))
  | _ => none

def cls (c : Int) : Option (List Token) :=
  if c = CLASS_CONTEXT_SPECIFIC then some [] else if c = CLASS_UNIVERSAL then some [kw Tok.UNIVERSAL] else
  if c = CLASS_APPLICATION then some [kw Tok.APPLICATION] else if c = CLASS_PRIVATE then some [kw Tok.PRIVATE] else none

def tag (t : Tag DefinedValue) : Option (List Token) :=
  (cls t.cls).bind fun a => match t.classNumber with
  | .number n => (natural n).bind fun b => some (kw Tok.OPEN_SQUARE :: (a ++ [b, kw Tok.CLOSE_SQUARE]))
  | .defined d => some (kw Tok.OPEN_SQUARE :: (a ++ (defined d ++ [kw Tok.CLOSE_SQUARE])))
  | _ => none

def tagging (i : Int) (h : Bool) : Option (List Token) :=
  if h then if i = TAGS_IMPLICIT then some [kw Tok.IMPLICIT] else if i = TAGS_EXPLICIT then some [kw Tok.EXPLICIT] else none
  else if i = 0 then some [] else none

/-- A bound, or the word for no bound. -/
def bound (simple : Bool) (word : Int) : Value DefinedValue → Option (List Token)
  | .nil => some [kw word]
  | v => value simple v

def range (simple : Bool) (v w : RangeEndpoint DefinedValue) : Option (List Token) :=
  (bound simple Tok.MIN v.value).bind fun a => (bound simple Tok.MAX w.value).bind fun b =>
    some (a ++ ((if v.isOpen then [kw Tok.LESS] else []) ++ kw Tok.RANGE_SEPARATOR :: ((if w.isOpen then [kw Tok.LESS] else []) ++ b)))

/-- The names of types that are reserved words. -/
def typeName (s : Str) : Token :=
  if s = (c! "GeneralizedTime") then kw Tok.GeneralizedTime else if s = (c! "UTCTime") then kw Tok.UTCTime else upper s

/-- What stands between the braces of a SEQUENCE or SET. -/
def body (l e : List (List Token)) : Option (List Token) :=
  match l, e with
  | [], [] => some []
  | [], _ :: _ => none
  | l, [] => some (commas l)
  | l, e => some (commas l ++ kw Tok.COMMA :: kw Tok.ELLIPSIS :: kw Tok.COMMA :: commas e)

/-- What stands between the braces of a CHOICE. -/
def alternatives (l e : List (List Token)) : List Token :=
  match l, e with
  | [], [] => [kw Tok.ELLIPSIS]
  | [], e => kw Tok.ELLIPSIS :: kw Tok.COMMA :: commas e
  | l, [] => commas l
  | l, e => commas l ++ kw Tok.COMMA :: kw Tok.ELLIPSIS :: kw Tok.COMMA :: commas e

/-- Not empty. -/
def nonempty {α : Type} (l : List α) : Option (List α) := if l.isEmpty then none else some l

abbrev DV := DefinedValue
abbrev DD := Value DefinedValue

/-- Where a type stands: before a constraint, after `OF`, or elsewhere. -/
inductive Place
  | constrained
  | element
  | other
  deriving DecidableEq

mutual

/-- Types; not all can stand before a constraint, and after `OF` there may be a name. -/
def type (simple : Bool) (p : Place) : Ty DV DD → Option (List Token)
  | .nil => none
  | .null => some [kw Tok.NULL]
  | .objectIdentifier => some [kw Tok.OBJECT, kw Tok.IDENTIFIER]
  | .integer l => (all namedNumber l).bind fun a => some (kw Tok.INTEGER :: if a.isEmpty then [] else braces (commas a))
  | .enumerated l e => (nonempty l).bind fun _ => (all enumItem l).bind fun a =>
      if e.isEmpty then some (kw Tok.ENUMERATED :: braces (commas a)) else none
  | .real => some [kw Tok.REAL]
  | .boolean => some [kw Tok.BOOLEAN]
  | .choice l e => (namedTypes simple l).bind fun a => (namedAll simple e).bind fun b => some (kw Tok.CHOICE :: braces (alternatives a b))
  | .restrictedString code => if code ∈ stringTypes then some [kw code] else none
  | .characterString => some [kw Tok.CHARACTER, kw Tok.STRING]
  | .octetString => some [kw Tok.OCTET, kw Tok.STRING]
  | .sequence l e => (components simple l).bind fun a => (components simple e).bind fun b => (body a b).bind fun d =>
      some (kw Tok.SEQUENCE :: braces d)
  | .set l e => (components simple l).bind fun a => (components simple e).bind fun b => (body a b).bind fun d =>
      some (kw Tok.SET :: braces d)
  | .tagged g t i h => if p = .constrained then none else (tag g).bind fun a => (tagging i h).bind fun b => (type simple .other t).bind fun d =>
      some (a ++ (b ++ d))
  | .sequenceOf t => if p = .constrained then none else (type simple .element t).bind fun a => some (kw Tok.SEQUENCE :: kw Tok.OF :: a)
  | .setOf t => if p = .constrained then none else (type simple .element t).bind fun a => some (kw Tok.SET :: kw Tok.OF :: a)
  | .any s => some (if s = [] then [kw Tok.ANY] else [kw Tok.ANY, kw Tok.DEFINED, kw Tok.BY, lower s])
  | .bitString l => (all namedBit l).bind fun a => some (kw Tok.BIT :: kw Tok.STRING :: if a.isEmpty then [] else braces (commas a))
  | .constrained (.sequenceOf t) k => if p = .constrained then none else (constraint simple k).bind fun a => (type simple .element t).bind fun b =>
      some (kw Tok.SEQUENCE :: (a ++ kw Tok.OF :: b))
  | .constrained (.setOf t) k => if p = .constrained then none else (constraint simple k).bind fun a => (type simple .element t).bind fun b =>
      some (kw Tok.SET :: (a ++ kw Tok.OF :: b))
  | .constrained t k => (type simple .constrained t).bind fun a => (constraint simple k).bind fun b => some (a ++ b)
  | .ref s => some [typeName s]
  | .named n => if p = .element then namedType simple n else none

def namedType (simple : Bool) : NamedType DV DD → Option (List Token)
  | .mk s t => (type simple .other t).bind fun a => some (lower s :: a)

def namedTypes (simple : Bool) : List (NamedType DV DD) → Option (List (List Token))
  | [] => some []
  | x :: l => (namedType simple x).bind fun a => (namedTypes simple l).bind fun b => some (a :: b)

/-- Types with names. -/
def namedAll (simple : Bool) : List (Ty DV DD) → Option (List (List Token))
  | [] => some []
  | .named x :: l => (namedType simple x).bind fun a => (namedAll simple l).bind fun b => some (a :: b)
  | _ :: _ => none

def component (simple : Bool) : ComponentType DV DD → Option (List Token)
  | .nil => none
  | .named n false none => namedType simple n
  | .named n true none => (namedType simple n).bind fun a => some (a ++ [kw Tok.OPTIONAL])
  | .named n false (some v) => if simple then none else (namedType simple n).bind fun a => (value simple v).bind fun b =>
      some (a ++ kw Tok.DEFAULT :: b)
  | .named _ true (some _) => none
  | .componentsOf t => (type simple .other t).bind fun a => some (kw Tok.COMPONENTS :: kw Tok.OF :: a)

def components (simple : Bool) : List (ComponentType DV DD) → Option (List (List Token))
  | [] => some []
  | x :: l => (component simple x).bind fun a => (components simple l).bind fun b => some (a :: b)

def constraint (simple : Bool) : Constraint DV DD → Option (List Token)
  | .mk s => constraintSpec simple s

def constraintSpec (simple : Bool) : ConstraintSpec DV DD → Option (List Token)
  | .nil => none
  | .subtype [e] => (valueSet simple e).bind fun a => some (round a)
  | .subtype [e, f] => (valueSet simple e).bind fun a => (valueSet simple f).bind fun b =>
      some (round (a ++ kw Tok.COMMA :: kw Tok.ELLIPSIS :: kw Tok.COMMA :: b))
  | .subtype _ => none
  | .general => none

/-- A set of values. -/
def valueSet (simple : Bool) : Elements DV DD → Option (List Token)
  | .unions l => (unions simple l).bind fun a => (nonempty a).bind fun a => some (sep Tok.PIPE a)
  | .exclusions e => (elements simple e).bind fun a => some (kw Tok.ALL :: kw Tok.EXCEPT :: a)
  | _ => none

def unions (simple : Bool) : List (List (IntersectionElements DV DD)) → Option (List (List Token))
  | [] => some []
  | x :: l => (intersections simple x).bind fun a => (nonempty a).bind fun a => (unions simple l).bind fun b => some (sep Tok.CARET a :: b)

def intersections (simple : Bool) : List (IntersectionElements DV DD) → Option (List (List Token))
  | [] => some []
  | x :: l => (except simple x).bind fun a => (intersections simple l).bind fun b => some (a :: b)

def except (simple : Bool) : IntersectionElements DV DD → Option (List Token)
  | .mk e .nil => elements simple e
  | .mk e f => (elements simple e).bind fun a => (elements simple f).bind fun b => some (a ++ kw Tok.EXCEPT :: b)

/-- What sets of values are made of; nothing is known of inner type constraints. -/
def elements (simple : Bool) : Elements DV DD → Option (List Token)
  | .nil => none
  | .unions l => (unions simple l).bind fun a => (nonempty a).bind fun a => some (round (sep Tok.PIPE a))
  | .exclusions e => (elements simple e).bind fun a => some (round (kw Tok.ALL :: kw Tok.EXCEPT :: a))
  | .singleValue v => value simple v
  | .valueRange v w => range simple v w
  | .typeConstraint t => type simple .other t
  | .size k => (constraint simple k).bind fun a => some (kw Tok.SIZE :: a)
  | .inner => some (kw Tok.WITH :: kw Tok.COMPONENTS :: braces [lower (c! "x")])

end

def assignment (simple : Bool) : Assignment DV DD → Option (List Token)
  | .nil => none
  | .type s t => (type simple .other t).bind fun a => some (upper s :: kw Tok.ASSIGNMENT :: a)
  | .value s t v => (type simple .other t).bind fun a => (value simple v).bind fun b => some (lower s :: (a ++ kw Tok.ASSIGNMENT :: b))

def symbol : Symbol → Option (List Token)
  | .typeReference s => some [upper s]
  | .valueReference s => some [lower s]
  | _ => none

/-- Symbols from a module; all but the last module must have an identifier. -/
def imported (simple last : Bool) (x : SymbolsFromModule DV) : Option (List Token) :=
  (nonempty x.symbolList).bind fun l => (all symbol l).bind fun a =>
    (match x.module.assignedIdentifier with
      | .nil => if last then some [] else none
      | .objectIdentifier o => oid simple o
      | .defined d => some (defined d)
      | _ => none).bind fun b =>
    some (commas a ++ kw Tok.FROM :: upper x.module.reference :: b)

def imports (simple : Bool) : List (SymbolsFromModule DV) → Option (List Token)
  | [] => some []
  | [x] => imported simple true x
  | x :: y :: l => (imported simple false x).bind fun a => (imports simple (y :: l)).bind fun b => some (a ++ b)

def moduleBody (simple : Bool) (m : ModuleBody DV DD) : Option (List Token) :=
  if m.assignmentList.isEmpty then if m.imports.isEmpty then some [] else none else
    (imports simple m.imports).bind fun a => (all (assignment simple) m.assignmentList).bind fun b =>
      some ((if m.imports.isEmpty then [] else kw Tok.IMPORTS :: (a ++ [kw Tok.SEMICOLON])) ++ b.flatten)

def definitive (x : DefinitiveObjIdComponent) : Option (List Token) :=
  (natural x.id).bind fun a => some (if x.name = [] then [a] else if x.id = 0 then [lower x.name] else lower x.name :: round [a])

def tags (i : Int) : Option (List Token) :=
  if i = TAGS_EXPLICIT then some [] else if i = TAGS_IMPLICIT then some [kw Tok.IMPLICIT, kw Tok.TAGS] else
  if i = TAGS_AUTOMATIC then some [kw Tok.AUTOMATIC, kw Tok.TAGS] else none

/-- The tokens a module is written with. -/
def module (simple : Bool) (m : ModuleDefinition DV DD) : Option (List Token) :=
  (all definitive m.moduleIdentifier.definitiveIdentifier).bind fun a => (tags m.tagDefault).bind fun b =>
    (moduleBody simple m.moduleBody).bind fun e =>
    some (upper m.moduleIdentifier.reference :: ((if a.isEmpty then [] else braces a.flatten) ++ kw Tok.DEFINITIONS :: (b ++
      ((if m.extensibilityImplied then [kw Tok.EXTENSIBILITY, kw Tok.IMPLIED] else []) ++ kw Tok.ASSIGNMENT :: kw Tok.BEGIN ::
        (e ++ [kw Tok.END])))))

/-- How a token is spelled. -/
def spelling : Token → Str
  | (_, .name w) => w
  | (_, .number w _) => w
  | (code, .none) => (((reservedWords ++ symbols).find? fun x => x.2 == code).map (·.1)).getD []

/-- Tokens as text: a space before each but the `E` of a real number, which has to follow the number directly. -/
def write : List Token → Str
  | [] => []
  | t :: l => if t.1 = Tok.EXPONENT then 'E' :: write l else ' ' :: (spelling t ++ write l)

/-- Names and numbers that can be written: names that are not reserved words and start with a letter of the right case,
and numbers that are not too large. -/
inductive Writable (u : Unicode) : Token → Prop
  | upper (c : Char) (w : Str) : Word u (c :: w) → u.isUpper c = true → (∀ code, (c :: w, code) ∉ reservedWords) → Writable u (upper (c :: w))
  | lower (c : Char) (w : Str) : Word u (c :: w) → u.isUpper c = false → Writable u (lower (c :: w))
  | number (n : Nat) : n < 9223372036854775808 → Writable u (number n)
  | word (code : Int) : Writable u (kw code)

/-- The text a module is written as. -/
def text (simple : Bool) (m : ModuleDefinition DV DD) : Option Str := (module simple m).map write

end Asn1go.Spec.Print
