import Verif.Model.Parser

/-! Model of /repo/codegen.go.

The context `moduleContext` (codegen.go:65-76) is only ever written through `appendError` and `requireModule`
and never read while declarations are made, so it is modelled as the log of these calls, replayed at the end.
The Go values of package `go/ast` are modelled by the constructors the code uses.  Recursion of
`unwrapToLeafType` need not end, so it takes fuel; `none` is a run that needs more. -/

namespace Asn1go

/-- The functions of Go's package `unicode` used through `strings.Title`, with their ASCII behaviour; the title case of
a character outside ASCII is outside ASCII or an ASCII capital.  For codegen.go:135. -/
structure Casing extends Unicode where
  isSpace : Char → Bool
  toTitle : Char → Char
  title_ascii : ∀ c : Char, c.toNat < 128 → toTitle c = if 97 ≤ c.toNat ∧ c.toNat ≤ 122 then Char.ofNat (c.toNat - 32) else c
  title_other : ∀ c : Char, 128 ≤ c.toNat → 128 ≤ (toTitle c).toNat ∨ (65 ≤ (toTitle c).toNat ∧ (toTitle c).toNat ≤ 90)

/-- The ASCII-only instance, used for concrete examples.  Not in the code. -/
def asciiCasing : Casing where
  toUnicode := asciiUnicode
  isSpace c := c.toNat = 32 || (9 ≤ c.toNat && c.toNat ≤ 13)
  toTitle c := if 97 ≤ c.toNat ∧ c.toNat ≤ 122 then Char.ofNat (c.toNat - 32) else c
  title_ascii := fun _ _ => rfl
  title_other := fun c h => by
    have : ¬ (97 ≤ c.toNat ∧ c.toNat ≤ 122) := by omega
    rw [if_neg this]
    exact .inl h

/-- The types of a module as a caller sees them.  ast.go:262-264 -/
abbrev MTy := Ty DefinedValue (Value DefinedValue)
/-- Components of such types.  ast.go:406-409 -/
abbrev MComponent := ComponentType DefinedValue (Value DefinedValue)
/-- Alternatives of such types.  ast.go:138-141 -/
abbrev MNamed := NamedType DefinedValue (Value DefinedValue)
/-- Assignments of such types.  ast.go:109-111 -/
abbrev MAssignment := Assignment DefinedValue (Value DefinedValue)

/-- strings.go (Go standard library) `isSeparator`, used by `strings.Title`.  For codegen.go:135. -/
def isSeparator (u : Casing) (c : Char) : Bool :=
  if c.toNat ≤ 127 then
    !((48 ≤ c.toNat && c.toNat ≤ 57) || (97 ≤ c.toNat && c.toNat ≤ 122) || (65 ≤ c.toNat && c.toNat ≤ 90) || c = '_')
  else if u.isLetter c || u.isDigit c then false
  else u.isSpace c

/-- `strings.Title` after the rune `prev`.  For codegen.go:135. -/
def titleFrom (u : Casing) : Char → Str → Str
  | _, [] => []
  | prev, c :: l => (if isSeparator u prev then u.toTitle c else c) :: titleFrom u c l

/-- codegen.go:134-136 `goifyName` -/
def goifyName (u : Casing) (name : Str) : Str :=
  titleFrom u ' ' (name.map fun c => if c = '-' then '_' else c)

/-- Decimal digits of `n`, put before `acc`.  For codegen.go:330, 416 and 446. -/
def natStrAux : Nat → Nat → Str → Str
  | 0, _, acc => acc
  | fuel + 1, n, acc =>
    if n / 10 = 0 then Char.ofNat (48 + n % 10) :: acc
    else natStrAux fuel (n / 10) (Char.ofNat (48 + n % 10) :: acc)

/-- `fmt.Sprint` of a natural number.  For codegen.go:330, 416 and 446. -/
def natStr (n : Nat) : Str := natStrAux (n + 1) n []

/-- `fmt.Sprint` of an `int`.  Used at codegen.go:330, 416 and 446. -/
def intStr (i : Int) : Str := if i < 0 then '-' :: natStr i.natAbs else natStr i.natAbs

/-- strings.Join.  Used at codegen.go:485. -/
def joinStr (sep : Str) : List Str → Str
  | [] => []
  | [a] => a
  | a :: l => a ++ sep ++ joinStr sep l

mutual

/-- The expressions of package go/ast used: `NewIdent` (also for qualified names such as `big.Int`), `StarExpr`,
`ArrayType`, the empty `InterfaceType`, `StructType`, `BasicLit` (reals are kept symbolic, the text of a number
or boolean is in `lit`), `CallExpr`, and nil.  They are made at codegen.go:222-345 and 493-503. -/
inductive GoExpr
  | nil
  | ident (name : Str)
  | star (x : GoExpr)
  | array (elt : GoExpr)
  | iface
  | struct (fields : List GoField)
  | lit (text : Str)
  | real (x : GoReal)
  | call (f : Str) (arg : GoExpr)

/-- go/ast `Field` with one name.  Made at codegen.go:401-405. -/
inductive GoField
  | mk (name : Str) (type : GoExpr) (tag : Option Str)

end

/-- go/ast `TypeSpec`; `alias` says that `Assign` is set.  Made at codegen.go:163-190. -/
structure GoTypeSpec where
  name : Str
  alias : Bool
  type : GoExpr

/-- go/ast `ValueSpec` with one name and one value.  Made at codegen.go:192-220 and 309-313. -/
structure GoValueSpec where
  name : Str
  type : GoExpr
  value : GoExpr

/-- go/ast `GenDecl` with token TYPE, VAR or IMPORT.  Made at codegen.go:128, 163-190, 192-220 and 315-318. -/
inductive GoDecl
  | type (specs : List GoTypeSpec)
  | var (specs : List GoValueSpec)
  | imp (path : Str)

/-- go/ast `File`.  Made at codegen.go:113-116 and 130. -/
structure GoFile where
  package : Str
  decls : List GoDecl

/-- The errors appended with `appendError`, kept symbolic: codegen.go:235, 285, 304, 383 and 391, 442, 448, 520. -/
inductive GenErr
  | unknownIntMode (repr : Str)
  | unsupported
  | foreignValue (moduleName valueName : Str)
  | componentsOf
  | automaticTags (name : Str)
  | tagNotNumber
  | unresolved (name : Str)
  deriving DecidableEq, Repr

/-- A call of `appendError` or `requireModule`.  codegen.go:78-89 -/
inductive Event
  | error (e : GenErr)
  | require (m : Str)
  deriving DecidableEq, Repr

/-- A computation that writes to the module context; `none` if it needs more fuel.  The context is that of codegen.go:65-76. -/
def Gen (α : Type) : Type := Option (α × List Event)

/-- No effect.  codegen.go:65-76 -/
def Gen.pure {α : Type} (a : α) : Gen α := some (a, [])
/-- Sequencing.  codegen.go:65-76 -/
def Gen.bind {α β : Type} (x : Gen α) (f : α → Gen β) : Gen β :=
  match x with
  | none => none
  | some (a, l) =>
    match f a with
    | none => none
    | some (b, l') => some (b, l ++ l')

instance : Monad Gen where
  pure := Gen.pure
  bind := Gen.bind

/-- One event.  codegen.go:78-89 -/
def emit (e : Event) : Gen Unit := some ((), [e])
/-- codegen.go:78-80 -/
def appendError (e : GenErr) : Gen Unit := emit (.error e)
/-- codegen.go:82-89 -/
def requireModule (m : Str) : Gen Unit := emit (.require m)

/-- The errors in a log (codegen.go:79). -/
def errorsOf : List Event → List GenErr
  | [] => []
  | .error e :: l => e :: errorsOf l
  | .require _ :: l => errorsOf l

/-- `requiredModules` after a log, starting from `acc` (codegen.go:83-88). -/
def requiredFrom (acc : List Str) : List Event → List Str
  | [] => acc
  | .error _ :: l => requiredFrom acc l
  | .require m :: l => requiredFrom (if acc.contains m then acc else acc ++ [m]) l

/-- codegen.go:43 -/
def IntegerReprInt64 : Str := c! "int64"
/-- codegen.go:44 -/
def IntegerReprBigInt : Str := c! "big.Int"

/-- codegen.go:19-28 `GenParams` without `Type`, which has one value. -/
structure GenParams where
  package : Str := []
  integerRepr : Str := []

/-- codegen.go:65-76: the parts of the context that are read. -/
structure GenCtx where
  u : Casing
  fuel : Nat
  tagDefault : Int
  assignments : List MAssignment
  integerRepr : Str

/-- ast.go:725 -/
def GeneralizedTimeName : Str := c! "GeneralizedTime"
/-- ast.go:726 -/
def UTCTimeName : Str := c! "UTCTime"

/-- ast.go:729-738 and codegen.go:525-531 `lookupUsefulType`; `.nil` if there is none. -/
def lookupUsefulType (name : Str) : MTy :=
  if name = GeneralizedTimeName then .tagged ⟨CLASS_UNIVERSAL, .number 24⟩ (.restrictedString Tok.VisibleString) 0 false
  else .nil

/-- codegen.go:533-544 `removeWrapperTypes` -/
def removeWrapperTypes : MTy → MTy
  | .tagged _ t _ _ => removeWrapperTypes t
  | .constrained t _ => removeWrapperTypes t
  | t => t

/-- codegen.go:547-557 `unwrapToLeafType`: reference and type of the assignment found; `.nil` for no type. -/
def unwrapToLeafType (l : List MAssignment) : Nat → Str → Option (Str × MTy)
  | 0, _ => none
  | fuel + 1, name =>
    match assignmentGetType l name with
    | some (r, t) =>
      match removeWrapperTypes t with
      | .ref name' => unwrapToLeafType l fuel name'
      | _ => some (r, t)
    | none => some (name, .nil)

/-- Comparison of a type with nil.  codegen.go:515 and 517 -/
def isNilTy : MTy → Bool
  | .nil => true
  | _ => false

/-- codegen.go:513-523 `resolveTypeReference`; the inner `none` is nil. -/
def resolveTypeReference (c : GenCtx) (name : Str) : Gen (Option (Str × MTy)) :=
  match unwrapToLeafType c.assignments c.fuel name with
  | none => none
  | some (r, t) =>
    if !isNilTy t then pure (some (r, t))
    else if !isNilTy (lookupUsefulType r) then pure (some (r, lookupUsefulType r))
    else do
      appendError (.unresolved name)
      pure none

/-- codegen.go:493-503 `generateSpecialCase`; `none` is nil. -/
def generateSpecialCase (r : Str) (t : MTy) : Gen (Option GoExpr) :=
  if r = GeneralizedTimeName ∨ r = UTCTimeName then do
    requireModule (c! "time")
    pure (some (.ident (c! "time.Time")))
  else
    match removeWrapperTypes t with
    | .bitString _ => do
      requireModule (c! "encoding/asn1")
      pure (some (.ident (c! "asn1.BitString")))
    | _ => pure none

/-- codegen.go:324-326 -/
def valueRefToIdent (u : Casing) (ref : Str) : Str := c! "Val" ++ goifyName u ref

/-- codegen.go:328-335 -/
def numberToExpr (n : Int) (repr : Str) : GoExpr :=
  if repr = IntegerReprBigInt then .call (c! "big.NewInt") (.lit (intStr n)) else .lit (intStr n)

/-- codegen.go:356-374 `taggedChoiceTypeAlternative`, with the treatment of references as parameter. -/
def taggedWith (onRef : Str → Gen Bool) : MTy → Gen Bool
  | .tagged _ _ _ _ => pure true
  | .ref name => if name = GeneralizedTimeName ∨ name = UTCTimeName then pure false else onRef name
  | .constrained t _ => taggedWith onRef t
  | _ => pure false

/-- codegen.go:356-374 `taggedChoiceTypeAlternative` -/
def taggedChoiceTypeAlternative (c : GenCtx) : Nat → MTy → Gen Bool
  | 0, t => taggedWith (fun _ => none) t
  | fuel + 1, t => taggedWith (fun name => do
      match ← resolveTypeReference c name with
      | none => pure false
      | some (_, t') => taggedChoiceTypeAlternative c fuel t') t

/-- codegen.go:347-354 `hasTaggedAlternatives` -/
def hasTaggedAlternatives (c : GenCtx) : List MNamed → Gen Bool
  | [] => pure false
  | f :: l => do
    if ← taggedChoiceTypeAlternative c c.fuel f.type then pure true
    else hasTaggedAlternatives c l

/-- codegen.go:427-432: the component for the class of a tag. -/
def classComponents (cls : Int) : List Str :=
  if cls = CLASS_APPLICATION then [c! "application"]
  else if cls = CLASS_PRIVATE then [c! "private"] else []

/-- codegen.go:437-443: the component for the kind of tagging. -/
def explicitComponents (name : Str) (tagType : Int) : Gen (List Str) :=
  if tagType = TAGS_AUTOMATIC then do
    appendError (.automaticTags name)
    pure []
  else pure (if tagType = TAGS_EXPLICIT then [c! "explicit"] else [])

/-- codegen.go:444-449 and 506-508: the component for the number of a tag. -/
def tagNumber : Value DefinedValue → Gen (List Str)
  | .number n => pure [c! "tag:" ++ intStr n]
  | _ => do
    appendError .tagNotNumber
    pure []

/-- codegen.go:422-456: the loop over tags and constraints, returning the tag components and the type inside. -/
def tagComponents (c : GenCtx) (name : Str) : MTy → Gen (List Str × MTy)
  | .tagged tag t tagType hasTagType => do
    let expl ← explicitComponents name (if hasTagType then tagType else c.tagDefault)
    let num ← tagNumber tag.classNumber
    let (l, t') ← tagComponents c name t
    pure (classComponents tag.cls ++ expl ++ num ++ l, t')
  | .constrained t _ => tagComponents c name t
  | t => pure ([], t)

/-- codegen.go:458-482: the components for the type inside. -/
def kindComponents (c : GenCtx) : MTy → Gen (List Str)
  | .restrictedString lexType =>
    if lexType = Tok.IA5String then pure [c! "ia5"]
    else if lexType = Tok.UTF8String then pure [c! "utf8"]
    else if lexType = Tok.NumericString then pure [c! "numeric"]
    else pure []
  | .set _ _ => pure [c! "set"]
  | .setOf _ => pure [c! "set"]
  | .ref name =>
    match unwrapToLeafType c.assignments c.fuel name with
    | none => none
    | some (r, _) =>
      if r = GeneralizedTimeName then pure [c! "generalized"]
      else if r = UTCTimeName then pure [c! "utc"]
      else pure []
  | _ => pure []

/-- codegen.go:411-421: optional and default. -/
def optionComponents (isOptional : Bool) (dflt : Option (Value DefinedValue)) : List Str :=
  (if isOptional then [c! "optional"] else []) ++
  match dflt with
  | none => []
  | some v =>
    (match v with
      | .number n => [c! "default:" ++ intStr n]
      | _ => []) ++
    (if !isOptional then [c! "optional"] else [])

/-- codegen.go:483-490: the struct tag literal. -/
def tagLiteral (l : List Str) : Option Str :=
  if l.isEmpty then none else some (c! "`asn1:\"" ++ joinStr (c! ",") l ++ c! "\"`")

/-- codegen.go:408-491 `asn1TagFromType` -/
def asn1TagFromType (c : GenCtx) (name : Str) (t : MTy) (isOptional : Bool) (dflt : Option (Value DefinedValue)) :
    Gen (Option Str) := do
  let (l, t') ← tagComponents c name t
  let k ← kindComponents c t'
  pure (tagLiteral (optionComponents isOptional dflt ++ l ++ k))

mutual

/-- codegen.go:222-288 `generateTypeBody`; the flag returned says that `*isSet` was set. -/
def generateTypeBody (c : GenCtx) : MTy → Gen (GoExpr × Bool)
  | .boolean => pure (.ident (c! "bool"), false)
  | .integer _ =>
    if c.integerRepr = IntegerReprInt64 then pure (.ident (c! "int64"), false)
    else if c.integerRepr = IntegerReprBigInt then do
      requireModule (c! "math/big")
      pure (.star (.ident (c! "big.Int")), false)
    else do
      appendError (.unknownIntMode c.integerRepr)
      pure (.ident (c! "int64"), false)
  | .characterString => pure (.ident (c! "string"), false)
  | .real => pure (.ident (c! "float64"), false)
  | .octetString => pure (.array (.ident (c! "byte")), false)
  | .sequence comps exts => do
    let f1 ← generateFields c comps
    let f2 ← generateFields c exts
    pure (.struct (f1 ++ f2), false)
  | .set comps exts => do
    let f1 ← generateFields c comps
    let f2 ← generateFields c exts
    pure (.struct (f1 ++ f2), true)
  | .sequenceOf t => do
    let (e, b) ← generateTypeBody c t
    pure (.array e, b)
  | .setOf t => do
    let (e, _) ← generateTypeBody c t
    pure (.array e, true)
  | .tagged _ t _ _ => generateTypeBody c t
  | .constrained t _ => generateTypeBody c t
  | .ref name => do
    match ← resolveTypeReference c name with
    | none => pure (.ident (goifyName c.u name), false)
    | some (r, t) =>
      match ← generateSpecialCase r t with
      | some e => pure (e, false)
      | none => pure (.ident (goifyName c.u name), false)
  | .restrictedString _ => pure (.ident (c! "string"), false)
  | .bitString _ => do
    requireModule (c! "encoding/asn1")
    pure (.ident (c! "asn1.BitString"), false)
  | .enumerated _ _ => do
    requireModule (c! "encoding/asn1")
    pure (.ident (c! "asn1.Enumerated"), false)
  | .any _ => pure (.iface, false)
  | .objectIdentifier => do
    requireModule (c! "encoding/asn1")
    pure (.ident (c! "asn1.ObjectIdentifier"), false)
  | .choice alts _ => do
    if ← hasTaggedAlternatives c alts then pure (.ident (c! "asn1.RawValue"), false)
    else generateOnlyAlternative c alts
  | .null => do
    appendError .unsupported
    pure (.nil, false)
  | .nil => do
    appendError .unsupported
    pure (.nil, false)
  | .named _ => do
    appendError .unsupported
    pure (.nil, false)

/-- codegen.go:341-344 -/
def generateOnlyAlternative (c : GenCtx) : List MNamed → Gen (GoExpr × Bool)
  | [.mk _ t] => generateTypeBody c t
  | _ => pure (.iface, false)

/-- codegen.go:378-393: one of the two loops of `structFromComponents`, with `generateStructField` (399-406). -/
def generateFields (c : GenCtx) : List MComponent → Gen (List GoField)
  | [] => pure []
  | .named (.mk name t) isOptional dflt :: l => do
    let (e, _) ← generateTypeBody c t
    let tag ← asn1TagFromType c name t isOptional dflt
    let fs ← generateFields c l
    pure (.mk (goifyName c.u name) e tag :: fs)
  | .componentsOf _ :: l => do
    appendError .componentsOf
    generateFields c l
  | .nil :: l => generateFields c l

end

/-- A struct type.  codegen.go:163-190 -/
def isStruct : GoExpr → Bool
  | .struct _ => true
  | _ => false

/-- codegen.go:163-190 `generateTypeDecl` -/
def generateTypeDecl (c : GenCtx) (ref : Str) (t : MTy) : Gen GoDecl := do
  let (body, isSet) ← generateTypeBody c t
  let name := goifyName c.u ref
  if isSet then
    pure (.type [⟨name ++ c! "SET", false, body⟩, ⟨name, true, .ident (name ++ c! "SET")⟩])
  else pure (.type [⟨name, !isStruct body, body⟩])

/-- codegen.go:192-220 `tryGenerateValueAssignment`; `none` is nil. -/
def tryGenerateValueAssignment (c : GenCtx) (ref : Str) (t : MTy) (v : Value DefinedValue) : Gen (Option GoDecl) :=
  let make (e : GoExpr) : Gen (Option GoDecl) := do
    let (ty, _) ← generateTypeBody c t
    pure (some (.var [⟨valueRefToIdent c.u ref, ty, e⟩]))
  match v with
  | .number n => make (numberToExpr n c.integerRepr)
  | .boolean b => make (.lit (if b then c! "true" else c! "false"))
  | .real x => make (.real x)
  | _ => pure none

/-- codegen.go:299-307: the value of a named number. -/
def namedNumberExpr (c : GenCtx) : NamedNumberValue → Gen GoExpr
  | .number x => pure (numberToExpr x c.integerRepr)
  | .defined d =>
    if d.moduleName ≠ [] then do
      appendError (.foreignValue d.moduleName d.valueName)
      pure (.ident (valueRefToIdent c.u d.valueName))
    else pure (.ident (valueRefToIdent c.u d.valueName))
  | .nil => pure .nil

/-- codegen.go:297-314: one variable per named number. -/
def namedNumberSpecs (c : GenCtx) (ref : Str) : List NamedNumber → Gen (List GoValueSpec)
  | [] => pure []
  | n :: l => do
    let e ← namedNumberExpr c n.value
    let rest ← namedNumberSpecs c ref l
    pure (⟨goifyName c.u ref ++ c! "Val" ++ goifyName c.u n.name, .ident (goifyName c.u ref), e⟩ :: rest)

/-- codegen.go:290-322 `generateAssociatedValuesIfNeeded`; `none` is nil. -/
def generateAssociatedValues (c : GenCtx) (ref : Str) (t : MTy) : Gen (Option GoDecl) :=
  match removeWrapperTypes t with
  | .integer l =>
    if l.isEmpty then pure none
    else do
      let specs ← namedNumberSpecs c ref l
      pure (some (.var specs))
  | _ => pure none

/-- codegen.go:145-161 `generateDeclarations` -/
def generateDeclarations (c : GenCtx) : List MAssignment → Gen (List GoDecl)
  | [] => pure []
  | .type ref t :: l => do
    let d ← generateTypeDecl c ref t
    let v ← generateAssociatedValues c ref t
    let ds ← generateDeclarations c l
    pure (d :: (v.toList ++ ds))
  | .value ref t v :: l => do
    let d ← tryGenerateValueAssignment c ref t v
    let ds ← generateDeclarations c l
    pure (d.toList ++ ds)
  | .nil :: l => generateDeclarations c l

/-- How `Generate` fails.  codegen.go:99-102, 117-123 and 131 -/
inductive GenError
  | automatic
  | translation (errors : List GenErr)
  | print
  deriving DecidableEq

/-- What `Generate` does: the text written, and the error returned.  codegen.go:98 -/
structure GenOutcome where
  written : Str
  error : Option GenError

/-- `goprint.Fprint`: the text written and whether it returned an error.  codegen.go:131 -/
abbrev Printer := GoFile → Str × Bool

/-- codegen.go:48-58 `NewCodeGenerator` -/
def newCodeGenerator (p : GenParams) : GenParams :=
  if p.integerRepr = [] then { p with integerRepr := IntegerReprInt64 } else p

/-- codegen.go:98-132 `Generate`: the file, or the error, made from the module. -/
def generateFile (u : Casing) (fuel : Nat) (p : GenParams) (m : Module) : Option (Except GenError GoFile) :=
  if m.tagDefault = TAGS_AUTOMATIC then some (.error .automatic)
  else
    let c : GenCtx := { u := u, fuel := fuel, tagDefault := m.tagDefault, assignments := m.moduleBody.assignmentList,
                        integerRepr := p.integerRepr }
    let name := if p.package.length > 0 then p.package else goifyName u m.moduleIdentifier.reference
    match generateDeclarations c m.moduleBody.assignmentList with
    | none => none
    | some (decls, log) =>
      if errorsOf log ≠ [] then some (.error (.translation (errorsOf log)))
      else some (.ok ⟨name, (requiredFrom [] log).map GoDecl.imp ++ decls⟩)

/-- codegen.go:98-132 `Generate` -/
def generate (u : Casing) (print : Printer) (fuel : Nat) (p : GenParams) (m : Module) : Option GenOutcome :=
  match generateFile u fuel p m with
  | none => none
  | some (.error e) => some ⟨[], some e⟩
  | some (.ok f) => some ⟨(print f).1, if (print f).2 then some .print else none⟩

end Asn1go
