import Verif.Model.Codegen
import Mathlib.Data.List.Forall2

/-! Go files that differ in how integers are represented only: `int64` in the one, `*big.Int` in the other. -/

namespace Asn1go.Spec

/-- The names of types in generated files that are not made from names in the module, but for integers. -/
def otherTypes : List Str := [c! "bool", c! "string", c! "float64", c! "byte", c! "time.Time", c! "asn1.BitString", c! "asn1.Enumerated",
  c! "asn1.ObjectIdentifier", c! "asn1.RawValue"]

variable (u : Casing)

mutual

/-- Go types that differ in the representation of integers only. -/
inductive TypeBig : GoExpr → GoExpr → Prop
  | int : TypeBig (.ident (c! "int64")) (.star (.ident (c! "big.Int")))
  | other (n : Str) : n ∈ otherTypes → TypeBig (.ident n) (.ident n)
  | name (n : Str) : TypeBig (.ident (goifyName u n)) (.ident (goifyName u n))
  | set (n : Str) : TypeBig (.ident (goifyName u n ++ c! "SET")) (.ident (goifyName u n ++ c! "SET"))
  | iface : TypeBig .iface .iface
  | nil : TypeBig .nil .nil
  | array (e e' : GoExpr) : TypeBig e e' → TypeBig (.array e) (.array e')
  | struct (l l' : List GoField) : FieldsBig l l' → TypeBig (.struct l) (.struct l')

/-- The same for fields. -/
inductive FieldsBig : List GoField → List GoField → Prop
  | nil : FieldsBig [] []
  | cons (n : Str) (e e' : GoExpr) (tag : Option Str) (l l' : List GoField) : TypeBig e e' → FieldsBig l l' → FieldsBig (.mk n e tag :: l) (.mk n e' tag :: l')

end

/-- Initial values that differ in this way only. -/
inductive ValueBig : GoExpr → GoExpr → Prop
  | int (n : Int) : ValueBig (.lit (intStr n)) (.call (c! "big.NewInt") (.lit (intStr n)))
  | bool (b : Bool) : ValueBig (.lit (if b then c! "true" else c! "false")) (.lit (if b then c! "true" else c! "false"))
  | real (x : GoReal) : ValueBig (.real x) (.real x)
  | name (n : Str) : ValueBig (.ident (c! "Val" ++ goifyName u n)) (.ident (c! "Val" ++ goifyName u n))
  | nil : ValueBig .nil .nil

/-- Type declarations that differ in this way only. -/
inductive SpecBig : GoTypeSpec → GoTypeSpec → Prop
  | mk (n : Str) (a : Bool) (e e' : GoExpr) : TypeBig u e e' → SpecBig ⟨n, a, e⟩ ⟨n, a, e'⟩

/-- Variable declarations that differ in this way only. -/
inductive VarBig : GoValueSpec → GoValueSpec → Prop
  | mk (n : Str) (t t' e e' : GoExpr) : TypeBig u t t' → ValueBig u e e' → VarBig ⟨n, t, e⟩ ⟨n, t', e'⟩

/-- Declarations that differ in this way only. -/
inductive DeclBig : GoDecl → GoDecl → Prop
  | type (l l' : List GoTypeSpec) : List.Forall₂ (SpecBig u) l l' → DeclBig (.type l) (.type l')
  | var (l l' : List GoValueSpec) : List.Forall₂ (VarBig u) l l' → DeclBig (.var l) (.var l')

/-- What `Generate` gives with `int64` and with `*big.Int`: the same errors, or files with the same name, the same imports but for math/big, and declarations
that differ in the representation of integers only. -/
inductive ResultBig : Except GenError GoFile → Except GenError GoFile → Prop
  | error (e : GenError) : ResultBig (.error e) (.error e)
  | ok (p : Str) (imps : List Str) (l l' : List GoDecl) : List.Forall₂ (DeclBig u) l l' →
      ResultBig (.ok ⟨p, (imps.filter (· ≠ c! "math/big")).map .imp ++ l⟩) (.ok ⟨p, imps.map .imp ++ l'⟩)

end Asn1go.Spec
