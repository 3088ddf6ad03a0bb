import Verif.Spec.GoCheck
import Verif.Spec.Utf8

/-! Values of Go types, as package reflect shows them to encoding/asn1, and which values the types of a file have. -/

namespace Asn1go.Spec

open Asn1go

/-- Octets. -/
abbrev Bytes := List UInt8

/-- A `time.Time` of whole seconds: its calendar date and clock in its location, and the offset of the location, in seconds
east of UTC.  Locations with the same offset are not told apart. -/
structure GoTime where
  year : Int
  month : Nat
  day : Nat
  hour : Nat
  minute : Nat
  second : Nat
  offset : Int
  deriving DecidableEq, Repr

mutual

/-- Values, with what reflect tells about their types: the name of slice types, names and tags of fields.  Nil slices and
pointers are told from others.  Strings are those of valid UTF-8. -/
inductive GoVal
  | bool (b : Bool)
  | int (n : Int)
  | enum (n : Int)
  | float
  | big (n : Option Int)
  | str (s : Str)
  | bytes (b : Option Bytes)
  | bits (b : Option Bytes) (bitLength : Int)
  | oid (l : Option (List Int))
  | time (t : GoTime)
  | raw (cls tag : Int) (isCompound : Bool) (bytes fullBytes : Option Bytes)
  | slice (typeName : Str) (isNil : Bool) (l : List GoVal)
  | struct (fields : List GoFieldVal)
  | nilIface
  | iface (v : GoVal)

/-- A field of a struct value. -/
inductive GoFieldVal
  | mk (name : Str) (tag : Option Str) (v : GoVal)

end

/-- The zero time. -/
def zeroTime : GoTime := ⟨1, 1, 1, 0, 0, 0, 0⟩

mutual

/-- The value is the zero value of its type (`reflect.DeepEqual` with `reflect.Zero`). -/
def GoVal.isZero : GoVal → Bool
  | .bool b => !b
  | .int n => n == 0
  | .enum n => n == 0
  | .float => false
  | .big n => n == none
  | .str s => s == []
  | .bytes b => b == none
  | .bits b n => b == none && n == 0
  | .oid l => l == none
  | .time t => decide (t = zeroTime)
  | .raw c t k b f => c == 0 && t == 0 && !k && b == none && f == none
  | .slice _ z _ => z
  | .struct fs => fieldsZero fs
  | .nilIface => true
  | .iface _ => false

/-- All fields are zero. -/
def fieldsZero : List GoFieldVal → Bool
  | [] => true
  | .mk _ _ v :: l => v.isZero && fieldsZero l

end

/-- The value converted to a type declared with the name `n`. -/
def GoVal.named (n : Str) : GoVal → GoVal
  | .slice _ z l => .slice n z l
  | v => v

mutual

/-- `Typed f e v`: in the file, `v` is a value of the type `e`. -/
inductive Typed (f : GoFile) : GoExpr → GoVal → Prop
  | bool (b : Bool) : c! "bool" ∉ declared f.decls → Typed f (.ident (c! "bool")) (.bool b)
  | int64 (n : Int) : c! "int64" ∉ declared f.decls → GoInt n → Typed f (.ident (c! "int64")) (.int n)
  | float64 : c! "float64" ∉ declared f.decls → Typed f (.ident (c! "float64")) .float
  | string (s : Str) : c! "string" ∉ declared f.decls → Typed f (.ident (c! "string")) (.str s)
  | bytes (b : Option Bytes) : c! "byte" ∉ declared f.decls → Typed f (.array (.ident (c! "byte"))) (.bytes b)
  | big (n : Option Int) : Typed f (.star (.ident (c! "big.Int"))) (.big n)
  | bits (b : Option Bytes) (n : Int) : GoInt n → Typed f (.ident (c! "asn1.BitString")) (.bits b n)
  | enumerated (n : Int) : GoInt n → Typed f (.ident (c! "asn1.Enumerated")) (.enum n)
  | oid (l : Option (List Int)) : (∀ x, l = some x → ∀ n ∈ x, GoInt n) → Typed f (.ident (c! "asn1.ObjectIdentifier")) (.oid l)
  | time (t : GoTime) : Typed f (.ident (c! "time.Time")) (.time t)
  | raw (c t : Int) (k : Bool) (b b' : Option Bytes) : GoInt c → GoInt t → Typed f (.ident (c! "asn1.RawValue")) (.raw c t k b b')
  | nil : Typed f .iface .nilIface
  | iface (e : GoExpr) (v : GoVal) : Typed f e v → v ≠ .nilIface → (∀ w, v ≠ .iface w) → Typed f .iface (.iface v)
  | slice (e : GoExpr) (z : Bool) (l : List GoVal) : e ≠ .ident (c! "byte") → (z = true → l = []) → TypedElems f e l →
      Typed f (.array e) (.slice [] z l)
  | struct (fs : List GoField) (vs : List GoFieldVal) : TypedFields f fs vs → Typed f (.struct fs) (.struct vs)
  | alias (n : Str) (e : GoExpr) (v : GoVal) : Declares f ⟨n, true, e⟩ → Typed f e v → Typed f (.ident n) v
  | defined (n : Str) (e : GoExpr) (v : GoVal) : Declares f ⟨n, false, e⟩ → Typed f e v → Typed f (.ident n) (v.named n)

/-- The elements of a slice. -/
inductive TypedElems (f : GoFile) : GoExpr → List GoVal → Prop
  | nil (e : GoExpr) : TypedElems f e []
  | cons (e : GoExpr) (v : GoVal) (l : List GoVal) : Typed f e v → TypedElems f e l → TypedElems f e (v :: l)

/-- The fields of a struct. -/
inductive TypedFields (f : GoFile) : List GoField → List GoFieldVal → Prop
  | nil : TypedFields f [] []
  | cons (n : Str) (e : GoExpr) (tag : Option Str) (v : GoVal) (fs : List GoField) (vs : List GoFieldVal) : Typed f e v → TypedFields f fs vs →
      TypedFields f (.mk n e tag :: fs) (.mk n tag v :: vs)

end

end Asn1go.Spec
