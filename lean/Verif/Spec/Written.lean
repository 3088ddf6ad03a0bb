import Verif.Spec.Encodable

/-! Types under other names, and values in interfaces: what the statements on wrong encodings speak of. -/

namespace Asn1go.Spec

open Asn1go

/-- `NamedBy l t t'`: the type `t` is `t'`, under other names and constraints, but without tags of its own. -/
inductive NamedBy (l : List MAssignment) : MTy → MTy → Prop
  | here (t : MTy) : NamedBy l t t
  | ref (a : Str) (t t' : MTy) : Assigned l a t → NamedBy l t t' → NamedBy l (.ref a) t'
  | constrained (t t' : MTy) (c : Constraint DefinedValue (Value DefinedValue)) : NamedBy l t t' → NamedBy l (.constrained t c) t'

/-- What is held in interfaces. -/
def GoVal.unboxed : GoVal → GoVal
  | .iface v => v.unboxed
  | v => v

/-- The value is not held in an `asn1.RawValue`. -/
def NotRaw (v : GoVal) : Prop := ∀ cls tag k b full, v.unboxed ≠ .raw cls tag k b full

/-- What encoding/asn1 writes for the Go value, as a field with parameters `p`, is an encoding of `x`. -/
def RightField (strict : Bool) (u : Casing) (l : List MAssignment) (deflt : Int) (t : MTy) (p : FieldParams) (v : GoVal) (x : AsnVal) : Prop :=
  ∃ e, makeField u v p = some e ∧ Encodes strict l deflt t x e

/-- What encoding/asn1 writes for the Go value is an encoding of `x`. -/
def RightAlone (strict : Bool) (u : Casing) (l : List MAssignment) (deflt : Int) (t : MTy) (v : GoVal) (x : AsnVal) : Prop :=
  ∃ e, marshal u v = some e ∧ Encodes strict l deflt t x e

/-- What is written for the fields of components that are present are their encodings. -/
inductive EachRight (strict : Bool) (u : Casing) (l : List MAssignment) (deflt : Int) : List Member → List GoFieldVal → List (Option AsnVal) → Prop
  | nil : EachRight strict u l deflt [] [] []
  | present (m : Member) (ms : List Member) (n : Str) (tag : Option Str) (v : GoVal) (fs : List GoFieldVal) (x : AsnVal) (xs : List (Option AsnVal)) :
      RightField strict u l deflt m.type (fieldParams tag) v x → EachRight strict u l deflt ms fs xs →
      EachRight strict u l deflt (m :: ms) (.mk n tag v :: fs) (some x :: xs)
  | absent (m : Member) (ms : List Member) (n : Str) (tag : Option Str) (v : GoVal) (fs : List GoFieldVal) (xs : List (Option AsnVal)) :
      EachRight strict u l deflt ms fs xs → EachRight strict u l deflt (m :: ms) (.mk n tag v :: fs) (none :: xs)

/-- A component without DEFAULT, with tag numbers that fit a Go `int`, and not both OPTIONAL and held in an interface. -/
structure PlainMember (l : List MAssignment) (deflt : Int) (m : Member) : Prop where
  noDefault : m.default = none
  tags : ∀ cls n k, (cls, Value.number n, k) ∈ tagsAround deflt m.type → 0 ≤ n ∧ GoInt n
  required : m.optional = true → ¬ InInterface l m.type

end Asn1go.Spec
