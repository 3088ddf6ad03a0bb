import Verif.Spec.Decodable

/-! Types and values of which encoding/asn1 does not check enough when reading. -/

namespace Asn1go.Spec

open Asn1go

/-- `Part l t v t' v'`: the Go value `v`, of the type `t`, has the part `v'`, of the type `t'`; OPTIONAL components that are absent are
no parts, and what is held in interfaces and in `asn1.RawValue`s has none. -/
inductive Part (l : List MAssignment) : MTy → GoVal → MTy → GoVal → Prop
  | here (t : MTy) (v : GoVal) : Part l t v t v
  | ref (a : Str) (t t' : MTy) (v v' : GoVal) : Assigned l a t → Part l t v t' v' → Part l (.ref a) v t' v'
  | constrained (t t' : MTy) (c : Constraint DefinedValue (Value DefinedValue)) (v v' : GoVal) : Part l t v t' v' → Part l (.constrained t c) v t' v'
  | tagged (g : Tag DefinedValue) (t t' : MTy) (k : Int) (h : Bool) (v v' : GoVal) : Part l t v t' v' → Part l (.tagged g t k h) v t' v'
  | choice (n : Str) (t t' : MTy) (e : List MTy) (v v' : GoVal) : ¬ AltTagged l t → Part l t v t' v' → Part l (.choice [.mk n t] e) v t' v'
  | sequence (a b : List MComponent) (fs : List GoFieldVal) (m : Member) (n : Str) (tag : Option Str) (v : GoVal) (t' : MTy) (v' : GoVal) :
      (m, GoFieldVal.mk n tag v) ∈ (members (a ++ b)).zip fs → ¬ (v.isZero = true ∧ m.optional = true) → Part l m.type v t' v' →
      Part l (.sequence a b) (.struct fs) t' v'
  | set (a b : List MComponent) (fs : List GoFieldVal) (m : Member) (n : Str) (tag : Option Str) (v : GoVal) (t' : MTy) (v' : GoVal) :
      (m, GoFieldVal.mk n tag v) ∈ (members (a ++ b)).zip fs → ¬ (v.isZero = true ∧ m.optional = true) → Part l m.type v t' v' →
      Part l (.set a b) (.struct fs) t' v'
  | sequenceOf (t t' : MTy) (n : Str) (z : Bool) (vs : List GoVal) (v v' : GoVal) : v ∈ vs → Part l t v t' v' → Part l (.sequenceOf t) (.slice n z vs) t' v'
  | setOf (t t' : MTy) (n : Str) (z : Bool) (vs : List GoVal) (v v' : GoVal) : v ∈ vs → Part l t v t' v' → Part l (.setOf t) (.slice n z vs) t' v'

/-- A string has only characters of its type, and bits that have names have no zeros at the end. -/
structure ProperHere (t : MTy) (v : GoVal) : Prop where
  string : ∀ k tag ok enc s, t = .restrictedString k → v = .str s → StringKind k tag ok enc → ∀ c ∈ s, ok c
  bits : ∀ nb b bits k, t = .bitString nb → nb ≠ [] → v = .bits b (bits.length : Nat) → k < 8 →
    (b.getD []).flatMap octetBits = bits ++ List.replicate k false → bits.getLast? ≠ some false

/-- It is so of all strings and bits in the value of the type. -/
def Proper (l : List MAssignment) (t : MTy) (v : GoVal) : Prop := ∀ t' v', Part l t v t' v' → ProperHere t' v'

/-- Not a string of a kind with few characters, and no BIT STRING with named bits. -/
def Certain : MTy → Prop
  | .restrictedString k => k = Tok.UTF8String
  | .bitString nb => nb = []
  | _ => True

/-- Nor is such a type inside. -/
def AllCertain (l : List MAssignment) (t : MTy) : Prop := ∀ t', Inside l t t' → Certain t'

end Asn1go.Spec
