import Verif.Spec.Tree
import Verif.Spec.Grammar
import Verif.Model.Parser

/-! The module a derivation tree stands for when the two pointers the actions take (`&$3` of rule 152, `&$2` of rule 188)
are followed after the parse, as a caller does.

Nothing here runs a parser.  A node of the tree has a place on the stack, its parent's place plus its number among the
children; nodes are put there in post-order, and putting one where another was overwrites it.  When a place is out of range
the stack moves to an array of twice the size, and pointers made before keep pointing into the array left behind. -/

namespace Asn1go.Spec

open Asn1go

/-- How often an array of 16 entries is doubled before it has an entry number `k`. -/
def doublings (k : Nat) : Nat := Nat.log2 (k / 8)

mutual

/-- The highest place used while reading the tree with the root at place `p`. -/
def Tree.peak (p : Nat) : Tree → Nat
  | .leaf _ _ => p
  | .node _ kids => max p (Tree.peakList p kids)

/-- The highest place used by a list of trees at `p`, `p + 1`, … -/
def Tree.peakList (p : Nat) : List Tree → Nat
  | [] => 0
  | t :: l => max (Tree.peak p t) (Tree.peakList (p + 1) l)

end

mutual

/-- The value of a tree at place `p`, with pointers left as places; `k` is the highest place used before. -/
def Tree.placed (k p : Nat) : Tree → RawSym
  | .leaf _ w => leafValue w
  | .node r kids =>
    let l := Tree.placedList k p kids
    let g := doublings (max k (max p (Tree.peakList p kids)))
    action r { value3 := ⟨g, p + 2⟩, defined2 := .slot ⟨g, p + 1⟩, copy := .copy } (dollars l) (l.headD {})

/-- The values of a list of trees at `p`, `p + 1`, … -/
def Tree.placedList (k p : Nat) : List Tree → List RawSym
  | [] => []
  | t :: l => Tree.placed k p t :: Tree.placedList (max k (Tree.peak p t)) (p + 1) l

end

/-- What one node does to its place: the two parts of a stack entry pointers are made to, left as they are where there is
`none`. -/
structure Write where
  idx : Nat
  value : Option (Value RefPtr)
  defined : Option DefinedValue

/-- The nonterminals of type `<Value>` (asn1.y:236-303). -/
def valueNTs : List Nat :=
  [NT.«BuiltinValue», NT.«Value», NT.«IntegerValue», NT.«RealValue», NT.«BooleanValue», NT.«NumericRealValue»,
    NT.«SpecialRealValue», NT.«LowerEndValue», NT.«UpperEndValue», NT.«ClassNumber», NT.«AssignedIdentifier»]

/-- The left-hand side of a rule. -/
def lhsOf (r : Nat) : Nat := ((rules[r - 1]?).map Prod.fst).getD 0

mutual

/-- What reading a tree at place `p` writes, in order; `k` is the highest place used before.  A token's entry is fresh; a
nonterminal's has the part its type names, and keeps the rest of what was at its place. -/
def Tree.writes (k p : Nat) : Tree → List Write
  | .leaf _ _ => [⟨p, some .nil, some {}⟩]
  | .node r kids => Tree.writesList k p kids ++
      [⟨p, if lhsOf r ∈ valueNTs then some (Tree.placed k p (.node r kids)).value else none,
        if lhsOf r = NT.«DefinedValue» then some (Tree.placed k p (.node r kids)).definedValue else none⟩]

/-- What reading a list of trees at `p`, `p + 1`, … writes. -/
def Tree.writesList (k p : Nat) : List Tree → List Write
  | [] => []
  | t :: l => Tree.writes k p t ++ Tree.writesList (max k (Tree.peak p t)) (p + 1) l

end

/-- All that was written, and the highest place of it. -/
structure Memory where
  top : Nat
  writes : List Write

/-- The writes that reached the array number `g`: all before the first one out of its range. -/
def Memory.upTo (m : Memory) (g : Nat) : List Write := m.writes.takeWhile (fun w => w.idx < 16 * 2 ^ g)

/-- The value last written to a place. -/
def lastValue (i : Nat) (l : List Write) : Value RefPtr :=
  l.foldl (fun a w => if w.idx = i then w.value.getD a else a) .nil

/-- The reference last written to a place. -/
def lastDefined (i : Nat) (l : List Write) : DefinedValue :=
  l.foldl (fun a w => if w.idx = i then w.defined.getD a else a) {}

/-- The value finally at a place of an array. -/
def Memory.value (m : Memory) (p : Slot) : Value RefPtr :=
  if p.gen ≤ doublings m.top then lastValue p.idx (m.upTo p.gen) else .nil

/-- The reference finally at a place of an array. -/
def Memory.defined (m : Memory) (p : Slot) : DefinedValue :=
  if p.gen ≤ doublings m.top then lastDefined p.idx (m.upTo p.gen) else {}

/-- Following a reference. -/
def Memory.ref (m : Memory) : RefPtr → DefinedValue
  | .copy d => d
  | .slot p => m.defined p

/-- Following a pointer to a value, and those in it. -/
def Memory.deref (m : Memory) (p : Slot) : Value DefinedValue := (m.value p).map m.ref

/-- The memory after reading the tree of a module, whose root is at place 1 (below it is the entry of the first state). -/
def Tree.memory (t : Tree) : Memory := ⟨t.peak 1, t.writes 0 1⟩

/-- The module a caller sees. -/
def Tree.exact (t : Tree) : ModuleDefinition DefinedValue (Value DefinedValue) :=
  match t with
  | .leaf _ _ => {}
  | .node _ kids => (moduleOf (dollars (Tree.placedList 0 1 kids))).map t.memory.ref t.memory.deref

end Asn1go.Spec
