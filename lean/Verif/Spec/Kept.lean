import Verif.Spec.Exact

/-! When nothing read later overwrites what the pointers of a module point to. -/

namespace Asn1go.Spec

open Asn1go

mutual

/-- The places used while reading a tree with the root at place `p`, in order. -/
def Tree.places (p : Nat) : Tree → List Nat
  | .leaf _ _ => [p]
  | .node _ kids => Tree.placesList p kids ++ [p]

/-- The places used while reading a list of trees at `p`, `p + 1`, … -/
def Tree.placesList (p : Nat) : List Tree → List Nat
  | [] => []
  | t :: l => Tree.places p t ++ Tree.placesList (p + 1) l

end

/-- Place `i` is not used again before the array number `g` is left behind. -/
def untouched (g i : Nat) (later : List Nat) : Bool := (later.takeWhile fun j => j < 16 * 2 ^ g).all fun j => j != i

mutual

/-- What the pointers made in a tree point to is not overwritten; `later` are the places used after it. -/
def Tree.kept (later : List Nat) (k p : Nat) : Tree → Bool
  | .leaf _ _ => true
  | .node r kids =>
    let g := doublings (max k (max p (Tree.peakList p kids)))
    Tree.keptList (p :: later) k p kids && (r != 152 || untouched g (p + 2) later) && (r != 188 || untouched g (p + 1) later)

/-- `Tree.kept` for a list of trees. -/
def Tree.keptList (later : List Nat) (k p : Nat) : List Tree → Bool
  | [] => true
  | t :: l => Tree.kept (Tree.placesList (p + 1) l ++ later) k p t && Tree.keptList later (max k (Tree.peak p t)) (p + 1) l

end

/-- Nothing in the tree of a module overwrites what its pointers point to. -/
def Tree.Kept (t : Tree) : Prop := t.kept [] 0 1 = true

instance (t : Tree) : Decidable t.Kept := inferInstanceAs (Decidable (_ = true))

end Asn1go.Spec
