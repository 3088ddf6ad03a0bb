import Verif.Spec.Preferred

/-! Checking concrete derivation trees. -/

namespace Asn1go.Spec

open Asn1go

mutual

/-- The symbol a tree derives from, if it is a derivation tree. -/
def Tree.symbol? : Tree → Option Sym
  | .leaf c _ => some (.t c)
  | .node r kids =>
    match rules[r - 1]?, Tree.symbols? kids with
    | some (lhs, rhs), some l => if 1 ≤ r ∧ l = rhs then some (.n lhs) else none
    | _, _ => none

/-- The symbols of a list of trees. -/
def Tree.symbols? : List Tree → Option (List Sym)
  | [] => some []
  | t :: l =>
    match t.symbol?, Tree.symbols? l with
    | some X, some Xs => some (X :: Xs)
    | _, _ => none

end

mutual

theorem derives_of_symbol : ∀ {t : Tree} {X : Sym}, t.symbol? = some X → Derives X t.tokens t
  | .leaf c p, X, h => by
    rw [Tree.symbol?] at h
    cases h
    rw [Tree.tokens]
    exact .leaf c p
  | .node r kids, X, h => by
    rw [Tree.symbol?] at h
    split at h
    · rename_i lhs rhs l h1 h2
      split at h
      · rename_i h3
        cases h
        obtain ⟨h3, rfl⟩ := h3
        rw [Tree.tokens]
        exact .node r lhs l _ kids h3 h1 (derivesList_of_symbols h2)
      · cases h
    · cases h

theorem derivesList_of_symbols : ∀ {ts : List Tree} {l : List Sym}, Tree.symbols? ts = some l → DerivesList l (Tree.tokensList ts) ts
  | [], l, h => by
    rw [Tree.symbols?] at h
    cases h
    rw [Tree.tokensList]
    exact .nil
  | t :: ts, l, h => by
    rw [Tree.symbols?] at h
    split at h
    · rename_i X Xs h1 h2
      cases h
      rw [Tree.tokensList]
      exact .cons X Xs _ _ t ts (derives_of_symbol h1) (derivesList_of_symbols h2)
    · cases h

end

mutual

/-- Whether all nodes are preferred readings. -/
def Tree.preferredDec (p : Place) (next : Int) : (t : Tree) → Decidable (t.Preferred p next)
  | .leaf _ _ => isTrue (by rw [Tree.Preferred]; trivial)
  | .node r kids =>
    match (inferInstance : Decidable (Allowed r p next)), Tree.preferredListDec r p next 0 kids with
    | isTrue h1, isTrue h2 => isTrue (by rw [Tree.Preferred]; exact ⟨h1, h2⟩)
    | isFalse h1, _ => isFalse (by rw [Tree.Preferred]; exact fun h => h1 h.1)
    | _, isFalse h2 => isFalse (by rw [Tree.Preferred]; exact fun h => h2 h.2)

/-- Whether all children are preferred readings. -/
def Tree.preferredListDec (r : Nat) (p : Place) (next : Int) (i : Nat) : (l : List Tree) → Decidable (Tree.PreferredList r p next i l)
  | [] => isTrue (by rw [Tree.PreferredList]; trivial)
  | t :: l =>
    match Tree.preferredDec (p.child r i) (firstCode next (Tree.tokensList l)) t, Tree.preferredListDec r p next (i + 1) l with
    | isTrue h1, isTrue h2 => isTrue (by rw [Tree.PreferredList]; exact ⟨h1, h2⟩)
    | isFalse h1, _ => isFalse (by rw [Tree.PreferredList]; exact fun h => h1 h.1)
    | _, isFalse h2 => isFalse (by rw [Tree.PreferredList]; exact fun h => h2 h.2)

end

instance (t : Tree) : Decidable t.IsPreferred := Tree.preferredDec .other 0 t

end Asn1go.Spec
