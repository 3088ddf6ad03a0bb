import Verif.Proofs.LR.Complete
import Verif.Spec.Notation
import Verif.Spec.Uses

/-! Building preferred derivations: tokens, value and preference at once. -/

namespace Asn1go.Notation

open Asn1go Spec LR Spec.Notation

variable {R D : Type}

/-- The pointers of an action that show what `L` says. -/
def pointers (L : Links R D) (d : Nat → SymType R D) : Pointers R D :=
  { value3 := L.default (d 3).value, defined2 := L.head (d 2).definedValue, copy := L.copy }

/-- The tokens `toks` have a derivation from `X` that is preferred at place `p` before `next` and has the value `s`; without
the rules 152 and 188 if `simple`. -/
def Rd (L : Links R D) (simple : Bool) (X : Sym) (toks : List Token) (p : Place) (next : Int) (s : SymType R D) : Prop :=
  ∃ t, Derives X toks t ∧ t.Preferred p next ∧ (simple = true → t.uses 152 = false ∧ t.uses 188 = false) ∧
    t.eval (pointers L) = s

/-- The same for the children of a node of rule `r` from number `i` on. -/
def RdL (L : Links R D) (simple : Bool) (r : Nat) (p : Place) (next : Int) (i : Nat) (Xs : List Sym) (toks : List Token)
    (ss : List (SymType R D)) : Prop :=
  ∃ ts, DerivesList Xs toks ts ∧ Tree.PreferredList r p next i ts ∧
    (simple = true → Tree.usesAny 152 ts = false ∧ Tree.usesAny 188 ts = false) ∧ Tree.evalList (pointers L) ts = ss

variable {L : Links R D} {simple : Bool}

theorem Rd.leaf {c : Int} {q : Payload} {p : Place} {next : Int} : Rd L simple (.t c) [(c, q)] p next (leafValue q) :=
  ⟨.leaf c q, .leaf c q, by rw [Tree.Preferred]; trivial, fun _ => ⟨rfl, rfl⟩, rfl⟩

theorem Rd.kw {c : Int} {p : Place} {next : Int} : Rd L simple (.t c) [kw c] p next (leafValue .none) := .leaf

theorem RdL.nil {r : Nat} {p : Place} {next : Int} {i : Nat} : RdL L simple r p next i [] [] [] :=
  ⟨[], .nil, by rw [Tree.PreferredList]; trivial, fun _ => ⟨rfl, rfl⟩, rfl⟩

theorem RdL.cons {r : Nat} {p : Place} {next : Int} {i : Nat} {X : Sym} {Xs : List Sym} {a b : List Token} {s : SymType R D}
    {ss : List (SymType R D)} (h1 : Rd L simple X a (p.child r i) (firstCode next b) s) (h2 : RdL L simple r p next (i + 1) Xs b ss) :
    RdL L simple r p next i (X :: Xs) (a ++ b) (s :: ss) := by
  obtain ⟨t, d1, p1, u1, e1⟩ := h1
  obtain ⟨ts, d2, p2, u2, e2⟩ := h2
  refine ⟨t :: ts, .cons X Xs a b t ts d1 d2, ?_, ?_, ?_⟩
  · rw [Tree.PreferredList, derivesList_tokens d2]
    exact ⟨p1, p2⟩
  · intro h
    rw [Tree.usesAny, Tree.usesAny, (u1 h).1, (u1 h).2, (u2 h).1, (u2 h).2]
    exact ⟨rfl, rfl⟩
  · rw [Tree.evalList, e1, e2]

theorem RdL.last {r : Nat} {p : Place} {next : Int} {i : Nat} {X : Sym} {a : List Token} {s : SymType R D}
    (h1 : Rd L simple X a (p.child r i) next s) : RdL L simple r p next i [X] a [s] := by
  have := RdL.cons (L := L) (simple := simple) (r := r) (p := p) (next := next) (i := i) (Xs := []) (b := []) (ss := []) h1 .nil
  rwa [List.append_nil] at this

theorem Rd.node_allowed (r : Nat) {lhs : Nat} {rhs : List Sym} {toks : List Token} {p : Place} {next : Int} {ss : List (SymType R D)}
    (ha : Allowed r p next) (h : RdL L simple r p next 0 rhs toks ss) (hs : simple = true → r ≠ 152 ∧ r ≠ 188)
    (h1 : 1 ≤ r := by decide) (hr : rules[r - 1]? = some (lhs, rhs) := by rfl) :
    Rd L simple (.n lhs) toks p next (action r (pointers L (dollars ss)) (dollars ss) (ss.headD {})) := by
  obtain ⟨ts, d, pr, us, e⟩ := h
  refine ⟨.node r ts, .node r lhs rhs toks ts h1 hr d, ?_, ?_, ?_⟩
  · rw [Tree.Preferred]
    exact ⟨ha, pr⟩
  · intro h
    rw [Tree.uses, Tree.uses, (us h).1, (us h).2]
    simpa using hs h
  · rw [Tree.eval, e]

/-- Whether a rule may be used at a place whatever follows. -/
def free (r : Nat) (p : Place) : Bool := decide (r ∉ neverUsed ∧ (r, p) ∉ notThere ∧ ∀ e ∈ notBefore, e.1 ≠ r)

theorem allowed_of_free {r : Nat} {p : Place} {next : Int} (h : free r p = true) : Allowed r p next := by
  obtain ⟨h1, h2, h3⟩ := of_decide_eq_true h
  exact ⟨h1, h2, fun e he hr => absurd hr (h3 e he)⟩

/-- Whether a rule may be used at a place before a token other than `c`. -/
def freeUnless (r : Nat) (p : Place) (c : Int) : Bool :=
  decide (r ∉ neverUsed ∧ (r, p) ∉ notThere ∧ ∀ e ∈ notBefore, e.1 = r → e.2 = [c])

theorem allowed_of_freeUnless {r : Nat} {p : Place} {next : Int} (c : Int) (h : freeUnless r p c = true) (hn : next ≠ c) :
    Allowed r p next := by
  obtain ⟨h1, h2, h3⟩ := of_decide_eq_true h
  refine ⟨h1, h2, fun e he hr => ?_⟩
  rw [h3 e he hr]
  simpa using hn

theorem Rd.node (r : Nat) {lhs : Nat} {rhs : List Sym} {toks : List Token} {p : Place} {next : Int} {ss : List (SymType R D)}
    (h : RdL L simple r p next 0 rhs toks ss)
    (hf : free r p = true := by rfl) (hs : r ≠ 152 ∧ r ≠ 188 := by decide)
    (h1 : 1 ≤ r := by decide) (hr : rules[r - 1]? = some (lhs, rhs) := by rfl) :
    Rd L simple (.n lhs) toks p next (action r (pointers L (dollars ss)) (dollars ss) (ss.headD {})) :=
  .node_allowed r (allowed_of_free hf) h (fun _ => hs) h1 hr

theorem Rd.node_unless (c : Int) (r : Nat) {lhs : Nat} {rhs : List Sym} {toks : List Token} {p : Place} {next : Int}
    {ss : List (SymType R D)} (hn : next ≠ c) (h : RdL L simple r p next 0 rhs toks ss)
    (hf : freeUnless r p c = true := by rfl) (hs : r ≠ 152 ∧ r ≠ 188 := by decide)
    (h1 : 1 ≤ r := by decide) (hr : rules[r - 1]? = some (lhs, rhs) := by rfl) :
    Rd L simple (.n lhs) toks p next (action r (pointers L (dollars ss)) (dollars ss) (ss.headD {})) :=
  .node_allowed r (allowed_of_freeUnless c hf hn) h (fun _ => hs) h1 hr

end Asn1go.Notation
