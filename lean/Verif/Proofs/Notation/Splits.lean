import Verif.Proofs.Notation.Reads
import Verif.Proofs.Shape
import Verif.Proofs.LR.Invert

/-! Taking preferred derivations apart. -/

namespace Asn1go.Notation

open Asn1go Spec LR Spec.Notation

variable {R D : Type}

/-- The tokens `toks`, as the lexer makes them, have a derivation of size at most `n` from `X` that is preferred at place `p`
before `next` and has the value `s`; without the rules 152 and 188 if `simple`. -/
def Rs (L : Links R D) (simple : Bool) (n : Nat) (X : Sym) (toks : List Token) (p : Place) (next : Int) (s : SymType R D) : Prop :=
  Sane toks ∧ ∃ t, sizeOf t ≤ n ∧ Derives X toks t ∧ t.Preferred p next ∧ (simple = true → t.uses 152 = false ∧ t.uses 188 = false) ∧
    t.eval (pointers L) = s

/-- The same for the children of a node of rule `r` from number `i` on. -/
def RsL (L : Links R D) (simple : Bool) (n : Nat) (r : Nat) (p : Place) (next : Int) (i : Nat) (Xs : List Sym) (toks : List Token)
    (ss : List (SymType R D)) : Prop :=
  Sane toks ∧ ∃ ts, sizeOf ts ≤ n ∧ DerivesList Xs toks ts ∧ Tree.PreferredList r p next i ts ∧
    (simple = true → Tree.usesAny 152 ts = false ∧ Tree.usesAny 188 ts = false) ∧ Tree.evalList (pointers L) ts = ss

/-- The value of a node. -/
abbrev act (L : Links R D) (r : Nat) (ss : List (SymType R D)) : SymType R D :=
  action r (pointers L (dollars ss)) (dollars ss) (ss.headD {})

variable {L : Links R D} {simple : Bool}

theorem Rs.mono {n m : Nat} {X : Sym} {toks : List Token} {p : Place} {next : Int} {s : SymType R D} (h : Rs L simple n X toks p next s)
    (hn : n ≤ m) : Rs L simple m X toks p next s := by
  obtain ⟨h1, t, h2, h3⟩ := h
  exact ⟨h1, t, Nat.le_trans h2 hn, h3⟩

theorem Rs.succ {n : Nat} {X : Sym} {toks : List Token} {p : Place} {next : Int} {s : SymType R D} (h : Rs L simple n X toks p next s) :
    Rs L simple (n + 1) X toks p next s := h.mono (Nat.le_succ n)

theorem Rs.not_zero {X : Sym} {toks : List Token} {p : Place} {next : Int} {s : SymType R D} (h : Rs L simple 0 X toks p next s) : False := by
  obtain ⟨_, t, h, _⟩ := h
  cases t <;> simp at h

theorem Rs.split {n k : Nat} {toks : List Token} {p : Place} {next : Int} {s : SymType R D} (h : Rs L simple (n + 1) (.n k) toks p next s) :
    ∃ r rhs ss, (r, rhs) ∈ rulesFor k ∧ Allowed r p next ∧ (simple = true → r ≠ 152 ∧ r ≠ 188) ∧ RsL L simple n r p next 0 rhs toks ss ∧
      s = act L r ss := by
  obtain ⟨h0, t, hn, hd, hp, hu, rfl⟩ := h
  cases hd with
  | node r _ rhs _ kids h1 h2 h3 =>
    rw [Tree.Preferred] at hp
    rw [Tree.node.sizeOf_spec] at hn
    refine ⟨r, rhs, Tree.evalList (pointers L) kids, mem_rulesFor h1 h2, hp.1, ?_, ⟨h0, kids, by omega, h3, hp.2, ?_, rfl⟩, ?_⟩
    · intro hs
      have := hu hs
      rw [Tree.uses, Tree.uses] at this
      simp at this
      exact ⟨this.1.1, this.2.1⟩
    · intro hs
      have := hu hs
      rw [Tree.uses, Tree.uses] at this
      simp at this
      exact ⟨this.1.2, this.2.2⟩
    · rw [Tree.eval]

theorem RsL.nil {n r : Nat} {p : Place} {next : Int} {i : Nat} {toks : List Token} {ss : List (SymType R D)}
    (h : RsL L simple n r p next i [] toks ss) : toks = [] ∧ ss = [] := by
  obtain ⟨_, ts, _, hd, _, _, rfl⟩ := h
  cases hd
  exact ⟨rfl, rfl⟩

theorem RsL.cons {n r : Nat} {p : Place} {next : Int} {i : Nat} {X : Sym} {Xs : List Sym} {toks : List Token} {ss : List (SymType R D)}
    (h : RsL L simple n r p next i (X :: Xs) toks ss) :
    ∃ a b s ss', toks = a ++ b ∧ ss = s :: ss' ∧ Rs L simple n X a (p.child r i) (firstCode next b) s ∧
      RsL L simple n r p next (i + 1) Xs b ss' := by
  obtain ⟨h0, ts, hn, hd, hp, hu, rfl⟩ := h
  cases hd with
  | cons _ _ a b t ts h1 h2 =>
    rw [Tree.PreferredList, derivesList_tokens h2] at hp
    rw [List.cons.sizeOf_spec] at hn
    refine ⟨a, b, t.eval (pointers L), Tree.evalList (pointers L) ts, rfl, rfl, ⟨h0.left, t, by omega, h1, hp.1, ?_, rfl⟩,
      ⟨h0.right, ts, by omega, h2, hp.2, ?_, rfl⟩⟩
    · intro hs
      have := hu hs
      rw [Tree.usesAny, Tree.usesAny] at this
      simp at this
      exact ⟨this.1.1, this.2.1⟩
    · intro hs
      have := hu hs
      rw [Tree.usesAny, Tree.usesAny] at this
      simp at this
      exact ⟨this.1.2, this.2.2⟩

theorem RsL.last {n r : Nat} {p : Place} {next : Int} {i : Nat} {X : Sym} {toks : List Token} {ss : List (SymType R D)}
    (h : RsL L simple n r p next i [X] toks ss) : ∃ s, ss = [s] ∧ Rs L simple n X toks (p.child r i) next s := by
  obtain ⟨a, b, s, ss', rfl, rfl, h1, h2⟩ := h.cons
  obtain ⟨rfl, rfl⟩ := h2.nil
  rw [List.append_nil]
  exact ⟨s, rfl, h1⟩

theorem Rs.term {n : Nat} {c : Int} {toks : List Token} {p : Place} {next : Int} {s : SymType R D} (h : Rs L simple n (.t c) toks p next s) :
    ∃ q, toks = [(c, q)] ∧ s = leafValue q ∧ Sane [(c, q)] := by
  obtain ⟨h0, t, hn, hd, hp, hu, rfl⟩ := h
  cases hd with
  | leaf _ q => exact ⟨q, rfl, rfl, h0⟩

/-- Tokens that carry something. -/
def carries : List Int := [Tok.TYPEORMODULEREFERENCE, Tok.VALUEIDENTIFIER, Tok.NUMBER]

theorem Rs.isKw {n : Nat} {c : Int} {toks : List Token} {p : Place} {next : Int} {s : SymType R D} (h : Rs L simple n (.t c) toks p next s)
    (hc : c ∉ carries := by decide) : toks = [kw c] ∧ s = leafValue .none := by
  obtain ⟨q, rfl, rfl, hq⟩ := h.term
  simp only [carries, List.mem_cons, List.not_mem_nil, or_false, not_or] at hc
  rw [hq.none hc]
  exact ⟨rfl, rfl⟩

theorem Rs.isUpper {n : Nat} {toks : List Token} {p : Place} {next : Int} {s : SymType R D}
    (h : Rs L simple n (.t Tok.TYPEORMODULEREFERENCE) toks p next s) : ∃ w, toks = [upper w] ∧ s = leafValue (.name w) := by
  obtain ⟨q, rfl, rfl, hq⟩ := h.term
  obtain ⟨w, rfl⟩ := hq.name (.inl rfl)
  exact ⟨w, rfl, rfl⟩

theorem Rs.isLower {n : Nat} {toks : List Token} {p : Place} {next : Int} {s : SymType R D}
    (h : Rs L simple n (.t Tok.VALUEIDENTIFIER) toks p next s) : ∃ w, toks = [lower w] ∧ s = leafValue (.name w) := by
  obtain ⟨q, rfl, rfl, hq⟩ := h.term
  obtain ⟨w, rfl⟩ := hq.name (.inr rfl)
  exact ⟨w, rfl, rfl⟩

theorem Rs.isNum {n : Nat} {toks : List Token} {p : Place} {next : Int} {s : SymType R D}
    (h : Rs L simple n (.t Tok.NUMBER) toks p next s) : ∃ r m, toks = [num r m] ∧ s = leafValue (.number r m) := by
  obtain ⟨q, rfl, rfl, hq⟩ := h.term
  obtain ⟨r, m, rfl⟩ := hq.number
  exact ⟨r, m, rfl, rfl⟩

end Asn1go.Notation
