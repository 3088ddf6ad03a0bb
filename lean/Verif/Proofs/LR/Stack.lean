import Verif.Proofs.LR.Decide
import Verif.Proofs.LR.Agree
import Verif.Spec.Tree

/-! The parser stack carries derivation trees. -/

namespace Asn1go.LR

open Asn1go Spec

/-- What is known of a reference without looking at the parser's memory. -/
def knownRef : RefPtr → Option DefinedValue
  | .slot _ => none
  | .copy d => some d

/-- Nothing is known of a default value. -/
def noSlot : Slot → Unit := fun _ => ()

/-- Pointers when memory is not looked at. -/
def erased (_ : Nat → SymType (Option DefinedValue) Unit) : Pointers (Option DefinedValue) Unit :=
  { value3 := (), defined2 := none, copy := some }

/-- The value of a tree when memory is not looked at. -/
abbrev eval0 (t : Tree) : SymType (Option DefinedValue) Unit := t.eval erased

/-- Symbols whose numbers do not clash. -/
def symOk : Sym → Prop
  | .t c => 57346 ≤ c
  | .n k => k < 1000

instance : DecidablePred symOk := fun
  | .t c => inferInstanceAs (Decidable (57346 ≤ c))
  | .n k => inferInstanceAs (Decidable (k < 1000))

theorem symInt_inj {X Y : Sym} (hX : symOk X) (hY : symOk Y) (h : symInt X = symInt Y) : X = Y := by
  cases X <;> cases Y <;> simp only [symInt, symOk, Sym.t.injEq, Sym.n.injEq, reduceCtorEq] at * <;> omega

theorem rules_symOk : ∀ r ∈ rules, ∀ X ∈ r.2, symOk X := by decide +kernel

theorem rules_lhs : ∀ r ∈ rules, r.1 < 1000 := by decide +kernel

theorem ruleOf_symOk {r lhs : Nat} {rhs : List Sym} (h : ruleOf r = some (lhs, rhs)) : ∀ X ∈ rhs, symOk X :=
  rules_symOk _ (List.mem_of_getElem? h)

theorem ruleOf_lhs {r lhs : Nat} {rhs : List Sym} (h : ruleOf r = some (lhs, rhs)) : lhs < 1000 :=
  rules_lhs _ (List.mem_of_getElem? h)

theorem ruleOf_le {r lhs : Nat} {rhs : List Sym} (h : ruleOf r = some (lhs, rhs)) : r ≤ 291 := by
  have : r - 1 < rules.length := (List.getElem?_eq_some_iff.1 h).1
  have e : rules.length = 291 := by decide +kernel
  omega

/-- A stack (top first) with the trees of its entries and the tokens read so far. -/
inductive Stk : List RawSym → List Tree → List Token → Prop
  | base (e : RawSym) : e.yys = 0 → Stk [e] [] []
  | cons (e p : RawSym) (l : List RawSym) (t : Tree) (ts : List Tree) (done toks : List Token) (X : Sym) :
      Stk (p :: l) ts done → e.yys < 432 → p.yys ∈ preds e.yys → symOk X → sym e.yys = symInt X → Derives X toks t →
      agree knownRef noSlot (fieldOf X) e (eval0 t) → Stk (e :: p :: l) (t :: ts) (done ++ toks)

theorem Stk.lt {e : RawSym} {l : List RawSym} {ts : List Tree} {done : List Token} (h : Stk (e :: l) ts done) :
    e.yys < 432 := by
  cases h with
  | base _ h => omega
  | cons _ _ _ _ _ _ _ _ _ h => exact h

theorem DerivesList.append_one {l : List Sym} {X : Sym} {a b : List Token} {ts : List Tree} {t : Tree}
    (h : DerivesList l a ts) (h' : Derives X b t) : DerivesList (l ++ [X]) (a ++ b) (ts ++ [t]) := by
  match h with
  | .nil => simpa using DerivesList.cons _ _ _ _ _ _ h' .nil
  | .cons Y l a a' s ss h1 h2 =>
    have := DerivesList.cons _ _ _ _ _ _ h1 (DerivesList.append_one h2 h')
    simpa using this

theorem sym_zero : sym 0 = -1000 := by decide +kernel

theorem symInt_ne {X : Sym} (h : symOk X) : symInt X ≠ -1000 := by
  cases X <;> simp only [symOk, symInt] at * <;> omega

/-- Popping a right-hand side. -/
structure Popped (rev : List Sym) (st : List RawSym) (ts : List Tree) (done : List Token) (es : List RawSym) (b : RawSym)
    (l : List RawSym) (kids : List Tree) (ts' : List Tree) (done' toks : List Token) (B : List Nat) : Prop where
  stack : st = es ++ b :: l
  len : es.length = rev.length
  klen : kids.length = rev.length
  trees : ts = kids ++ ts'
  tokens : done = done' ++ toks
  stk : Stk (b :: l) ts' done'
  mem : b.yys ∈ B
  der : DerivesList rev.reverse toks kids.reverse
  agree : ∀ (i : Nat) (X : Sym), rev[i]? = some X → ∃ e t, es[i]? = some e ∧ kids[i]? = some t ∧
    agree knownRef noSlot (fieldOf X) e (eval0 t)
  syms : es.map (fun e => sym e.yys) = rev.map symInt

theorem walk_pop : ∀ {rev : List Sym} {S B : List Nat} {e : RawSym} {l : List RawSym} {ts : List Tree} {done : List Token},
    walk (rev.map symInt) S = some B → (∀ X ∈ rev, symOk X) → e.yys ∈ S → Stk (e :: l) ts done →
    ∃ es b l' kids ts' done' toks, Popped rev (e :: l) ts done es b l' kids ts' done' toks B := by
  intro rev
  induction rev with
  | nil =>
    intro S B e l ts done h hX he hs
    simp only [List.map_nil, walk, Option.some.injEq] at h
    subst h
    exact ⟨[], e, l, [], ts, done, [], rfl, rfl, rfl, rfl, by simp, hs, he, .nil, by simp, rfl⟩
  | cons X rev ih =>
    intro S B e l ts done h hX he hs
    simp only [List.map_cons, walk] at h
    split at h
    · rename_i hall
      have hsym : sym e.yys = symInt X := by simpa using List.all_eq_true.1 hall e.yys he
      have hXok := hX X (by simp)
      cases hs with
      | base _ h0 =>
        rw [h0, sym_zero] at hsym
        exact absurd hsym.symm (symInt_ne hXok)
      | cons _ p l t ts done toks Y hstk _ hpred hY hsymY hder hag =>
        have := symInt_inj hXok hY (hsym.symm.trans hsymY)
        subst this
        obtain ⟨es, b, l', kids, ts', done', toks', hp⟩ := ih h (fun X hx => hX X (by simp [hx]))
          (by rw [List.mem_eraseDups]; exact List.mem_flatMap.2 ⟨_, he, hpred⟩) hstk
        refine ⟨e :: es, b, l', t :: kids, ts', done', toks' ++ toks, ?_, by simp [hp.len], by simp [hp.klen],
          by simp [hp.trees], by simp [hp.tokens], hp.stk, hp.mem, ?_, ?_, ?_⟩
        · simp [hp.stack]
        · simpa using DerivesList.append_one hp.der hder
        · intro i Z hi
          cases i with
          | zero => simp at hi; subst hi; exact ⟨e, t, rfl, rfl, hag⟩
          | succ i => exact hp.agree i Z (by simpa using hi)
        · simp [hp.syms, hsym]
    · cases h

theorem evalList_eq {R D : Type} (mk : (Nat → SymType R D) → Pointers R D) (l : List Tree) :
    Tree.evalList mk l = l.map (Tree.eval mk) := by
  induction l with
  | nil => simp [Tree.evalList]
  | cons a l ih => simp [Tree.evalList, ih]

theorem eval_node {R D : Type} (mk : (Nat → SymType R D) → Pointers R D) (r : Nat) (kids : List Tree) :
    Tree.eval mk (.node r kids) = action r (mk (dollars (kids.map (Tree.eval mk)))) (dollars (kids.map (Tree.eval mk)))
      ((kids.map (Tree.eval mk)).headD {}) := by
  rw [Tree.eval, evalList_eq]

end Asn1go.LR
