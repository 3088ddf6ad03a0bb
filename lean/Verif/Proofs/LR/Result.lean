import Verif.Proofs.LR.Step
import Verif.Proofs.LR.Invert

/-! What `ParseStream` returns. -/

namespace Asn1go.LR

open Asn1go Spec

variable {R R' D D' : Type}

mutual

/-- Evaluating a tree in two domains gives values that agree. -/
theorem eval_agree (f : R → R') (g : D → D') (mk : (Nat → SymType R D) → Pointers R D) (mk' : (Nat → SymType R' D') → Pointers R' D')
    (h3 : ∀ d d', (d 3).value.map f = (d' 3).value → g (mk d).value3 = (mk' d').value3)
    (h2 : ∀ d d', (d 2).definedValue = (d' 2).definedValue → f (mk d).defined2 = (mk' d').defined2)
    (hc : ∀ d d' x, f ((mk d).copy x) = (mk' d').copy x) :
    ∀ {X : Sym} {toks : List Token} {t : Tree}, Derives X toks t → agree f g (fieldOf X) (t.eval mk) (t.eval mk')
  | _, _, _, .leaf code p => by
    simp only [Tree.eval, leafValue, fieldOf]
    split
    · rfl
    · split
      · rfl
      · trivial
  | _, _, _, .node r lhs rhs toks kids hr hrule hk => by
    rw [eval_node, eval_node]
    have hlen : r ≤ 291 := by
      have : r - 1 < rules.length := (List.getElem?_eq_some_iff.1 hrule).1
      have e : rules.length = 291 := by decide +kernel
      omega
    have hkids := evalList_agree f g mk mk' h3 h2 hc hk
    refine ruleAgree f g r hr hlen lhs rhs hrule _ _ _ _ _ _ ?_ ?_ (fun x => hc _ _ x) hkids ?_
    · rintro rfl
      cases hrule
      exact h3 _ _ (hkids 2 _ rfl)
    · rintro rfl
      cases hrule
      exact h2 _ _ (hkids 1 _ rfl)
    · intro hne
      cases hk with
      | nil => exact absurd rfl hne
      | cons => exact ⟨rfl, rfl⟩

theorem evalList_agree (f : R → R') (g : D → D') (mk : (Nat → SymType R D) → Pointers R D) (mk' : (Nat → SymType R' D') → Pointers R' D')
    (h3 : ∀ d d', (d 3).value.map f = (d' 3).value → g (mk d).value3 = (mk' d').value3)
    (h2 : ∀ d d', (d 2).definedValue = (d' 2).definedValue → f (mk d).defined2 = (mk' d').defined2)
    (hc : ∀ d d' x, f ((mk d).copy x) = (mk' d').copy x) :
    ∀ {rhs : List Sym} {toks : List Token} {kids : List Tree}, DerivesList rhs toks kids →
      ∀ i X, rhs[i]? = some X → agree f g (fieldOf X) (dollars (kids.map (Tree.eval mk)) (i + 1))
        (dollars (kids.map (Tree.eval mk')) (i + 1))
  | _, _, _, .nil => fun i X h => by simp at h
  | _, _, _, .cons X l a b t ts ht hts => fun i Y h => by
    cases i with
    | zero =>
      simp at h
      subst h
      exact eval_agree f g mk mk' h3 h2 hc ht
    | succ i =>
      have := evalList_agree f g mk mk' h3 h2 hc hts i Y (by simpa using h)
      simpa [dollars] using this

end

/-- Evaluating the tree of a module in two domains. -/
theorem module_agree (f : R → R') (g : D → D') (mk : (Nat → SymType R D) → Pointers R D) (mk' : (Nat → SymType R' D') → Pointers R' D')
    (h3 : ∀ d d', (d 3).value.map f = (d' 3).value → g (mk d).value3 = (mk' d').value3)
    (h2 : ∀ d d', (d 2).definedValue = (d' 2).definedValue → f (mk d).defined2 = (mk' d').defined2)
    (hc : ∀ d d' x, f ((mk d).copy x) = (mk' d').copy x) {toks : List Token} {t : Tree}
    (h : Derives (.n NT.ModuleDefinition) toks t) : (t.module mk).map f g = t.module mk' := by
  obtain ⟨kids, rfl, hk⟩ := inv_ModuleDefinition h
  have hkids := evalList_agree f g mk mk' h3 h2 hc hk
  have k1 : (dollars (kids.map (Tree.eval mk)) 1).moduleIdentifier = _ := hkids 0 _ rfl
  have k3 : (dollars (kids.map (Tree.eval mk)) 3).tagDefault = _ := hkids 2 _ rfl
  have k4 : (dollars (kids.map (Tree.eval mk)) 4).extensionDefault = _ := hkids 3 _ rfl
  have k7 : (dollars (kids.map (Tree.eval mk)) 7).moduleBody.map f g = _ := hkids 6 _ rfl
  simp only [Tree.module, evalList_eq, moduleOf, ModuleDefinition.map, k1, k3, k4, k7]

theorem marked_known {toks : List Token} {t : Tree} (h : Derives (.n NT.ModuleDefinition) toks t) :
    t.marked.map Ref.known (fun _ => ()) = t.module erased :=
  module_agree Ref.known (fun _ => ()) refPointers erased (fun _ _ _ => rfl) (fun _ _ _ => rfl) (fun _ _ _ => rfl) h

theorem marked_target {toks : List Token} {t : Tree} (h : Derives (.n NT.ModuleDefinition) toks t) :
    t.marked.map Ref.target id = t.ideal :=
  module_agree Ref.target id refPointers idealPointers (fun _ _ h => h) (fun _ _ h => h) (fun _ _ _ => rfl) h

/-- The mark of a reference in the parser's memory. -/
def mark (s : PState) : RefPtr → Ref
  | .copy d => .copied d
  | .slot p => .onStack (s.load p).definedValue

/-- What a successful parse gives. -/
structure Parsed (u : Unicode) (text : Str) (m : Module) (toks : List Token) (t : Tree) : Prop where
  tokens : Tokens u false text toks
  derives : Derives (.n NT.ModuleDefinition) toks t
  value : ∃ m0 : ModuleDefinition Ref (Value DefinedValue), m = m0.map Ref.target id ∧
    m0.map Ref.known (fun _ => ()) = t.marked.map Ref.known (fun _ => ())
  exact : m = t.exact

/-- What `ParseStream` returns. -/
theorem parseStream_cases (u : Unicode) (text : Str) (fin : ReadEnd) :
    (parseStream u text fin = .hang ∧ fin = .fail) ∨
    (∃ n e, parseStream u text fin = .err n e ∧ ∃ c r, text = c ++ r ∧ n = (lineEnds c : Int) + 1) ∨
    (∃ m toks t, parseStream u text fin = .ok m ∧ fin = .eof ∧ Parsed u text m toks t) := by
  unfold parseStream
  rcases yyParse_ok u text fin with ⟨h, hf⟩ | ⟨c, s, h, hfin⟩
  · left; rw [h]; exact ⟨rfl, hf⟩
  · right
    rw [h]
    cases hfin with
    | error _ he hh =>
      left
      obtain ⟨⟨n, e⟩, he⟩ := Option.ne_none_iff_exists'.1 he
      simp only [resultOf, he]
      exact ⟨n, e, rfl, hh.err n e he⟩
    | accept _ t kids toks m ht hd hr hm hx htoks hh =>
      cases he : s.lexer.err with
      | some p => left; simp only [resultOf, he]; exact ⟨p.1, p.2, rfl, hh.err p.1 p.2 he⟩
      | none =>
        right
        simp only [resultOf, he, hr]
        refine ⟨_, toks, t, rfl, (htoks he).2, (htoks he).1, hd, ⟨m.map (mark s) s.derefValue, ?_, ?_⟩, hx⟩
        · rw [ModuleDefinition.map_map]
          congr 1
          funext p
          cases p <;> rfl
        · rw [marked_known hd, ← hm, ModuleDefinition.map_map]
          congr 1
          funext p
          cases p <;> rfl

end Asn1go.LR
