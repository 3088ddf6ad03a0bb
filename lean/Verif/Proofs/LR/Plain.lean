import Verif.Proofs.LR.Result
import Verif.Proofs.MapRel
import Verif.Spec.Uses

/-! Trees without the rules that store pointers into the parser's stack. -/

namespace Asn1go.LR

open Asn1go Spec

variable {R R' D D' : Type}

theorem usesAny_of_mem {r : Nat} {t : Tree} {l : List Tree} (h : t ∈ l) (hu : t.uses r = true) : Tree.usesAny r l = true := by
  induction l with
  | nil => cases h
  | cons a l ih =>
    rw [Tree.usesAny, Bool.or_eq_true]
    rcases List.mem_cons.1 h with rfl | h
    · exact .inl hu
    · exact .inr (ih h)

mutual

/-- Evaluating a tree in two domains gives values that agree; what pointers point to matters only if they are taken. -/
theorem eval_agree_used (f : R → R') (g : D → D') (mk : (Nat → SymType R D) → Pointers R D)
    (mk' : (Nat → SymType R' D') → Pointers R' D') (hc : ∀ d d' x, f ((mk d).copy x) = (mk' d').copy x) :
    ∀ {X : Sym} {toks : List Token} {t : Tree}, Derives X toks t →
      (t.uses 152 = true → ∀ d d', (d 3).value.map f = (d' 3).value → g (mk d).value3 = (mk' d').value3) →
      (t.uses 188 = true → ∀ d d', (d 2).definedValue = (d' 2).definedValue → f (mk d).defined2 = (mk' d').defined2) →
      agree f g (fieldOf X) (t.eval mk) (t.eval mk')
  | _, _, _, .leaf code p, _, _ => by
    simp only [Tree.eval, leafValue, fieldOf]
    split
    · rfl
    · split
      · rfl
      · trivial
  | _, _, _, .node r lhs rhs toks kids hr hrule hk, h3, h2 => by
    rw [eval_node, eval_node]
    have hlen : r ≤ 291 := by
      have : r - 1 < rules.length := (List.getElem?_eq_some_iff.1 hrule).1
      have e : rules.length = 291 := by decide +kernel
      omega
    have hkids := evalList_agree_used f g mk mk' hc hk (fun h => h3 (by simp [Tree.uses, h])) (fun h => h2 (by simp [Tree.uses, h]))
    refine ruleAgree f g r hr hlen lhs rhs hrule _ _ _ _ _ _ ?_ ?_ (fun x => hc _ _ x) hkids ?_
    · rintro rfl
      cases hrule
      exact h3 (by simp [Tree.uses]) _ _ (hkids 2 _ rfl)
    · rintro rfl
      cases hrule
      exact h2 (by simp [Tree.uses]) _ _ (hkids 1 _ rfl)
    · intro hne
      cases hk with
      | nil => exact absurd rfl hne
      | cons => exact ⟨rfl, rfl⟩

theorem evalList_agree_used (f : R → R') (g : D → D') (mk : (Nat → SymType R D) → Pointers R D)
    (mk' : (Nat → SymType R' D') → Pointers R' D') (hc : ∀ d d' x, f ((mk d).copy x) = (mk' d').copy x) :
    ∀ {rhs : List Sym} {toks : List Token} {kids : List Tree}, DerivesList rhs toks kids →
      (Tree.usesAny 152 kids = true → ∀ d d', (d 3).value.map f = (d' 3).value → g (mk d).value3 = (mk' d').value3) →
      (Tree.usesAny 188 kids = true → ∀ d d', (d 2).definedValue = (d' 2).definedValue → f (mk d).defined2 = (mk' d').defined2) →
      ∀ i X, rhs[i]? = some X → agree f g (fieldOf X) (dollars (kids.map (Tree.eval mk)) (i + 1))
        (dollars (kids.map (Tree.eval mk')) (i + 1))
  | _, _, _, .nil, _, _ => fun i X h => by simp at h
  | _, _, _, .cons X l a b t ts ht hts, h3, h2 => fun i Y h => by
    cases i with
    | zero =>
      simp at h
      subst h
      exact eval_agree_used f g mk mk' hc ht (fun h => h3 (by simp [Tree.usesAny, h])) (fun h => h2 (by simp [Tree.usesAny, h]))
    | succ i =>
      have := evalList_agree_used f g mk mk' hc hts (fun h => h3 (by simp [Tree.usesAny, h])) (fun h => h2 (by simp [Tree.usesAny, h]))
        i Y (by simpa using h)
      simpa [dollars] using this

end

/-- Evaluating the tree of a module in two domains. -/
theorem module_agree_used (f : R → R') (g : D → D') (mk : (Nat → SymType R D) → Pointers R D)
    (mk' : (Nat → SymType R' D') → Pointers R' D') (hc : ∀ d d' x, f ((mk d).copy x) = (mk' d').copy x) {toks : List Token} {t : Tree}
    (h : Derives (.n NT.ModuleDefinition) toks t)
    (h3 : t.uses 152 = true → ∀ d d', (d 3).value.map f = (d' 3).value → g (mk d).value3 = (mk' d').value3)
    (h2 : t.uses 188 = true → ∀ d d', (d 2).definedValue = (d' 2).definedValue → f (mk d).defined2 = (mk' d').defined2) :
    (t.module mk).map f g = t.module mk' := by
  obtain ⟨kids, rfl, hk⟩ := inv_ModuleDefinition h
  have hkids := evalList_agree_used f g mk mk' hc hk (fun h => h3 (by simp [Tree.uses, h])) (fun h => h2 (by simp [Tree.uses, h]))
  have k1 : (dollars (kids.map (Tree.eval mk)) 1).moduleIdentifier = _ := hkids 0 _ rfl
  have k3 : (dollars (kids.map (Tree.eval mk)) 3).tagDefault = _ := hkids 2 _ rfl
  have k4 : (dollars (kids.map (Tree.eval mk)) 4).extensionDefault = _ := hkids 3 _ rfl
  have k7 : (dollars (kids.map (Tree.eval mk)) 7).moduleBody.map f g = _ := hkids 6 _ rfl
  simp only [Tree.module, evalList_eq, moduleOf, ModuleDefinition.map, k1, k3, k4, k7]

/-- Stack references told apart from copies, with a mark. -/
def markRef (b : Bool) : Option DefinedValue → Bool ⊕ DefinedValue
  | none => .inl b
  | some d => .inr d

/-- Pointers with marks. -/
def marking (_ : Nat → SymType (Bool ⊕ DefinedValue) Bool) : Pointers (Bool ⊕ DefinedValue) Bool :=
  { value3 := true, defined2 := .inl true, copy := .inr }

/-- Pointers not taken leave no trace. -/
theorem erased_marks {toks : List Token} {t : Tree} (h : Derives (.n NT.ModuleDefinition) toks t) (a b : Bool)
    (ha : t.uses 188 = true → a = true) (hb : t.uses 152 = true → b = true) :
    (t.module erased).map (markRef a) (fun _ => b) = t.module marking :=
  module_agree_used _ _ _ _ (fun _ _ _ => rfl) h (fun hu _ _ _ => hb hu) (fun hu _ _ _ => by rw [ha hu]; rfl)

theorem parsed_marks {u : Unicode} {text : Str} {m : Module} {toks : List Token} {t : Tree} (h : Parsed u text m toks t) (a b : Bool)
    (ha : t.uses 188 = true → a = true) (hb : t.uses 152 = true → b = true) : ∃ m0 : ModuleDefinition Ref (Value DefinedValue),
    m = m0.map Ref.target id ∧ m0.map (fun x => markRef a x.known) (fun _ => b) =
      t.marked.map (fun x => markRef true x.known) (fun _ => true) := by
  obtain ⟨m0, h1, h2⟩ := h.value
  refine ⟨m0, h1, ?_⟩
  have e : ∀ (m : ModuleDefinition Ref (Value DefinedValue)) (a b : Bool), m.map (fun x => markRef a x.known) (fun _ => b) =
      (m.map Ref.known (fun _ => ())).map (markRef a) (fun _ => b) := fun m a b => by rw [ModuleDefinition.map_map]
  rw [e, e, h2, marked_known h.derives, erased_marks h.derives a b ha hb,
    erased_marks h.derives true true (fun _ => rfl) (fun _ => rfl)]

end Asn1go.LR
