import Verif.Proofs.LR.ReachCheck
import Verif.Proofs.Shape

/-! The trees the machine builds are preferred. -/

namespace Asn1go.LR

open Asn1go Spec

/-- The rule at the root. -/
def rootRule : Tree → Nat
  | .leaf _ _ => 0
  | .node r _ => r

/-- The class of a tree: what matters about it for the places where it is not allowed. -/
def cls : Tree → Nat
  | .leaf _ _ => 0
  | .node r kids =>
    if r = 190 then
      match kids with
      | [] => 0
      | k :: _ => if rootRule k = 194 then 4 else 0
    else clsRule r

/-- The tree is allowed at the place. -/
structure Fine (p : Place) (t : Tree) : Prop where
  head : p = .oidHead → cls t ≠ 1
  number : p = .numberForm → cls t ≠ 2
  exception : p = .exception → cls t ≠ 3
  list : p = .oidList → cls t ≠ 4

/-- Preferred at all places where it is allowed. -/
def Almost (t : Tree) (n : Int) : Prop := ∀ p, Fine p t → t.Preferred p n

/-- The code is that of a token or 0. -/
def OkCode (n : Int) : Prop := n = 0 ∨ 57346 ≤ n ∧ n ≤ 57470

theorem OkCode.facts {n : Int} (h : OkCode n) : 0 < codeBit n ∧ codeBit n < 129 ∧ ((codeBit n : Nat) : Int) = tokNo n := by
  unfold codeBit tokNo
  rcases h with rfl | h
  · decide
  · rw [if_neg (by omega)]
    omega

/-- All trees on a stack are preferred as far as can be said. -/
inductive PInv : List Nat → List Tree → Int → Prop
  | base (n : Int) : PInv [0] [] n
  | cons (e b : Nat) (ss : List Nat) (t : Tree) (ts : List Tree) (n : Int) : PInv (b :: ss) ts (firstCode n t.tokens) → Almost t n →
      (cls t = 0 ∨ (mayMask b e (cls t)).testBit (codeBit n) = true) → PInv (e :: b :: ss) (t :: ts) n

theorem tokensList_append (a b : List Tree) : Tree.tokensList (a ++ b) = Tree.tokensList a ++ Tree.tokensList b := by
  induction a with
  | nil => simp [Tree.tokensList]
  | cons x a ih => simp [Tree.tokensList, ih]

theorem firstCode_append' (n : Int) (a b : List Token) : firstCode n (a ++ b) = firstCode (firstCode n b) a := by
  cases a <;> rfl

/-- Popping trees. -/
theorem PInv.pop {b : Nat} {l : List Nat} {ts : List Tree} : ∀ {es : List Nat} {kids : List Tree} {n : Int},
    PInv (es ++ b :: l) (kids ++ ts) n → es.length = kids.length →
    PInv (b :: l) ts (firstCode n (Tree.tokensList kids.reverse)) ∧
    ∀ (i : Nat) (k : Tree), kids.reverse[i]? = some k → Almost k (firstCode n (Tree.tokensList (kids.reverse.drop (i + 1))))
  | [], [], n, h, _ => ⟨by simpa [Tree.tokensList, firstCode] using h, by intro i k h; simp at h⟩
  | [], _ :: _, _, _, h => by simp at h
  | _ :: _, [], _, _, h => by simp at h
  | e :: es, k :: kids, n, h, hl => by
    have hl : es.length = kids.length := by simpa using hl
    obtain ⟨b', ss, hss⟩ : ∃ b' ss, es ++ b :: l = b' :: ss := by
      cases es with
      | nil => exact ⟨b, l, rfl⟩
      | cons a es => exact ⟨a, es ++ b :: l, rfl⟩
    simp only [List.cons_append] at h
    rw [hss] at h
    cases h with
    | cons _ _ _ _ _ _ h1 h2 h3 =>
      rw [← hss] at h1
      obtain ⟨i1, i2⟩ := PInv.pop h1 hl
      refine ⟨?_, ?_⟩
      · rw [List.reverse_cons, tokensList_append, firstCode_append']
        simpa [Tree.tokensList] using i1
      · intro i t hi
        rw [List.reverse_cons] at hi ⊢
        by_cases hlt : i < kids.length
        · rw [List.getElem?_append_left (by simpa using hlt)] at hi
          rw [List.drop_append_of_le_length (by simp; omega), tokensList_append, firstCode_append']
          have := i2 i t hi
          simpa [Tree.tokensList] using this
        · rw [List.getElem?_append_right (by simp; omega)] at hi
          have h0 : i = kids.length := by
            rcases Nat.eq_or_lt_of_le (Nat.le_of_not_lt hlt) with h | h
            · exact h.symm
            · rw [List.getElem?_eq_none (by simp; omega)] at hi; cases hi
          subst h0
          simp at hi
          subst hi
          rw [List.drop_of_length_le (by simp)]
          exact h2

theorem preferredList_of {r : Nat} {p : Place} {n : Int} : ∀ {ks : List Tree} {j : Nat},
    (∀ (i : Nat) (k : Tree), ks[i]? = some k → k.Preferred (p.child r (j + i)) (firstCode n (Tree.tokensList (ks.drop (i + 1))))) →
    Tree.PreferredList r p n j ks
  | [], _, _ => by rw [Tree.PreferredList]; trivial
  | k :: ks, j, h => by
    rw [Tree.PreferredList]
    refine ⟨by simpa using h 0 k rfl, preferredList_of ?_⟩
    intro i k' hk
    have := h (i + 1) k' (by simpa using hk)
    rw [show j + 1 + i = j + (i + 1) by omega]
    simpa using this

/-- A node is preferred as far as can be said when its children are, and are allowed at their places. -/
theorem almost_node {r : Nat} {kids : List Tree} {n : Int}
    (hkids : ∀ (i : Nat) (k : Tree), kids[i]? = some k → Almost k (firstCode n (Tree.tokensList (kids.drop (i + 1)))))
    (hnever : r ∉ neverUsed) (hnb : ∀ e ∈ notBefore, e.1 = r → n ∉ e.2)
    (h187 : r = 187 → ∀ k, kids[1]? = some k → cls k ≠ 4)
    (h192 : r = 192 → ∀ (i : Nat) (k : Tree), kids[i]? = some k → cls k ≠ 2)
    (h131 : r = 131 → ∀ k, kids[1]? = some k → cls k ≠ 3) : Almost (.node r kids) n := by
  intro p hp
  rw [Tree.Preferred]
  refine ⟨⟨hnever, ?_, hnb⟩, preferredList_of ?_⟩
  · intro hm
    simp only [notThere, List.mem_cons, Prod.mk.injEq, List.not_mem_nil, or_false] at hm
    rcases hm with ⟨rfl, h⟩ | ⟨rfl, h⟩ | ⟨rfl, h⟩
    · exact hp.head h (by simp [cls, clsRule])
    · exact hp.number h (by simp [cls, clsRule])
    · exact hp.exception h (by simp [cls, clsRule])
  · intro i k hk
    rw [Nat.zero_add]
    refine hkids i k hk _ ?_
    unfold Place.child
    split
    · rename_i h
      obtain ⟨rfl, rfl⟩ := h
      exact ⟨by simp, by simp, by simp, fun _ => h187 rfl k hk⟩
    · split
      · rename_i h
        obtain ⟨rfl, h2, rfl⟩ := h
        refine ⟨fun _ h1 => ?_, by simp, by simp, by simp⟩
        refine hp.list h2 ?_
        cases kids with
        | nil => simp at hk
        | cons k0 kids =>
          simp at hk
          subst hk
          have : rootRule k0 = 194 := by
            cases k0 with
            | leaf => simp [cls] at h1
            | node r' ks =>
              simp only [cls] at h1
              split at h1
              · split at h1
                · cases h1
                · split at h1 <;> cases h1
              · unfold clsRule at h1
                split at h1
                · assumption
                · split at h1
                  · cases h1
                  · split at h1 <;> cases h1
          simp [cls, this]
      · split
        · rename_i h
          exact ⟨by simp, fun _ => h192 h i k hk, by simp, by simp⟩
        · split
          · rename_i h
            obtain ⟨rfl, rfl⟩ := h
            exact ⟨by simp, by simp, fun _ => h131 rfl k hk, by simp⟩
          · exact ⟨by simp, by simp, by simp, by simp⟩

theorem without_testBit {a m i : Nat} : (without a m).testBit i = (a.testBit i && !m.testBit i) := by
  unfold without
  rw [Nat.testBit_xor, Nat.testBit_and]
  cases a.testBit i <;> cases m.testBit i <;> rfl

theorem redMask_testBit {s r : Nat} {t : Nat} (hr : (reachOf s).testBit t = true) (hd : doomed s t = false)
    (ha : act s t = .ok (.reduce r)) : ∀ n, t < n → (redMask s r n).testBit t = true
  | 0, h => by omega
  | n + 1, h => by
    unfold redMask
    rw [Nat.testBit_or, Bool.or_eq_true]
    by_cases hn : t = n
    · subst hn
      left
      rw [hr, hd, ha]
      simp
    · exact Or.inr (redMask_testBit hr hd ha n (by omega))

/-- What the check of a reduction says. -/
structure RedOk (s t r lhs : Nat) (rhs : List Sym) (B : List Nat) : Prop where
  rule : ruleOf r = some (lhs, rhs)
  never : r ∉ neverUsed
  walk : walk (rhs.map symInt).reverse [s] = some B
  notBefore : (notBeforeMask r).testBit t = false
  goto : ∀ b ∈ B, ∀ g, gotoState lhs b = .ok g → (reachOf g).testBit t = true ∧
    (clsRule r ≠ 0 → (mayMask b g (clsRule r)).testBit t = true)
  r192 : r = 192 → ∀ b ∈ preds s, (mayMask b s 2).testBit t = false
  r131 : r = 131 → ∀ b ∈ preds s, (mayMask b s 3).testBit t = false
  r187 : r = 187 → ∀ x ∈ preds s, ∀ y ∈ preds x, mayMask y x 4 = 0
  r190 : r = 190 → ∀ x ∈ preds s, ∀ b ∈ preds x, mayMask b x 1 &&& firstT.get NT.ObjIdComponentsList = 0 ∨
    ∀ g, gotoState lhs b = .ok g → (mayMask b g 4).testBit t = true

theorem foldr_goto {lhs r t : Nat} : ∀ {B : List Nat} {m0 : Nat},
    (B.foldr (fun b m => match gotoState lhs b with
          | .ok g => (if clsRule r = 0 then reachOf g else reachOf g &&& mayMask b g (clsRule r)) &&& m
          | .error _ => 0) m0).testBit t = true →
    m0.testBit t = true ∧ ∀ b ∈ B, ∀ g, gotoState lhs b = .ok g → (reachOf g).testBit t = true ∧
      (clsRule r ≠ 0 → (mayMask b g (clsRule r)).testBit t = true)
  | [], m0, h => ⟨h, by simp⟩
  | b :: B, m0, h => by
    simp only [List.foldr_cons] at h
    cases hg : gotoState lhs b with
    | error e => rw [hg] at h; simp at h
    | ok g =>
      rw [hg] at h
      simp only [Nat.testBit_and, Bool.and_eq_true] at h
      obtain ⟨h1, h2⟩ := foldr_goto h.2
      refine ⟨h1, ?_⟩
      intro b' hb g' hg'
      rcases List.mem_cons.1 hb with rfl | hb
      · rw [hg] at hg'
        cases hg'
        have h3 := h.1
        split at h3
        · rename_i h0
          exact ⟨h3, fun h => absurd h0 h⟩
        · simp only [Nat.testBit_and, Bool.and_eq_true] at h3
          exact ⟨h3.1, fun _ => h3.2⟩
      · exact h2 b' hb g' hg'

theorem foldr_without {s c t : Nat} : ∀ {P : List Nat} {m0 : Nat},
    (P.foldr (fun b m => without m (mayMask b s c)) m0).testBit t = true →
    m0.testBit t = true ∧ ∀ b ∈ P, (mayMask b s c).testBit t = false
  | [], m0, h => ⟨h, by simp⟩
  | b :: P, m0, h => by
    simp only [List.foldr_cons, without_testBit, Bool.and_eq_true, Bool.not_eq_true'] at h
    obtain ⟨h1, h2⟩ := foldr_without h.1
    refine ⟨h1, ?_⟩
    intro b' hb
    rcases List.mem_cons.1 hb with rfl | hb
    · exact h.2
    · exact h2 b' hb

theorem foldr_head1 {x lhs t : Nat} : ∀ {P : List Nat} {m0 : Nat},
    (P.foldr (fun b m => if mayMask b x 1 &&& firstT.get NT.ObjIdComponentsList = 0 then m
          else match gotoState lhs b with
            | .ok g => mayMask b g 4 &&& m
            | .error _ => 0) m0).testBit t = true →
    m0.testBit t = true ∧ ∀ b ∈ P, mayMask b x 1 &&& firstT.get NT.ObjIdComponentsList = 0 ∨
      ∀ g, gotoState lhs b = .ok g → (mayMask b g 4).testBit t = true
  | [], m0, h => ⟨h, by simp⟩
  | b :: P, m0, h => by
    simp only [List.foldr_cons] at h
    split at h
    · rename_i h0
      obtain ⟨h1, h2⟩ := foldr_head1 h
      refine ⟨h1, ?_⟩
      intro b' hb
      rcases List.mem_cons.1 hb with rfl | hb
      · exact Or.inl h0
      · exact h2 b' hb
    · cases hg : gotoState lhs b with
      | error e => rw [hg] at h; simp at h
      | ok g =>
        rw [hg] at h
        simp only [Nat.testBit_and, Bool.and_eq_true] at h
        obtain ⟨h1, h2⟩ := foldr_head1 h.2
        refine ⟨h1, ?_⟩
        intro b' hb
        rcases List.mem_cons.1 hb with rfl | hb
        · right
          intro g' hg'
          rw [hg] at hg'
          cases hg'
          exact h.1
        · exact h2 b' hb

theorem foldr_head2 {lhs t : Nat} : ∀ {P : List Nat} {m0 : Nat},
    (P.foldr (fun x m => (preds x).foldr (fun b m => if mayMask b x 1 &&& firstT.get NT.ObjIdComponentsList = 0 then m
          else match gotoState lhs b with
            | .ok g => mayMask b g 4 &&& m
            | .error _ => 0) m) m0).testBit t = true →
    m0.testBit t = true ∧ ∀ x ∈ P, ∀ b ∈ preds x, mayMask b x 1 &&& firstT.get NT.ObjIdComponentsList = 0 ∨
      ∀ g, gotoState lhs b = .ok g → (mayMask b g 4).testBit t = true
  | [], m0, h => ⟨h, by simp⟩
  | x :: P, m0, h => by
    simp only [List.foldr_cons] at h
    obtain ⟨h1, h2⟩ := foldr_head1 h
    obtain ⟨h3, h4⟩ := foldr_head2 h1
    refine ⟨h3, ?_⟩
    intro x' hx
    rcases List.mem_cons.1 hx with rfl | hx
    · exact h2
    · exact h4 x' hx

theorem okMask_ok {s t r : Nat} (h : (okMask s r).testBit t = true) : ∃ lhs rhs B, RedOk s t r lhs rhs B := by
  unfold okMask at h
  split at h
  · simp at h
  · rename_i lhs rhs hrule
    split at h
    · simp at h
    · rename_i hnever
      split at h
      · simp at h
      · rename_i B hB
        simp only at h
        generalize hm : B.foldr (fun b m => match gotoState lhs b with
          | .ok g => (if clsRule r = 0 then reachOf g else reachOf g &&& mayMask b g (clsRule r)) &&& m
          | .error _ => 0) (without allToks (notBeforeMask r)) = m at h
        have hm' : m.testBit t = true → (notBeforeMask r).testBit t = false ∧ ∀ b ∈ B, ∀ g, gotoState lhs b = .ok g →
            (reachOf g).testBit t = true ∧ (clsRule r ≠ 0 → (mayMask b g (clsRule r)).testBit t = true) := by
          intro h
          rw [← hm] at h
          obtain ⟨h1, h2⟩ := foldr_goto h
          rw [without_testBit, Bool.and_eq_true, Bool.not_eq_true'] at h1
          exact ⟨h1.2, h2⟩
        have hn : r ∉ neverUsed := by simpa using hnever
        refine ⟨lhs, rhs, B, ?_⟩
        split at h
        · rename_i hr
          obtain ⟨h1, h2⟩ := foldr_without h
          exact ⟨hrule, hn, hB, (hm' h1).1, (hm' h1).2, fun _ => h2, by omega, by omega, by omega⟩
        · split at h
          · obtain ⟨h1, h2⟩ := foldr_without h
            exact ⟨hrule, hn, hB, (hm' h1).1, (hm' h1).2, by omega, fun _ => h2, by omega, by omega⟩
          · split at h
            · split at h
              · rename_i hall
                refine ⟨hrule, hn, hB, (hm' h).1, (hm' h).2, by omega, by omega, fun _ => ?_, by omega⟩
                intro x hx y hy
                have := List.all_eq_true.1 (List.all_eq_true.1 hall x hx) y hy
                simpa using this
              · simp at h
            · split at h
              · obtain ⟨h1, h2⟩ := foldr_head2 h
                exact ⟨hrule, hn, hB, (hm' h1).1, (hm' h1).2, by omega, by omega, by omega, fun _ => h2⟩
              · exact ⟨hrule, hn, hB, (hm' h).1, (hm' h).2, by omega, by omega, by omega, by omega⟩

theorem reachCheck_of {s : Nat} (hs : s < 432) : reachCheck s = true :=
  List.all_eq_true.1 reachChecks s (List.mem_range.2 hs)

theorem red_ok {s t r : Nat} (hs : s < 432) (ht : 0 < t ∧ t < 129) (hr : (reachOf s).testBit t = true) (hd : doomed s t = false)
    (ha : act s t = .ok (.reduce r)) : ∃ lhs rhs B, RedOk s t r lhs rhs B := by
  have h := reachCheck_of hs
  unfold reachCheck at h
  simp only [Bool.and_eq_true, List.all_eq_true] at h
  obtain ⟨⟨h1, h2⟩, _⟩ := h
  have h1 := h1 (t - 1) (List.mem_range.2 (by omega))
  rw [show t - 1 + 1 = t by omega, ha] at h1
  have h2 := h2 r (by simpa using h1)
  exact okMask_ok (sub_testBit h2 (redMask_testBit hr hd ha 129 ht.2))

theorem shift_reach {s t n : Nat} (hs : s < 432) (ht : 0 < t ∧ t < 129) (hr : (reachOf s).testBit t = true)
    (ha : act s t = .ok (.shift n)) : ∀ i, 0 < i ∧ i < 129 → (reachOf n).testBit i = true := by
  have h := reachCheck_of hs
  unfold reachCheck at h
  simp only [Bool.and_eq_true, List.all_eq_true] at h
  have h1 := h.1.1 (t - 1) (List.mem_range.2 (by omega))
  rw [show t - 1 + 1 = t by omega, ha] at h1
  simp only [hr, Bool.not_true, Bool.false_or, beq_iff_eq] at h1
  intro i hi
  rw [h1]
  have : ∀ i, 0 < i → i < 129 → allToks.testBit i = true := by
    have : (List.range 128).all (fun i => allToks.testBit (i + 1)) = true := by decide +kernel
    intro i h1 h2
    have := List.all_eq_true.1 this (i - 1) (List.mem_range.2 (by omega))
    rwa [show i - 1 + 1 = i by omega] at this
  exact this i hi.1 hi.2

theorem doom_ok {s : Nat} (hs : s < 432) (hd : s ∈ doomStates) : act s dotTok = .ok .error ∨ ∃ r lhs rhs B,
    act s dotTok = .ok (.reduce r) ∧ ruleOf r = some (lhs, rhs) ∧ walk (rhs.map symInt).reverse [s] = some B ∧
      ∀ b ∈ B, ∀ g, gotoState lhs b = .ok g → g ∈ doomStates := by
  have h := reachCheck_of hs
  unfold reachCheck at h
  simp only [Bool.and_eq_true] at h
  obtain ⟨_, h⟩ := h
  rw [List.contains_iff_mem.2 hd, Bool.not_true, Bool.false_or] at h
  split at h
  · left; assumption
  · rename_i r ha
    right
    split at h
    · cases h
    · rename_i lhs rhs hrule
      split at h
      · cases h
      · rename_i B hB
        refine ⟨r, lhs, rhs, B, ha, hrule, hB, ?_⟩
        intro b hb g hg
        have := List.all_eq_true.1 h b hb
        rw [hg] at this
        simpa using this
  · cases h

/-- The configurations the machine goes through. -/
def Good (c : Conf) : Prop :=
  (∃ s l, c.states = s :: l ∧ s ∈ doomStates ∧ firstCode 0 c.rest = Tok.DOT) ∨
  (∃ s l, c.states = s :: l ∧ (reachOf s).testBit (codeBit (firstCode 0 c.rest)) = true ∧ PInv c.states c.trees (firstCode 0 c.rest))

theorem astep_next {s : Nat} {l : List Nat} {ts : List Tree} {R : List Token} {c : Conf} (h : astep ⟨s :: l, ts, R⟩ = .next c) :
    (∃ n k p R', act s (tokNo (firstCode 0 R)) = .ok (.shift n) ∧ R = (k, p) :: R' ∧ c = ⟨n :: s :: l, .leaf k p :: ts, R'⟩) ∨
    (∃ r lhs rhs b l' g, act s (tokNo (firstCode 0 R)) = .ok (.reduce r) ∧ ruleOf r = some (lhs, rhs) ∧
      (s :: l).drop rhs.length = b :: l' ∧ gotoState lhs b = .ok g ∧
      c = ⟨g :: b :: l', .node r (ts.take rhs.length).reverse :: ts.drop rhs.length, R⟩) := by
  unfold astep at h
  simp only at h
  split at h
  · rename_i n ha
    split at h
    · cases h
    · rename_i k p R'
      cases h
      exact Or.inl ⟨n, k, p, R', ha, rfl, rfl⟩
  · rename_i r ha
    split at h
    · cases h
    · rename_i lhs rhs hrule
      split at h
      · cases h
      · rename_i b l' hd
        split at h
        · cases h
        · rename_i g hg
          cases h
          exact Or.inr ⟨r, lhs, rhs, b, l', g, ha, hrule, hd, hg, rfl⟩
  · cases h
  · cases h
  · cases h

theorem firstT_oidList : (firstT.get NT.ObjIdComponentsList).testBit 0 = false := by decide +kernel

theorem cls_le (t : Tree) : cls t = 1 → ∃ kids, t = .node 194 kids := by
  intro h1
  cases t with
  | leaf => simp [cls] at h1
  | node r' ks =>
    simp only [cls] at h1
    split at h1
    · split at h1
      · cases h1
      · split at h1 <;> cases h1
    · unfold clsRule at h1
      split at h1
      · rename_i h
        exact ⟨ks, by rw [h]⟩
      · split at h1
        · cases h1
        · split at h1 <;> cases h1

theorem cls_node {r : Nat} {kids : List Tree} : cls (.node r kids) = clsRule r ∨ r = 190 ∧ cls (.node r kids) = 4 ∧
    ∃ k ks, kids = k :: ks ∧ cls k = 1 := by
  simp only [cls]
  split
  · rename_i h
    subst h
    split
    · exact Or.inl rfl
    · rename_i k ks
      split
      · rename_i h
        refine Or.inr ⟨rfl, rfl, k, ks, rfl, ?_⟩
        cases k with
        | leaf => simp [rootRule] at h
        | node r' ks' =>
          simp only [rootRule] at h
          subst h
          simp [cls, clsRule]
      · exact Or.inl rfl
  · exact Or.inl rfl

theorem notBeforeMask_all : ∀ e ∈ notBefore, ∀ c ∈ e.2, (notBeforeMask e.1).testBit (codeBit c) = true := by decide +kernel

/-- The topmost entry. -/
theorem top_entry {e : RawSym} {st : List RawSym} {k : Tree} {ts : List Tree} {done : List Token} {n : Int}
    (hs : Stk (e :: st) (k :: ts) done) (hp : PInv (e.yys :: st.map SymType.yys) (k :: ts) n) :
    ∃ b l X toks done', st = b :: l ∧ b.yys ∈ preds e.yys ∧ (cls k = 0 ∨ (mayMask b.yys e.yys (cls k)).testBit (codeBit n) = true) ∧
      Stk (b :: l) ts done' ∧ PInv (b.yys :: l.map SymType.yys) ts (firstCode n k.tokens) ∧ Almost k n ∧ symOk X ∧
      sym e.yys = symInt X ∧ Derives X toks k := by
  cases hs with
  | cons _ b l _ _ done' toks X h1 h2 h3 h4 h5 h6 h7 =>
    simp only [List.map_cons] at hp
    generalize he : e.yys = a at hp
    generalize hbb : b.yys = bb at hp
    cases hp with
    | cons _ _ _ _ _ _ p1 p2 p3 =>
      subst he hbb
      exact ⟨b, l, X, toks, done', rfl, h3, p3, h1, p1, p2, h4, h5, h6⟩

theorem list_of_length_one {α : Type} {l : List α} (h : l.length = 1) : ∃ a, l = [a] := List.length_eq_one_iff.1 h

theorem length_two {α : Type} {l : List α} (h : l.length = 2) : ∃ a b, l = [a, b] := by
  match l, h with
  | [a, b], _ => exact ⟨a, b, rfl⟩

theorem length_three {α : Type} {l : List α} (h : l.length = 3) : ∃ a b c, l = [a, b, c] := by
  match l, h with
  | [a, b, c], _ => exact ⟨a, b, c, rfl⟩

theorem rule187 : (ruleOf 187).map (·.2.length) = some 3 := by decide +kernel
theorem rule192 : (ruleOf 192).map (·.2.length) = some 1 := by decide +kernel
theorem rule131 : (ruleOf 131).map (·.2.length) = some 2 := by decide +kernel
theorem rule190 : (ruleOf 190).map (·.2) = some [.n NT.ObjIdComponents, .n NT.ObjIdComponentsList] := by decide +kernel

/-- One round of the machine. -/
theorem good_step {st : List RawSym} {ts : List Tree} {done R : List Token} {c : Conf} (hstk : Stk st ts done) (hR : OkToks R)
    (hg : Good (confOf st ts R)) (h : astep (confOf st ts R) = .next c) : Good c := by
  cases st with
  | nil => cases hstk
  | cons e st =>
    have hlt := hstk.lt
    have hcb := codeBit_pos' hR
    have hstep := astep_next (s := e.yys) (l := st.map SymType.yys) h
    by_cases hdoom : e.yys ∈ doomStates ∧ firstCode 0 R = Tok.DOT
    · -- about to fail
      obtain ⟨hd, hdot⟩ := hdoom
      have ht : tokNo (firstCode 0 R) = ((dotTok : Nat) : Int) := by rw [hdot]; decide
      rw [ht] at hstep
      rcases doom_ok hlt hd with ha | ⟨r, lhs, rhs, B, ha, hrule, hB, hgo⟩
      · rw [ha] at hstep
        rcases hstep with ⟨n, k, p, R', h1, _⟩ | ⟨r, lhs, rhs, b, l', g, h1, _⟩ <;> cases h1
      · rw [ha] at hstep
        rcases hstep with ⟨n, k, p, R', h1, _⟩ | ⟨r', lhs', rhs', b, l', g, h1, h2, h3, h4, rfl⟩
        · cases h1
        · cases h1
          rw [hrule] at h2
          cases h2
          left
          refine ⟨g, b :: l', rfl, ?_, hdot⟩
          have hX := ruleOf_symOk hrule
          rw [← List.map_reverse] at hB
          obtain ⟨es, b', l2, kids, ts', done', toks, hp⟩ := walk_pop hB (fun X hx => hX X (by simpa using hx)) (by simp) hstk
          have : (e.yys :: st.map SymType.yys) = es.map SymType.yys ++ b'.yys :: l2.map SymType.yys := by
            have := congrArg (List.map SymType.yys) hp.stack
            simpa using this
          rw [this, List.drop_left' (by simp [hp.len])] at h3
          cases h3
          exact hgo _ hp.mem g h4
    · have hg : (reachOf e.yys).testBit (codeBit (firstCode 0 R)) = true ∧
          PInv (e.yys :: st.map SymType.yys) ts (firstCode 0 R) := by
        rcases hg with ⟨s, l, h1, h2, h3⟩ | ⟨s, l, h1, h2, h3⟩
        · simp only [confOf, List.map_cons, List.cons.injEq] at h1
          obtain ⟨rfl, rfl⟩ := h1
          exact absurd ⟨h2, h3⟩ hdoom
        · simp only [confOf, List.map_cons, List.cons.injEq] at h1
          obtain ⟨rfl, rfl⟩ := h1
          exact ⟨h2, h3⟩
      obtain ⟨hreach, hpinv⟩ := hg
      rw [← hcb.2.2] at hstep
      rcases hstep with ⟨n, k, p, R', h1, rfl, rfl⟩ | ⟨r, lhs, rhs, b, l', g, h1, h2, h3, h4, rfl⟩
      · right
        refine ⟨n, _, rfl, ?_, ?_⟩
        · have hR' : OkToks R' := fun x hx => hR x (by simp [hx])
          have := codeBit_pos' hR'
          exact shift_reach hlt ⟨hcb.1, hcb.2.1⟩ hreach h1 _ ⟨this.1, this.2.1⟩
        · refine .cons _ _ _ _ _ _ ?_ ?_ (Or.inl rfl)
          · simpa [Tree.tokens, firstCode] using hpinv
          · intro p _
            rw [Tree.Preferred]
            trivial
      · right
        have hnd : doomed e.yys (codeBit (firstCode 0 R)) = false := by
          unfold doomed
          rw [Bool.and_eq_false_iff]
          by_cases hd : e.yys ∈ doomStates
          · left
            have hne : firstCode 0 R ≠ Tok.DOT := fun h => hdoom ⟨hd, h⟩
            rw [beq_eq_false_iff_ne]
            intro h
            exact hne (codeBit_inj (by decide) hR h.symm)
          · right
            simpa using hd
        obtain ⟨lhs', rhs', B, hok⟩ := red_ok hlt ⟨hcb.1, hcb.2.1⟩ hreach hnd h1
        have hrr := hok.rule
        rw [h2] at hrr
        cases hrr
        have hX := ruleOf_symOk h2
        have hB := hok.walk
        rw [← List.map_reverse] at hB
        obtain ⟨es, b', l2, kids, ts', done', toks, hp⟩ := walk_pop hB (fun X hx => hX X (by simpa using hx)) (by simp) hstk
        have hst : (e.yys :: st.map SymType.yys) = es.map SymType.yys ++ b'.yys :: l2.map SymType.yys := by
          have := congrArg (List.map SymType.yys) hp.stack
          simpa using this
        have hlen : es.length = rhs.length := by simpa using hp.len
        have hklen : kids.length = rhs.length := by simpa using hp.klen
        rw [hst, List.drop_left' (by simp [hlen])] at h3
        cases h3
        have ht1 : (confOf (e :: st) ts R).trees.take rhs.length = kids := by
          show ts.take rhs.length = kids
          rw [hp.trees, List.take_left' hklen]
        have ht2 : (confOf (e :: st) ts R).trees.drop rhs.length = ts' := by
          show ts.drop rhs.length = ts'
          rw [hp.trees, List.drop_left' hklen]
        have htr : (confOf (e :: st) ts R).trees = ts := rfl
        have hder := hp.der
        rw [List.reverse_reverse] at hder
        obtain ⟨hg1, hg2⟩ := hok.goto _ hp.mem g h4
        have hpinv' := hpinv
        rw [hst, hp.trees] at hpinv'
        obtain ⟨hpop, hkids⟩ := hpinv'.pop (by simp [hlen, hklen])
        have halm : Almost (.node r kids.reverse) (firstCode 0 R) := by
          refine almost_node hkids hok.never ?_ ?_ ?_ ?_
          · intro x hx hxr hmem
            have hnb := hok.notBefore
            subst hxr
            have := notBeforeMask_all x hx _ hmem
            rw [hnb] at this
            cases this
          · rintro rfl k hk h4'
            have hl := rule187
            rw [h2] at hl
            have hl : rhs.length = 3 := by simpa using hl
            rw [hl] at hklen
            obtain ⟨k2, k1, k0, rfl⟩ := length_three hklen
            obtain rfl : k1 = k := by simpa using hk
            have htrees := hp.trees
            simp only [List.cons_append, List.nil_append] at htrees
            rw [htrees] at hstk hpinv
            obtain ⟨x, l3, _, _, _, rfl, hx, _, hstk2, hpinv2, _⟩ := top_entry hstk hpinv
            obtain ⟨y, l4, _, _, _, rfl, hy, hmay, _⟩ := top_entry hstk2 hpinv2
            have := hok.r187 rfl _ hx _ hy
            rw [h4', this] at hmay
            simp at hmay
          · rintro rfl i k hk h2'
            have hl := rule192
            rw [h2] at hl
            have hl : rhs.length = 1 := by simpa using hl
            rw [hl] at hklen
            obtain ⟨k0, rfl⟩ := list_of_length_one hklen
            obtain ⟨_, rfl⟩ : i = 0 ∧ k0 = k := by
              cases i with
              | zero => exact ⟨rfl, by simpa using hk⟩
              | succ i => simp at hk
            have htrees := hp.trees
            simp only [List.cons_append, List.nil_append] at htrees
            rw [htrees] at hstk hpinv
            obtain ⟨x, l3, _, _, _, rfl, hx, hmay, _⟩ := top_entry hstk hpinv
            have := hok.r192 rfl _ hx
            rw [h2', this] at hmay
            simp at hmay
          · rintro rfl k hk h3'
            have hl := rule131
            rw [h2] at hl
            have hl : rhs.length = 2 := by simpa using hl
            rw [hl] at hklen
            obtain ⟨k1, k0, rfl⟩ := length_two hklen
            obtain rfl : k1 = k := by simpa using hk
            have htrees := hp.trees
            simp only [List.cons_append, List.nil_append] at htrees
            rw [htrees] at hstk hpinv
            obtain ⟨x, l3, _, _, _, rfl, hx, hmay, _⟩ := top_entry hstk hpinv
            have := hok.r131 rfl _ hx
            rw [h3', this] at hmay
            simp at hmay
        refine ⟨g, _, rfl, hg1, ?_⟩
        show PInv (g :: b'.yys :: l2.map SymType.yys) (.node r _ :: _) (firstCode 0 R)
        rw [show (ts.take rhs.length) = kids from ht1, show ts.drop rhs.length = ts' from ht2]
        refine .cons _ _ _ _ _ _ ?_ halm ?_
        · rw [Tree.tokens]
          exact hpop
        · rcases cls_node (r := r) (kids := kids.reverse) with hc | ⟨rfl, hc, k, ks, hkk, hk1⟩
          · by_cases h0 : clsRule r = 0
            · exact Or.inl (hc.trans h0)
            · right
              rw [hc]
              exact hg2 h0
          · right
            rw [hc]
            have hl := rule190
            rw [h2] at hl
            have hl : rhs = [.n NT.ObjIdComponents, .n NT.ObjIdComponentsList] := by simpa using hl
            subst hl
            obtain ⟨k1, k0, rfl⟩ := length_two hklen
            simp only [List.reverse_cons, List.reverse_nil, List.nil_append, List.cons_append, List.cons.injEq] at hkk
            obtain ⟨rfl, _⟩ := hkk
            have htrees := hp.trees
            simp only [List.cons_append, List.nil_append] at htrees
            have hd1 : ∃ tk, Derives (.n NT.ObjIdComponentsList) tk k1 := by
              cases hder with
              | cons _ _ _ _ _ _ _ hd =>
                cases hd with
                | cons _ _ _ _ _ _ hd _ => exact ⟨_, hd⟩
            obtain ⟨tk, hd1⟩ := hd1
            rw [htrees] at hstk hpinv
            obtain ⟨x, l3, _, _, _, rfl, hx, _, hstk2, hpinv2, hal, _⟩ := top_entry hstk hpinv
            obtain ⟨y, l4, _, _, _, rfl, hy, hmay, _⟩ := top_entry hstk2 hpinv2
            have hyb : y.yys = b'.yys := by
              have h5 : es.length = 2 := hlen
              obtain ⟨e1, e2, rfl⟩ := length_two h5
              simp at hst
              exact hst.2.2.1
            rcases hok.r190 rfl _ hx _ hy with h0 | h0
            · exfalso
              have hsw := derives_starts hd1 trivial (hal .other ⟨by simp, by simp, by simp, by simp⟩)
              rw [← derives_tokens hd1] at hsw
              cases htk : k1.tokens with
              | nil =>
                rw [htk] at hsw
                obtain ⟨A, hA, h6⟩ := hsw
                cases hA
                rw [firstT_oidList] at h6
                cases h6
              | cons z zs =>
                rw [htk] at hsw hmay
                obtain ⟨_, h6⟩ := hsw
                rcases h6 with h6 | ⟨A, hA, h6⟩
                · cases h6
                · cases hA
                  rcases hmay with hmay | hmay
                  · rw [hk1] at hmay; cases hmay
                  · rw [hk1] at hmay
                    have := congrArg (fun m => m.testBit (codeBit z.1)) h0
                    simp only [Nat.testBit_and, Nat.zero_testBit] at this
                    have hz : firstCode (firstCode 0 R) (z :: zs) = z.1 := rfl
                    rw [hz] at hmay
                    rw [hmay, h6] at this
                    cases this
            · rw [hyb] at h0
              exact h0 g h4

theorem doom_accept {s : Nat} (hs : s < 432) (hd : s ∈ doomStates) : act s dotTok ≠ .ok .accept := by
  rcases doom_ok hs hd with h | ⟨_, _, _, _, h, _⟩ <;> rw [h] <;> simp

theorem okToks_of_tokens {u : Unicode} {text : Str} {toks : List Token} (h : Tokens u false text toks) : OkToks toks := by
  intro x hx
  obtain ⟨_, _, _, h⟩ := tokens_mem h x hx
  exact h.code_range

theorem good_run {u : Unicode} {text : Str} {t : Tree} {ss : List Nat} {c : Conf}
    (h : Reach c ⟨ss, [t], []⟩) (ha : astep ⟨ss, [t], []⟩ = .accept) :
    ∀ {s : PState} {st : List RawSym} {done : List Token}, AInv u text s st c.trees done c.rest → confOf st c.trees c.rest = c →
      Good c → t.IsPreferred := by
  induction h using Relation.ReflTransGen.head_induction_on with
  | refl =>
    intro s st done hA hc hg
    rcases hg with ⟨s, l, _, _, h3⟩ | ⟨s, l, _, _, h3⟩
    · have : (0 : Int) = Tok.DOT := h3
      exact absurd this (by decide)
    · simp only at h3
      cases h3 with
      | cons _ _ _ _ _ _ p1 p2 p3 => exact p2 .other ⟨by simp, by simp, by simp, by simp⟩
  | head h1 _ ih =>
    intro s st done hA hc hg
    have hs := sim_step hA
    have hok := okToks_of_tokens hA.tokens
    have hg2 := good_step hA.inv.stk (R := _) (fun x hx => hok x (List.mem_append_right _ hx)) (by rw [hc]; exact hg) (by rw [hc]; exact h1)
    rw [hc, h1] at hs
    generalize hx : step u s = x at hs
    generalize hy : AOut.next _ = y at hs
    cases hs with
    | next s' st' ts' done' R' hA' =>
      cases hy
      exact ih hA' rfl hg2
    | accept => cases hy
    | error => cases hy

theorem reach0 : reachOf 0 = allToks := by decide +kernel

/-- The tree of an accepted text is the preferred one. -/
theorem preferred_of_accepts {u : Unicode} {text : Str} {toks : List Token} {t : Tree} (ht : Tokens u false text toks)
    (h : Accepts toks t) : t.IsPreferred := by
  obtain ⟨ss, hr, ha⟩ := h
  obtain ⟨st, hA, hc⟩ := init_ainv ht
  refine good_run hr ha hA hc (Or.inr ⟨0, [], rfl, ?_, .base _⟩)
  rw [reach0]
  have := codeBit_pos' (okToks_of_tokens ht)
  have h2 : ∀ i, 0 < i → i < 129 → allToks.testBit i = true := by
    have : (List.range 128).all (fun i => allToks.testBit (i + 1)) = true := by decide +kernel
    intro i h1 h2
    have := List.all_eq_true.1 this (i - 1) (List.mem_range.2 (by omega))
    rwa [show i - 1 + 1 = i by omega] at this
  exact h2 _ this.1 this.2.1

end Asn1go.LR
