import Verif.Proofs.LR.ItemCheck

/-! Completeness: preferred derivation trees are found by the machine. -/

namespace Asn1go.LR

open Asn1go Spec

theorem sub_testBit {a b i : Nat} (h : sub a b = true) (ha : a.testBit i = true) : b.testBit i = true := by
  have h : a &&& b = a := by simpa [sub] using h
  have := Nat.testBit_and a b i
  rw [h, ha] at this
  simpa using this.symm

theorem sub_trans {a b c : Nat} (h : sub a b = true) (h' : sub b c = true) : sub a c = true := by
  have : a &&& c = a := by
    apply Nat.eq_of_testBit_eq
    intro i
    rw [Nat.testBit_and]
    cases hi : a.testBit i with
    | false => rfl
    | true => rw [sub_testBit h' (sub_testBit h hi)]; rfl
  simpa [sub] using this

theorem hasItem_iff {s r d mask : Nat} {p : Place} : hasItem s r p d mask = true ↔
    s < 432 ∧ ∃ i ∈ itemsOf s, i.rule = r ∧ i.place = p ∧ i.dot = d ∧ sub mask i.mask = true := by
  simp [hasItem, and_assoc]

theorem hasItem_mono {s r d m m' : Nat} {p : Place} (h : hasItem s r p d m' = true) (hs : sub m m' = true) : hasItem s r p d m = true := by
  rw [hasItem_iff] at h ⊢
  obtain ⟨h0, i, h1, h2, h3, h4, h5⟩ := h
  exact ⟨h0, i, h1, h2, h3, h4, sub_trans hs h5⟩

theorem checkItem_of {s : Nat} (hs : s < 432) {i : Item} (hi : i ∈ itemsOf s) : checkItem s i = true :=
  List.all_eq_true.1 (List.all_eq_true.1 checkItems s (List.mem_range.2 hs)) i hi

theorem rule_range {r lhs : Nat} {rhs : List Sym} (hr : 1 ≤ r) (h : ruleOf r = some (lhs, rhs)) : checkRule r = true := by
  have h1 := ruleOf_le h
  have := List.all_eq_true.1 checkRules (r - 1) (List.mem_range.2 (by omega))
  rw [show r - 1 + 1 = r by omega] at this
  exact this

/-- The facts checked about a rule. -/
theorem rule_facts {r lhs : Nat} {rhs : List Sym} (hr : 1 ≤ r) (h : ruleOf r = some (lhs, rhs)) :
    r ∈ rulesOfT.get lhs ∧ (r ∈ neverUsed ∨ sub (firstSeq rhs 1) (firstT.get lhs) = true) ∧
      ∀ c, Sym.t c ∈ rhs → 57346 ≤ c ∧ c ≤ 57470 := by
  have := rule_range hr h
  unfold checkRule at this
  rw [h] at this
  simp only [Bool.and_eq_true, Bool.or_eq_true, List.contains_iff_mem, List.all_eq_true] at this
  refine ⟨this.1.1, this.1.2, fun c hc => ?_⟩
  have := this.2 _ hc
  simpa using this

/-- Codes of tokens the lexer delivers. -/
def OkToks (l : List Token) : Prop := ∀ x ∈ l, 57346 ≤ x.1 ∧ x.1 ≤ 57470

theorem okToks_nil : OkToks [] := fun x hx => by simp at hx

/-- Symbols whose tokens are delivered by the lexer. -/
def OkSym : Sym → Prop
  | .t c => 57346 ≤ c ∧ c ≤ 57470
  | .n _ => True

theorem rule_okSym {r lhs : Nat} {rhs : List Sym} (hr : 1 ≤ r) (h : ruleOf r = some (lhs, rhs)) : ∀ X ∈ rhs, OkSym X := by
  intro X hX
  cases X with
  | t c => exact (rule_facts hr h).2.2 c hX
  | n A => trivial

mutual

theorem derives_okToks : ∀ {X : Sym} {toks : List Token} {t : Tree}, Derives X toks t → OkSym X → OkToks toks
  | _, _, _, .leaf code p, h => by
    intro x hx
    simp at hx
    subst hx
    exact h
  | _, _, _, .node r lhs rhs toks kids hr hrule hk, _ => derivesList_okToks hk (rule_okSym hr hrule)

theorem derivesList_okToks : ∀ {l : List Sym} {toks : List Token} {ts : List Tree}, DerivesList l toks ts → (∀ X ∈ l, OkSym X) →
    OkToks toks
  | _, _, _, .nil, _ => by intro x hx; simp at hx
  | _, _, _, .cons X l a b t ts h1 h2, h => by
    intro x hx
    rcases List.mem_append.1 hx with hx | hx
    · exact derives_okToks h1 (h X (by simp)) x hx
    · exact derivesList_okToks h2 (fun X hX => h X (by simp [hX])) x hx

end

mutual

theorem derives_tokens : ∀ {X : Sym} {toks : List Token} {t : Tree}, Derives X toks t → t.tokens = toks
  | _, _, _, .leaf code p => by simp [Tree.tokens]
  | _, _, _, .node r lhs rhs toks kids _ _ hk => by rw [Tree.tokens]; exact derivesList_tokens hk

theorem derivesList_tokens : ∀ {l : List Sym} {toks : List Token} {ts : List Tree}, DerivesList l toks ts → Tree.tokensList ts = toks
  | _, _, _, .nil => by simp [Tree.tokensList]
  | _, _, _, .cons X l a b t ts h1 h2 => by rw [Tree.tokensList, derives_tokens h1, derivesList_tokens h2]

end

theorem codeBit_pos {c : Int} (h : 57346 ≤ c) : 0 < codeBit c := by
  unfold codeBit tokNo
  rw [if_neg (by omega)]
  omega

theorem xor_one_testBit {f i : Nat} (hi : 0 < i) : (f ^^^ 1).testBit i = f.testBit i := by
  have : Nat.testBit 1 i = false := by
    rw [show (1 : Nat) = 2 ^ 0 from rfl, Nat.testBit_two_pow]
    simp
    omega
  rw [Nat.testBit_xor, this, Bool.xor_false]

theorem firstSeq_mono {a b : Nat} (h : sub a b = true) : ∀ (l : List Sym) {i : Nat}, (firstSeq l a).testBit i = true →
    (firstSeq l b).testBit i = true
  | [], i, hi => sub_testBit h hi
  | .t c :: l, i, hi => hi
  | .n A :: l, i, hi => by
    unfold firstSeq at hi ⊢
    simp only at hi ⊢
    split
    · rename_i h0
      rw [if_pos h0] at hi
      rw [Nat.testBit_or, Bool.or_eq_true] at hi ⊢
      exact hi.imp id (firstSeq_mono h l)
    · rename_i h0
      rw [if_neg h0] at hi
      exact hi

/-- What a symbol starts with. -/
def StartsWith (X : Sym) : List Token → Prop
  | [] => ∃ A, X = .n A ∧ (firstT.get A).testBit 0 = true
  | x :: _ => 57346 ≤ x.1 ∧ (X = .t x.1 ∨ ∃ A, X = .n A ∧ (firstT.get A).testBit (codeBit x.1) = true)

/-- What a list of symbols starts with. -/
def StartsList (l : List Sym) : List Token → Prop
  | [] => ∀ mask i, 0 < i ∨ mask = 1 → mask.testBit i = true → (firstSeq l mask).testBit i = true
  | x :: _ => 57346 ≤ x.1 ∧ ∀ mask, (firstSeq l mask).testBit (codeBit x.1) = true

theorem startsList_cons {X : Sym} {l : List Sym} {a b : List Token} (h : StartsWith X a) (h' : StartsList l b) :
    StartsList (X :: l) (a ++ b) := by
  cases a with
  | nil =>
    obtain ⟨A, rfl, h0⟩ := h
    cases b with
    | nil =>
      intro mask i hi hm
      unfold firstSeq
      simp only [h0, if_true]
      rw [Nat.testBit_or, Bool.or_eq_true]
      exact Or.inr (h' mask i hi hm)
    | cons x b =>
      refine ⟨h'.1, fun mask => ?_⟩
      unfold firstSeq
      simp only [h0, if_true]
      rw [Nat.testBit_or, Bool.or_eq_true]
      exact Or.inr (h'.2 mask)
  | cons x a =>
    refine ⟨h.1, fun mask => ?_⟩
    rcases h.2 with rfl | ⟨A, rfl, h0⟩
    · simp [firstSeq, Nat.testBit_two_pow]
    · unfold firstSeq
      simp only
      split
      · rw [Nat.testBit_or, Bool.or_eq_true, xor_one_testBit (codeBit_pos h.1)]
        exact Or.inl h0
      · exact h0

mutual

theorem derives_starts : ∀ {X : Sym} {toks : List Token} {t : Tree} {p : Place} {next : Int}, Derives X toks t → OkSym X →
    t.Preferred p next → StartsWith X toks
  | _, _, _, _, _, .leaf code p, h, _ => ⟨h.1, Or.inl rfl⟩
  | _, _, _, _, _, .node r lhs rhs toks kids hr hrule hk, _, hp => by
    rw [Tree.Preferred] at hp
    have := derivesList_starts hk (rule_okSym hr hrule) hp.2
    have hf := (rule_facts hr hrule).2.1.resolve_left hp.1.1
    cases toks with
    | nil => exact ⟨lhs, rfl, sub_testBit hf (this 1 0 (Or.inr rfl) (by decide))⟩
    | cons x l => exact ⟨this.1, Or.inr ⟨lhs, rfl, sub_testBit hf (this.2 1)⟩⟩

theorem derivesList_starts : ∀ {l : List Sym} {toks : List Token} {ts : List Tree} {r : Nat} {p : Place} {next : Int} {i : Nat},
    DerivesList l toks ts → (∀ X ∈ l, OkSym X) → Tree.PreferredList r p next i ts → StartsList l toks
  | _, _, _, _, _, _, _, .nil, _, _ => fun mask i _ h => h
  | _, _, _, _, _, _, _, .cons X l a b t ts h1 h2, h, hp => by
    rw [Tree.PreferredList] at hp
    exact startsList_cons (derives_starts h1 (h X (by simp)) hp.1)
      (derivesList_starts h2 (fun X hX => h X (by simp [hX])) hp.2)

end

theorem codeBit_pos' {R : List Token} (h : OkToks R) : 0 < codeBit (firstCode 0 R) ∧ codeBit (firstCode 0 R) < 129 ∧
    ((codeBit (firstCode 0 R) : Nat) : Int) = tokNo (firstCode 0 R) := by
  cases R with
  | nil => exact ⟨by decide, by decide, by decide⟩
  | cons x R =>
    have := h x (by simp)
    show 0 < codeBit x.1 ∧ codeBit x.1 < 129 ∧ ((codeBit x.1 : Nat) : Int) = tokNo x.1
    unfold codeBit tokNo
    rw [if_neg (by omega)]
    omega

theorem firstCode_append (a R : List Token) : firstCode 0 (a ++ R) = firstCode (firstCode 0 R) a := by
  cases a <;> rfl

theorem startsList_first {l : List Sym} {toks R : List Token} (h : StartsList l toks) (hR : OkToks R) {mask : Nat}
    (hm : mask.testBit (codeBit (firstCode 0 R)) = true) : (firstSeq l mask).testBit (codeBit (firstCode 0 (toks ++ R))) = true := by
  cases toks with
  | nil => exact h mask _ (Or.inl (codeBit_pos' hR).1) hm
  | cons x l => exact h.2 mask

theorem foldr_or_testBit (l : List Int) : ∀ {m i : Nat}, (l.foldr (fun c m => m ||| 2 ^ codeBit c) m).testBit i = true →
    m.testBit i = true ∨ ∃ c ∈ l, codeBit c = i := by
  induction l with
  | nil => intro m i h; exact Or.inl h
  | cons a l ih =>
    intro m i h
    simp only [List.foldr_cons, Nat.testBit_or, Bool.or_eq_true, Nat.testBit_two_pow, decide_eq_true_eq] at h
    rcases h with h | h
    · rcases ih h with h | ⟨c, hc, h⟩
      · exact Or.inl h
      · exact Or.inr ⟨c, by simp [hc], h⟩
    · exact Or.inr ⟨a, by simp, h⟩

theorem notBeforeMask_mem {r i : Nat} (h : (notBeforeMask r).testBit i = true) : ∃ e ∈ notBefore, e.1 = r ∧ ∃ c ∈ e.2, codeBit c = i := by
  unfold notBeforeMask at h
  generalize notBefore = l at h
  induction l with
  | nil => simp at h
  | cons e l ih =>
    simp only [List.foldr_cons] at h
    split at h
    · rename_i he
      rcases foldr_or_testBit _ h with h | ⟨c, hc, h⟩
      · obtain ⟨e', h1, h2⟩ := ih h
        exact ⟨e', by simp [h1], h2⟩
      · exact ⟨e, by simp, by simpa using he, c, hc, h⟩
    · obtain ⟨e', h1, h2⟩ := ih h
      exact ⟨e', by simp [h1], h2⟩

theorem notBefore_codes : ∀ e ∈ notBefore, ∀ c ∈ e.2, 57346 ≤ c := by decide

theorem codeBit_inj {c : Int} (hc : 57346 ≤ c) {R : List Token} (hR : OkToks R) (h : codeBit c = codeBit (firstCode 0 R)) :
    firstCode 0 R = c := by
  cases R with
  | nil =>
    have h2 : codeBit (firstCode 0 []) = 1 := by decide
    rw [h2] at h
    unfold codeBit tokNo at h
    rw [if_neg (by omega)] at h
    omega
  | cons x R =>
    have := hR x (by simp)
    have h : codeBit c = codeBit x.1 := h
    show x.1 = c
    unfold codeBit tokNo at h
    rw [if_neg (by omega), if_neg (by omega)] at h
    omega

theorem derivesList_length : ∀ {β : List Sym} {toks : List Token} {kids : List Tree}, DerivesList β toks kids → β.length = kids.length
  | _, _, _, .nil => rfl
  | _, _, _, .cons _ _ _ _ _ _ _ h => by simp [derivesList_length h]

/-- Reducing a complete item. -/
theorem reduce_step {r A sk s g mask : Nat} {rhs : List Sym} {kids ts : List Tree} {pre ss : List Nat} {pl : Place} {R : List Token}
    (hrule : ruleOf r = some (A, rhs)) (hklen : rhs.length = kids.length) (hik : hasItem sk r pl rhs.length mask = true)
    (hR : OkToks R) (hbit : mask.testBit (codeBit (firstCode 0 R)) = true) (hlen : pre.length = kids.length)
    (hhead : (pre ++ s :: ss).head? = some sk) (hgo : gotoState A s = .ok g) :
    astep ⟨pre ++ s :: ss, kids.reverse ++ ts, R⟩ = .next ⟨g :: s :: ss, .node r kids :: ts, R⟩ := by
  obtain ⟨hsk, j, hj, hj1, hj2, hj3, hj4⟩ := hasItem_iff.1 hik
  have hcj := checkItem_of hsk hj
  unfold checkItem at hcj
  rw [hj1, hrule] at hcj
  simp only [Bool.and_eq_true] at hcj
  rw [hj3, List.drop_length] at hcj
  obtain ⟨_, hcj⟩ := hcj
  simp only [List.all_eq_true] at hcj
  have hb := codeBit_pos' hR
  have hact := hcj (codeBit (firstCode 0 R)) (List.mem_range.2 hb.2.1)
  rw [sub_testBit hj4 hbit, hb.2.2] at hact
  simp only [Bool.not_true, Bool.false_or] at hact
  obtain ⟨l0, hl0⟩ : ∃ l0, pre ++ s :: ss = sk :: l0 := by
    cases pre with
    | nil => simp at hhead; exact ⟨ss, by rw [hhead]; rfl⟩
    | cons a pre => simp at hhead; exact ⟨pre ++ s :: ss, by rw [hhead]; rfl⟩
  unfold astep
  simp only
  rw [hl0]
  simp only
  split at hact
  · rename_i r' hact'
    have : r' = r := by simpa using hact
    subst this
    rw [hact']
    simp only
    rw [hrule]
    simp only
    rw [← hl0, List.drop_left' (by omega)]
    simp only
    rw [hgo]
    simp only
    rw [List.take_left' (by simp [hklen]), List.drop_left' (by simp [hklen]), List.reverse_reverse]
  · cases hact

mutual

theorem tree_run : ∀ {X : Sym} {toks : List Token} {t : Tree}, Derives X toks t →
    ∀ {s : Nat} {ss : List Nat} {ts : List Tree} {R : List Token} {r d L lhs : Nat} {pl : Place} {rhs : List Sym},
    ruleOf r = some (lhs, rhs) → rhs[d]? = some X → hasItem s r pl d L = true → OkToks R →
    (firstSeq (rhs.drop (d + 1)) L).testBit (codeBit (firstCode 0 R)) = true → t.Preferred (pl.child r d) (firstCode 0 R) →
    ∃ s2, Reach ⟨s :: ss, ts, toks ++ R⟩ ⟨s2 :: s :: ss, t :: ts, R⟩ ∧ hasItem s2 r pl (d + 1) L = true
  | _, _, _, .leaf code p, s, ss, ts, R, r, d, L, lhs, pl, rhs, hrule, hX, hit, hR, hf, hp => by
    obtain ⟨hs, i, hi, rfl, rfl, rfl, hsub⟩ := hasItem_iff.1 hit
    have hc := checkItem_of hs hi
    unfold checkItem at hc
    rw [hrule] at hc
    simp only [Bool.and_eq_true] at hc
    have hdrop : rhs.drop i.dot = .t code :: rhs.drop (i.dot + 1) := by
      obtain ⟨h1, h2⟩ := List.getElem?_eq_some_iff.1 hX
      rw [List.drop_eq_getElem_cons h1, h2]
    rw [hdrop] at hc
    obtain ⟨_, hc⟩ := hc
    simp only at hc
    split at hc
    · rename_i n hact
      refine ⟨n, .single ?_, hasItem_mono hc hsub⟩
      unfold astep
      simp only [List.singleton_append, firstCode]
      rw [hact]
    · cases hc
  | _, _, _, .node r2 A rhs2 toks kids hr2 hrule2 hk, s, ss, ts, R, r, d, L, lhs, pl, rhs, hrule, hX, hit, hR, hf, hp => by
    obtain ⟨hs, i, hi, rfl, rfl, rfl, hsub⟩ := hasItem_iff.1 hit
    have hc := checkItem_of hs hi
    unfold checkItem at hc
    rw [hrule] at hc
    simp only [Bool.and_eq_true] at hc
    have hdrop : rhs.drop i.dot = .n A :: rhs.drop (i.dot + 1) := by
      obtain ⟨h1, h2⟩ := List.getElem?_eq_some_iff.1 hX
      rw [List.drop_eq_getElem_cons h1, h2]
    rw [hdrop] at hc
    obtain ⟨_, hc⟩ := hc
    simp only [Bool.and_eq_true, List.all_eq_true] at hc
    obtain ⟨hg, hcl⟩ := hc
    rw [Tree.Preferred] at hp
    obtain ⟨⟨ha1, ha2, ha3⟩, hkids⟩ := hp
    have hrule2 : ruleOf r2 = some (A, rhs2) := hrule2
    split at hg
    · rename_i g hgo
      have hc2 := hcl r2 (rule_facts hr2 hrule2).1
      have hex : excluded r2 (i.place.child i.rule i.dot) = false := by
        unfold excluded
        simp only [Bool.or_eq_false_iff]
        exact ⟨by simpa using ha1, by simpa using ha2⟩
      rw [hex, Bool.false_or] at hc2
      have hbit : (firstSeq (rhs.drop (i.dot + 1)) i.mask ^^^ (firstSeq (rhs.drop (i.dot + 1)) i.mask &&& notBeforeMask r2)).testBit
          (codeBit (firstCode 0 R)) = true := by
        rw [Nat.testBit_xor, Nat.testBit_and, firstSeq_mono hsub _ hf]
        cases hb : (notBeforeMask r2).testBit (codeBit (firstCode 0 R)) with
        | false => rfl
        | true =>
          obtain ⟨e, h1, h2, c, h3, h4⟩ := notBeforeMask_mem hb
          have := codeBit_inj (notBefore_codes e h1 c h3) hR h4
          exact absurd (this ▸ h3) (ha3 e h1 h2)
      have hit2 : hasItem s r2 (i.place.child i.rule i.dot) 0 (firstSeq (rhs.drop (i.dot + 1)) i.mask ^^^
          (firstSeq (rhs.drop (i.dot + 1)) i.mask &&& notBeforeMask r2)) = true := by
        rcases Bool.or_eq_true _ _ ▸ hc2 with h0 | h0
        · rw [beq_iff_eq] at h0
          rw [h0] at hbit
          simp at hbit
        · exact h0
      obtain ⟨pre, sk, hlen, hhead, hik, hreach⟩ := list_run hk (s := s) (ss := ss) (ts := ts) (R := R) hrule2 hr2 (d := 0) rfl hit2 hR hbit
        (by simpa using hkids)
      refine ⟨g, ?_, hasItem_mono hg hsub⟩
      exact Relation.ReflTransGen.tail hreach (reduce_step hrule2 (derivesList_length hk) hik hR hbit hlen hhead hgo)
    · cases hg

theorem list_run : ∀ {β : List Sym} {toks : List Token} {kids : List Tree}, DerivesList β toks kids →
    ∀ {s : Nat} {ss : List Nat} {ts : List Tree} {R : List Token} {r d L lhs : Nat} {pl : Place} {rhs : List Sym},
    ruleOf r = some (lhs, rhs) → 1 ≤ r → rhs.drop d = β → hasItem s r pl d L = true → OkToks R →
    L.testBit (codeBit (firstCode 0 R)) = true → Tree.PreferredList r pl (firstCode 0 R) d kids →
    ∃ pre sk, pre.length = kids.length ∧ (pre ++ s :: ss).head? = some sk ∧ hasItem sk r pl rhs.length L = true ∧
      Reach ⟨s :: ss, ts, toks ++ R⟩ ⟨pre ++ s :: ss, kids.reverse ++ ts, R⟩
  | _, _, _, .nil, s, ss, ts, R, r, d, L, lhs, pl, rhs, hrule, hr, hd, hit, hR, hL, hp => by
    refine ⟨[], s, rfl, rfl, ?_, .refl⟩
    obtain ⟨hs, i, hi, rfl, rfl, rfl, hsub⟩ := hasItem_iff.1 hit
    have hc := checkItem_of hs hi
    unfold checkItem at hc
    rw [hrule] at hc
    simp only [Bool.and_eq_true, decide_eq_true_eq] at hc
    have := List.drop_eq_nil_iff.1 hd
    rw [show rhs.length = i.dot by omega]
    exact hit
  | _, _, _, .cons X l a b t kids h1 h2, s, ss, ts, R, r, d, L, lhs, pl, rhs, hrule, hr, hd, hit, hR, hL, hp => by
    rw [Tree.PreferredList] at hp
    have hX : rhs[d]? = some X := by
      have := congrArg List.head? hd
      simpa using this
    have hd' : rhs.drop (d + 1) = l := by
      rw [← List.drop_drop, hd]
      rfl
    have hok : ∀ X ∈ l, OkSym X := by
      intro Y hY
      exact rule_okSym hr hrule Y (List.mem_of_mem_drop (hd' ▸ hY))
    have hR' : OkToks (b ++ R) := by
      intro x hx
      rcases List.mem_append.1 hx with hx | hx
      · exact derivesList_okToks h2 hok x hx
      · exact hR x hx
    have hfc : firstCode (firstCode 0 R) (Tree.tokensList kids) = firstCode 0 (b ++ R) := by
      rw [derivesList_tokens h2, firstCode_append]
    obtain ⟨s2, hreach, hit2⟩ := tree_run h1 (ss := ss) (ts := ts) hrule hX hit hR'
      (by rw [hd']; exact startsList_first (derivesList_starts h2 hok hp.2) hR hL) (hfc ▸ hp.1)
    obtain ⟨pre, sk, hlen, hhead, hik, hreach2⟩ := list_run h2 (ss := s :: ss) (ts := t :: ts) hrule hr hd' hit2 hR hL hp.2
    refine ⟨pre ++ [s2], sk, by simp [hlen], by simpa using hhead, hik, ?_⟩
    have : Reach _ _ := hreach.trans hreach2
    simp only [List.append_assoc, List.singleton_append, List.reverse_cons]
    exact this

end

/-- Preferred trees are found. -/
theorem accepts_of_preferred {toks : List Token} {t : Tree} (h : Derives (.n NT.ModuleDefinition) toks t) (hp : t.IsPreferred) :
    Accepts toks t := by
  obtain ⟨kids, rfl, hk⟩ := inv_ModuleDefinition h
  unfold Tree.IsPreferred at hp
  rw [Tree.Preferred] at hp
  obtain ⟨pre, sk, hlen, hhead, hik, hreach⟩ := list_run hk (s := 0) (ss := []) (ts := []) (R := []) (r := 1) (d := 0)
    rfl (Nat.le_refl 1) rfl checkStart okToks_nil (by decide) hp.2
  have hred := reduce_step (ts := []) rfl (derivesList_length hk) hik okToks_nil (by decide) hlen hhead checkAccept.1
  refine ⟨[1, 0], ?_, ?_⟩
  · have := Relation.ReflTransGen.tail hreach hred
    rw [List.append_nil] at this
    exact this
  · unfold astep
    simp only
    rw [show tokNo (firstCode 0 []) = 1 by decide, checkAccept.2]

end Asn1go.LR
