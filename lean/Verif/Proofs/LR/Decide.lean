import Verif.Proofs.LR.Check
import Verif.Proofs.Lex6

/-! What the parser can decide in a round, from the table check. -/

namespace Asn1go.LR

open Asn1go Spec

theorem bind_ok {ε α β : Type} {x : Except ε α} {f : α → Except ε β} {b : β} :
    (x >>= f) = .ok b ↔ ∃ a, x = .ok a ∧ f a = .ok b := by
  cases x with
  | error e => simp [bind, Except.bind]
  | ok a => simp [bind, Except.bind]

theorem ok_bind {ε α β : Type} (a : α) (f : α → Except ε β) : ((Except.ok a : Except ε α) >>= f) = f a := rfl

theorem error_bind {ε α β : Type} (e : ε) (f : α → Except ε β) : ((Except.error e : Except ε α) >>= f) = .error e := rfl

theorem checkState_of {s : Nat} (h : s < 432) : checkState s = true :=
  List.all_eq_true.1 checkStates s (List.mem_range.2 h)

/-- Shifts are along edges of the automaton. -/
structure ShiftOk (s st : Nat) (t : Int) : Prop where
  lt : st < 432
  sym : sym st = t
  pred : s ∈ preds st
  token : 4 ≤ t
  ne : st ≠ 1

/-- Reductions find their right-hand side on the stack. -/
structure ReduceOk (s r lhs : Nat) (rhs : List Sym) (B : List Nat) : Prop where
  rule : ruleOf r = some (lhs, rhs)
  pos : 1 ≤ r
  isLhs : Tab.yyR1.at r = .ok (lhs : Int)
  len : Tab.yyR2.at r = .ok (rhs.length : Int)
  walk : walk (rhs.map symInt).reverse [s] = some B
  goto : ∀ b ∈ B, ∃ g, gotoState lhs b = .ok g ∧ g < 432 ∧ sym g = -(lhs : Int) ∧ b ∈ preds g ∧
    weight (-(lhs : Int)) + rank g + 1 ≤ ((rhs.map symInt).map weight).sum + rank s ∧ (g = 1 → r = 1)

theorem shiftOk {s : Nat} (hs : s < 432) {t : Int} (h1 : 1 ≤ t) (h2 : t ≤ 128) :
    ∃ o, shiftOf s t = .ok o ∧ ∀ st, o = some st → ShiftOk s st t := by
  have h := checkState_of hs
  simp only [checkState, Bool.and_eq_true] at h
  obtain ⟨⟨⟨h, _⟩, _⟩, _⟩ := h
  have := List.all_eq_true.1 h (t - 1).toNat (List.mem_range.2 (by omega))
  have e : ((t - 1).toNat : Int) + 1 = t := by omega
  rw [e] at this
  split at this
  · cases this
  · exact ⟨_, by assumption, by simp⟩
  · rename_i st hst
    refine ⟨_, hst, ?_⟩
    rintro _ ⟨⟩
    simp only [Bool.and_eq_true, decide_eq_true_eq, beq_iff_eq, bne_iff_ne, List.contains_iff_mem] at this
    exact ⟨this.1.1.1.1.2, this.1.1.1.2, this.1.1.2, by omega, this.2⟩

theorem reduceOk {s : Nat} (hs : s < 432) :
    ∃ l, defaultsOf s = .ok l ∧ ∀ n ∈ l, (n < 0 → s = 1) ∧
      (0 < n → ∃ lhs rhs B, ReduceOk s n.toNat lhs rhs B) := by
  have h := checkState_of hs
  simp only [checkState, Bool.and_eq_true] at h
  obtain ⟨⟨⟨_, h⟩, _⟩, _⟩ := h
  split at h
  · cases h
  · rename_i l hl
    refine ⟨l, hl, ?_⟩
    intro n hn
    have := List.all_eq_true.1 h n hn
    refine ⟨fun h => by rw [if_pos h] at this; exact by simpa using this, fun h => ?_⟩
    rw [if_neg (by omega), if_neg (by omega)] at this
    unfold checkReduce at this
    split at this
    · rename_i lhs rhs nt k h1 h2 h3
      simp only [Bool.and_eq_true, decide_eq_true_eq, beq_iff_eq] at this
      obtain ⟨⟨⟨⟨a1, rfl⟩, rfl⟩, a4⟩, a5⟩ := this
      split at a5
      · cases a5
      · rename_i B hB
        refine ⟨lhs, rhs, B, h1, a1, h2, h3, hB, ?_⟩
        intro b hb
        have := List.all_eq_true.1 a5 b hb
        split at this
        · cases this
        · rename_i g hg
          simp only [Bool.and_eq_true, Bool.or_eq_true, decide_eq_true_eq, beq_iff_eq, bne_iff_ne, ne_eq,
            List.contains_iff_mem] at this
          obtain ⟨⟨⟨⟨⟨_, b1⟩, b2⟩, b3⟩, b4⟩, b5⟩ := this
          exact ⟨g, hg, b1, b2, b3, b4, fun hg => b5.resolve_left (fun h => h hg)⟩
    · cases this

theorem noErrorShift {s : Nat} (hs : s < 432) : ∃ n, Tab.yyPact.at s = .ok n ∧
    (0 ≤ n + yyErrCode ∧ n + yyErrCode < yyLast → ∃ a c, Tab.yyAct.at (n + yyErrCode) = .ok a ∧ Tab.yyChk.at a = .ok c ∧
      c ≠ yyErrCode) := by
  have h := checkState_of hs
  simp only [checkState, Bool.and_eq_true] at h
  obtain ⟨⟨_, h⟩, _⟩ := h
  split at h
  · cases h
  · rename_i n hn
    refine ⟨n, hn, fun hc => ?_⟩
    rw [if_pos hc] at h
    split at h
    · cases h
    · rename_i a ha
      split at h
      · cases h
      · rename_i c hc
        exact ⟨a, c, ha, hc, by simpa using h⟩

theorem rank_le {s : Nat} (hs : s < 432) : rank s ≤ 16 := by
  have h := checkState_of hs
  simp only [checkState, Bool.and_eq_true, decide_eq_true_eq] at h
  exact h.2

/-- Entries of `yyDef` are -2 or not negative. -/
theorem yyDef_range : (List.range 432).all (fun s => match Tab.yyDef.at s with
    | .ok n => n == -2 || decide (0 ≤ n)
    | .error _ => false) = true := by decide +kernel

theorem yyDef_ok {s : Nat} (hs : s < 432) : ∃ n, Tab.yyDef.at s = .ok n ∧ (n = -2 ∨ 0 ≤ n) := by
  have := List.all_eq_true.1 yyDef_range s (List.mem_range.2 hs)
  split at this
  · rename_i n hn
    exact ⟨n, hn, by simpa using this⟩
  · cases this

theorem yyPact_ok {s : Nat} (hs : s < 432) : ∃ n, Tab.yyPact.at s = .ok n :=
  let ⟨n, h, _⟩ := noErrorShift hs
  ⟨n, h⟩

/-- Token numbers of the codes the lexer returns. -/
theorem tokenOf_codes : (List.range 125).all (fun i => match tokenOf ((i : Int) + 57346) with
    | .ok t => t == (i : Int) + 4
    | .error _ => false) = true := by decide +kernel

theorem tokenOf_code {c : Int} (h1 : 57346 ≤ c) (h2 : c ≤ 57470) : tokenOf c = .ok (c - 57342) := by
  have := List.all_eq_true.1 tokenOf_codes (c - 57346).toNat (List.mem_range.2 (by omega))
  have e : ((c - 57346).toNat : Int) + 57346 = c := by omega
  rw [e] at this
  split at this
  · rename_i t ht
    rw [ht]
    simp only [beq_iff_eq] at this
    rw [this]; congr 1; omega
  · cases this

theorem tokenOf_nonpos {c : Int} (h : c ≤ 0) : tokenOf c = .ok 1 := by
  unfold tokenOf
  rw [if_pos h]
  rfl

/-- What a fetch does. -/
inductive Fetched (u : Unicode) (s : PState) : PState → Prop
  | refl : Fetched u s s
  | lex (s1 : PState) (c : Int) (lval : LVal) (lexer : LexState) (t : Int) : Fetched u s s1 → s1.char < 0 →
      lex u s1.lexer s1.lval = some (c, lval, lexer) → tokenOf c = .ok t →
      Fetched u s { s1 with lexer := lexer, lval := lval, char := c, token := t }

theorem lex_code {u : Unicode} {st st' : LexState} {lval lval' : LVal} {code : Int}
    (h : lex u st lval = some (code, lval', st')) :
    (code ≤ 0 ∧ tokenOf code = .ok 1) ∨ (57346 ≤ code ∧ code ≤ 57470 ∧ tokenOf code = .ok (code - 57342)) := by
  rcases (lex_post h).err with ⟨h, _⟩ | ⟨h | h, _⟩
  · exact Or.inl ⟨by omega, tokenOf_nonpos (by omega)⟩
  · exact Or.inr ⟨h.1, h.2, tokenOf_code h.1 h.2⟩
  · exact Or.inl ⟨by omega, tokenOf_nonpos (by omega)⟩

/-- The token fits the character read. -/
def TokOk (s : PState) : Prop :=
  s.char ≤ 0 ∧ s.token = 1 ∨ 57346 ≤ s.char ∧ s.char ≤ 57470 ∧ s.token = s.char - 57342

theorem TokOk.range {s : PState} (h : TokOk s) : 1 ≤ s.token ∧ s.token ≤ 128 := by
  rcases h with h | h <;> omega

theorem fetch_ok (u : Unicode) (s : PState) (hok : s.char < 0 ∨ TokOk s) :
    (fetch u s = .error .hang ∧ s.char < 0 ∧ lex u s.lexer s.lval = none) ∨
    ∃ s', fetch u s = .ok s' ∧ Fetched u s s' ∧ TokOk s' ∧ (0 ≤ s'.char ∨ s'.lexer.err ≠ none) := by
  unfold fetch
  split
  · rename_i hc
    split
    · exact Or.inl ⟨rfl, hc, by assumption⟩
    · rename_i c lval lexer hl
      right
      have herr : 0 ≤ c ∨ lexer.err ≠ none := by
        rcases (lex_post hl).err with ⟨_, _, h⟩ | ⟨h | h, _⟩
        · right; rw [h]; simp
        · left; omega
        · left; omega
      rcases lex_code hl with ⟨h, e⟩ | ⟨h1, h2, e⟩
      · rw [e]
        exact ⟨_, rfl, .lex _ _ _ _ _ .refl hc hl e, Or.inl ⟨h, rfl⟩, herr⟩
      · rw [e]
        exact ⟨_, rfl, .lex _ _ _ _ _ .refl hc hl e, Or.inr ⟨h1, h2, rfl⟩, herr⟩
  · rename_i hc
    exact Or.inr ⟨s, rfl, .refl, hok.resolve_left hc, Or.inl (by omega)⟩

theorem Fetched.trans {u : Unicode} {a b c : PState} (h : Fetched u a b) (h' : Fetched u b c) : Fetched u a c := by
  induction h' with
  | refl => exact h
  | lex s1 c lval lexer t _ h2 h3 h4 ih => exact .lex _ _ _ _ _ ih h2 h3 h4

theorem excaScan_mem {t : Int} : ∀ {l v : List Int} {n : Int}, excaValues l = .ok v → excaScan t l = .ok n → n ∈ v
  | [], v, n, h, _ => by simp [excaValues] at h
  | [_], v, n, h, _ => by simp [excaValues] at h
  | a :: b :: l, v, n, h, h' => by
    unfold excaValues at h
    unfold excaScan at h'
    split at h
    · rename_i ha
      rw [if_pos (Or.inl ha)] at h'
      cases h; cases h'; simp
    · rw [bind_ok] at h
      obtain ⟨r, hr, h⟩ := h
      cases h
      split at h'
      · cases h'; simp
      · exact List.mem_cons_of_mem _ (excaScan_mem hr h')

theorem excaScan_ok {t : Int} : ∀ {l v : List Int}, excaValues l = .ok v → ∃ n, excaScan t l = .ok n
  | [], v, h => by simp [excaValues] at h
  | [_], v, h => by simp [excaValues] at h
  | a :: b :: l, v, h => by
    unfold excaValues at h
    unfold excaScan
    split at h
    · rename_i ha
      rw [if_pos (Or.inl ha)]
      exact ⟨_, rfl⟩
    · rw [bind_ok] at h
      obtain ⟨r, hr, _⟩ := h
      split
      · exact ⟨_, rfl⟩
      · exact excaScan_ok hr

/-- What the parser can decide. -/
inductive Decides (u : Unicode) (s : PState) : Decision → PState → Prop
  | shift (s' : PState) (st : Nat) : Fetched u s s' → TokOk s' → ShiftOk s.state st s'.token → Decides u s (.shift st) s'
  | reduce (s' : PState) (r lhs : Nat) (rhs : List Sym) (B : List Nat) : Fetched u s s' → ReduceOk s.state r lhs rhs B →
      s'.char < 0 ∨ TokOk s' → Decides u s (.reduce r) s'
  | accept (s' : PState) : Fetched u s s' → TokOk s' → s.state = 1 → s'.token = 1 →
      0 ≤ s'.char ∨ s'.lexer.err ≠ none → Decides u s .accept s'
  | error (s' : PState) : Fetched u s s' → Decides u s .error s'

theorem exca_accept : excaFind 1 Tab.yyExca.toList = .ok (1 :: -1 :: -2 :: 0 :: (Tab.yyExca.toList.drop 6)) := rfl

theorem Fetched.state {u : Unicode} {s s' : PState} (h : Fetched u s s') : s'.state = s.state := by
  induction h with
  | refl => rfl
  | lex s1 c lval lexer t _ h2 h3 h4 ih => exact ih

theorem decideDefault_ok (u : Unicode) (s0 s : PState) (hf : Fetched u s0 s) (hs : s.state < 432)
    (hok : s.char < 0 ∨ TokOk s) :
    (decideDefault u s = .error .hang ∧ s.char < 0 ∧ lex u s.lexer s.lval = none) ∨
    ∃ d s', decideDefault u s = .ok (d, s') ∧ Decides u s0 d s' := by
  unfold decideDefault
  obtain ⟨n, hn, hr⟩ := yyDef_ok hs
  obtain ⟨l, hl, hd⟩ := reduceOk hs
  rw [hn, ok_bind]
  unfold defaultsOf at hl
  rw [hn, ok_bind] at hl
  split
  · rename_i h2
    rw [if_pos h2, bind_ok] at hl
    obtain ⟨l', hl', hv⟩ := hl
    rcases fetch_ok u s hok with ⟨hf, h⟩ | ⟨s', h, hf', htok, hneg⟩
    · left; rw [hf]; exact ⟨rfl, h⟩
    · right
      rw [h, ok_bind, hf'.state, hl', ok_bind]
      obtain ⟨m, hm⟩ := excaScan_ok (t := s'.token) hv
      have hmem := excaScan_mem hv hm
      rw [hm]
      refine ⟨_, _, rfl, ?_⟩
      have e := hf.state
      unfold defaultDecision
      split
      · rename_i hlt
        have hs1 := (hd m hmem).1 hlt
        refine .accept _ (hf.trans hf') htok (by omega) ?_ hneg
        rw [hs1, exca_accept] at hl'
        cases hl'
        unfold excaScan at hm
        split at hm
        · rename_i h; rcases h with h | h
          · omega
          · exact h.symm
        · unfold excaScan at hm
          rw [if_pos (Or.inl (by omega))] at hm
          cases hm; omega
      · split
        · exact .error _ (hf.trans hf')
        · obtain ⟨lhs, rhs, B, h⟩ := (hd m hmem).2 (by omega)
          exact .reduce _ _ _ _ _ (hf.trans hf') (e ▸ h) (Or.inr htok)
  · rename_i h2
    rw [if_neg h2] at hl
    cases hl
    right
    refine ⟨_, _, rfl, ?_⟩
    split
    · exact .error _ hf
    · obtain ⟨lhs, rhs, B, h⟩ := (hd n (by simp)).2 (by omega)
      exact .reduce _ _ _ _ _ hf (hf.state ▸ h) hok

theorem decideStep_ok (u : Unicode) (s : PState) (hs : s.state < 432) (hok : s.char < 0 ∨ TokOk s) :
    (decideStep u s = .error .hang ∧ ∃ s', Fetched u s s' ∧ s'.char < 0 ∧ lex u s'.lexer s'.lval = none) ∨
    ∃ d s', decideStep u s = .ok (d, s') ∧ Decides u s d s' := by
  unfold decideStep
  obtain ⟨n, hn⟩ := yyPact_ok hs
  rw [hn, ok_bind]
  split
  · rcases decideDefault_ok u s s .refl hs hok with ⟨h, h'⟩ | h
    · exact Or.inl ⟨h, s, .refl, h'⟩
    · exact Or.inr h
  · rename_i hflag
    rcases fetch_ok u s hok with ⟨hf, h⟩ | ⟨s', h, hf', htok, hneg⟩
    · left; rw [hf]; exact ⟨rfl, s, .refl, h⟩
    · rw [h, ok_bind]
      obtain ⟨o, ho, hsh⟩ := shiftOk hs htok.range.1 htok.range.2
      unfold shiftOf at ho
      rw [hn, ok_bind, if_neg hflag] at ho
      have hdef := decideDefault_ok u s s' hf' (hf'.state ▸ hs) (Or.inr htok)
      have hdef : (decideDefault u s' = .error .hang ∧ ∃ s', Fetched u s s' ∧ s'.char < 0 ∧ lex u s'.lexer s'.lval = none) ∨
          ∃ d s'', decideDefault u s' = .ok (d, s'') ∧ Decides u s d s'' :=
        hdef.imp (fun h => ⟨h.1, s', hf', h.2⟩) id
      simp only at ho ⊢
      split
      · exact hdef
      · rename_i hr
        rw [if_neg hr, bind_ok] at ho
        obtain ⟨a, ha, ho⟩ := ho
        rw [bind_ok] at ho
        obtain ⟨c, hc, ho⟩ := ho
        rw [ha, ok_bind, hc, ok_bind]
        split
        · rename_i heq
          rw [if_pos heq, bind_ok] at ho
          obtain ⟨st, hst, ho⟩ := ho
          cases ho
          rw [hst, ok_bind]
          exact Or.inr ⟨_, _, rfl, .shift _ _ hf' htok (hsh st rfl)⟩
        · exact hdef

end Asn1go.LR
