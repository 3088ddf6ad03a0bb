import Verif.Proofs.LR.Result

/-! Runs on texts with the same tokens are the same. -/

namespace Asn1go.LR

open Asn1go Spec

/-- The same state with another lexer. -/
abbrev withLexer (s : PState) (l : LexState) : PState := { s with lexer := l }

/-- Two lexers that will deliver the same tokens. -/
structure LexSim (u u' : Unicode) (l l' : LexState) : Prop where
  tokens : ∃ toks, Delivers u l toks ∧ Delivers u' l' toks
  err : l.err.map Prod.snd = l'.err.map Prod.snd

theorem lexSim_step {u u' : Unicode} {l l' : LexState} (h : LexSim u u' l l') (lval : LVal) :
    ∃ c lval' m m', lex u l lval = some (c, lval', m) ∧ lex u' l' lval = some (c, lval', m') ∧ LexSim u u' m m' := by
  obtain ⟨⟨toks, h1, h2⟩, he⟩ := h
  cases toks with
  | nil =>
    obtain ⟨m, a1, a2, a3⟩ := h1.lex_nil lval
    obtain ⟨m', b1, b2, b3⟩ := h2.lex_nil lval
    exact ⟨_, _, m, m', a1, b1, ⟨[], a2, b2⟩, by rw [a3, b3, he]⟩
  | cons p toks =>
    obtain ⟨c, p⟩ := p
    obtain ⟨_, _, m, a1, a2, a3⟩ := h1.lex_cons lval
    obtain ⟨_, _, m', b1, b2, b3⟩ := h2.lex_cons lval
    exact ⟨_, _, m, m', a1, b1, ⟨toks, a2, b2⟩, by rw [a3, b3, he]⟩

/-- Two states that differ in the lexer only. -/
def Sim (u u' : Unicode) (s s' : PState) : Prop := ∃ l', s' = withLexer s l' ∧ LexSim u u' s.lexer l'

/-- Lifting of relations to results that may abort. -/
inductive ExRel {α β : Type} (r : α → β → Prop) : Except Abort α → Except Abort β → Prop
  | ok (a : α) (b : β) : r a b → ExRel r (.ok a) (.ok b)
  | error (e : Abort) : ExRel r (.error e) (.error e)

theorem ExRel.bind {α β γ δ : Type} {r : α → β → Prop} {q : γ → δ → Prop} {x : Except Abort α} {y : Except Abort β}
    {f : α → Except Abort γ} {g : β → Except Abort δ} (h : ExRel r x y) (h' : ∀ a b, r a b → ExRel q (f a) (g b)) :
    ExRel q (x >>= f) (y >>= g) := by
  cases h with
  | ok a b hab => exact h' a b hab
  | error e => exact .error e

theorem ExRel.refl {α : Type} {x : Except Abort α} : ExRel (fun a b => a = b) x x := by
  cases x with
  | ok a => exact .ok _ _ rfl
  | error e => exact .error e

theorem fetch_sim {u u' : Unicode} {s s' : PState} (h : Sim u u' s s') : ExRel (Sim u u') (fetch u s) (fetch u' s') := by
  obtain ⟨l', rfl, hl⟩ := h
  unfold fetch
  simp only [withLexer]
  by_cases hc : s.char < 0
  · simp only [if_pos hc]
    obtain ⟨c, lval', m, m', h1, h2, h3⟩ := lexSim_step hl s.lval
    rw [h1, h2]
    simp only
    refine ExRel.bind (r := fun a b => a = b) ExRel.refl ?_
    rintro t _ rfl
    exact .ok _ _ ⟨m', rfl, h3⟩
  · simp only [if_neg hc]
    exact .ok _ _ ⟨l', rfl, hl⟩

theorem decideDefault_sim {u u' : Unicode} {s s' : PState} (h : Sim u u' s s') :
    ExRel (fun a b => a.1 = b.1 ∧ Sim u u' a.2 b.2) (decideDefault u s) (decideDefault u' s') := by
  have hst : s'.state = s.state := by obtain ⟨l', rfl, _⟩ := h; rfl
  unfold decideDefault
  rw [hst]
  refine ExRel.bind (r := fun a b => a = b) ExRel.refl ?_
  rintro n _ rfl
  split
  · refine ExRel.bind (fetch_sim h) ?_
    rintro a b ⟨l', rfl, hl⟩
    refine ExRel.bind (r := fun a b => a = b) ExRel.refl ?_
    rintro l _ rfl
    refine ExRel.bind (r := fun a b => a = b) ExRel.refl ?_
    rintro l _ rfl
    exact .ok _ _ ⟨rfl, l', rfl, hl⟩
  · exact .ok _ _ ⟨rfl, h⟩

theorem decideStep_sim {u u' : Unicode} {s s' : PState} (h : Sim u u' s s') :
    ExRel (fun a b => a.1 = b.1 ∧ Sim u u' a.2 b.2) (decideStep u s) (decideStep u' s') := by
  have hst : s'.state = s.state := by obtain ⟨l', rfl, _⟩ := h; rfl
  unfold decideStep
  rw [hst]
  refine ExRel.bind (r := fun a b => a = b) ExRel.refl ?_
  rintro n _ rfl
  split
  · exact decideDefault_sim h
  · refine ExRel.bind (fetch_sim h) ?_
    rintro a b hab
    have htok : b.token = a.token := by obtain ⟨l', rfl, _⟩ := hab; rfl
    simp only [htok]
    split
    · exact decideDefault_sim hab
    · refine ExRel.bind (r := fun a b => a = b) ExRel.refl ?_
      rintro n _ rfl
      refine ExRel.bind (r := fun a b => a = b) ExRel.refl ?_
      rintro c _ rfl
      split
      · refine ExRel.bind (r := fun a b => a = b) ExRel.refl ?_
        rintro st _ rfl
        exact .ok _ _ ⟨rfl, hab⟩
      · exact decideDefault_sim hab

theorem grow_withLexer (s : PState) (l : LexState) (i : Nat) : grow (withLexer s l) i = withLexer (grow s i) l := by
  unfold grow withLexer
  split <;> simp_all

theorem push_withLexer (s : PState) (l : LexState) : push (withLexer s l) = withLexer (push s) l := by
  unfold push
  simp only [grow_withLexer]

theorem push_lexer (s : PState) : (push s).lexer = s.lexer := (push_fields s).1

theorem shift_sim {u u' : Unicode} {s s' : PState} (h : Sim u u' s s') (st : Nat) : Sim u u' (shift st s) (shift st s') := by
  obtain ⟨l', rfl, hl⟩ := h
  unfold shift
  refine ⟨l', ?_, ?_⟩
  · rw [← push_withLexer]
  · rw [push_lexer]; exact hl

theorem reduce_sim {u u' : Unicode} {s s' : PState} (h : Sim u u' s s') (n : Nat) :
    ExRel (Sim u u') (reduce n s) (reduce n s') := by
  obtain ⟨l', rfl, hl⟩ := h
  unfold reduce
  refine ExRel.bind (r := fun a b => a = b) ExRel.refl ?_
  rintro k _ rfl
  refine ExRel.bind (r := fun a b => a = b) ExRel.refl ?_
  rintro nt _ rfl
  simp only [grow_withLexer]
  split
  · exact .error _
  · generalize hg : grow s (s.depth - k.toNat) = sg
    have hlex : sg.lexer = s.lexer := by rw [← hg]; unfold grow; split <;> rfl
    split
    · refine ExRel.bind (r := fun a b => a = b) ExRel.refl ?_
      rintro st _ rfl
      refine .ok _ _ ⟨l', ?_, ?_⟩
      · rw [← push_withLexer]
      · rw [push_lexer]; show LexSim u u' sg.lexer l'; rw [hlex]; exact hl
    · exact .error _

/-- Steps that agree up to the lexer. -/
inductive StepSim (u u' : Unicode) : Step → Step → Prop
  | next (s s' : PState) : Sim u u' s s' → StepSim u u' (.next s) (.next s')
  | ret (c : Int) (s s' : PState) : Sim u u' s s' → StepSim u u' (.ret c s) (.ret c s')

theorem lexSim_error {u u' : Unicode} {l l' : LexState} (h : LexSim u u' l l') (m : ErrMsg) :
    LexSim u u' (l.error m) (l'.error m) := by
  obtain ⟨⟨toks, h1, h2⟩, he⟩ := h
  exact ⟨⟨toks, ⟨h1.fin, h1.tokens⟩, ⟨h2.fin, h2.tokens⟩⟩, rfl⟩

theorem errorStep_sim {u u' : Unicode} {s s' : PState} (h : Sim u u' s s') :
    ExRel (StepSim u u') (errorStep s) (errorStep s') := by
  obtain ⟨l', rfl, hl⟩ := h
  unfold errorStep
  simp only [withLexer]
  by_cases h3 : s.errflag = 3
  · simp only [if_pos h3]
    by_cases ht : s.token = yyEofCode
    · simp only [if_pos ht]
      exact .ok _ _ (.ret _ _ _ ⟨l', rfl, hl⟩)
    · simp only [if_neg ht]
      exact .ok _ _ (.next _ _ ⟨l', rfl, hl⟩)
  · simp only [if_neg h3]
    by_cases h0 : s.errflag = 0
    · simp only [if_pos h0]
      refine ExRel.bind (r := fun a b => a = b) ExRel.refl ?_
      rintro o _ rfl
      have he := lexSim_error hl (.syntaxError s.state s.token)
      cases o with
      | none => exact .ok _ _ (.ret _ _ _ ⟨_, rfl, he⟩)
      | some p => exact .ok _ _ (.next _ _ ⟨_, by rw [← push_withLexer], by rw [push_lexer]; exact he⟩)
    · simp only [if_neg h0]
      refine ExRel.bind (r := fun a b => a = b) ExRel.refl ?_
      rintro o _ rfl
      cases o with
      | none => exact .ok _ _ (.ret _ _ _ ⟨_, rfl, hl⟩)
      | some p => exact .ok _ _ (.next _ _ ⟨_, by rw [← push_withLexer], by rw [push_lexer]; exact hl⟩)

theorem step_sim {u u' : Unicode} {s s' : PState} (h : Sim u u' s s') : ExRel (StepSim u u') (step u s) (step u' s') := by
  unfold step
  refine ExRel.bind (decideStep_sim h) ?_
  rintro ⟨d, a⟩ ⟨_, b⟩ ⟨rfl, hab⟩
  simp only at hab ⊢
  cases d with
  | shift st => exact .ok _ _ (.next _ _ (shift_sim hab st))
  | reduce n =>
    refine ExRel.bind (reduce_sim hab n) ?_
    intro a b h
    exact .ok _ _ (.next _ _ h)
  | accept => exact .ok _ _ (.ret _ _ _ hab)
  | error => exact errorStep_sim hab

theorem runSteps_sim {u u' : Unicode} : ∀ (fuel : Nat) {s s' : PState} {c : Int} {r : PState}, Sim u u' s s' →
    runSteps u fuel s = .ret c r → ∃ r', runSteps u' fuel s' = .ret c r' ∧ Sim u u' r r'
  | 0, _, _, _, _, _, h => by cases h
  | fuel + 1, s, s', c, r, h, hr => by
    have hs := step_sim h
    unfold runSteps at hr ⊢
    cases h1 : step u s with
    | error e => rw [h1] at hr; cases hr
    | ok a =>
      rw [h1] at hs hr
      generalize h2 : step u' s' = x at hs
      cases hs with
      | ok _ b hab =>
        cases hab with
        | next t t' ht => exact runSteps_sim fuel ht hr
        | ret c' t t' ht =>
          simp only [Outcome.ret.injEq] at hr
          obtain ⟨rfl, rfl⟩ := hr
          exact ⟨t', rfl, ht⟩

theorem runSteps_mono {u : Unicode} : ∀ (fuel fuel' : Nat) {s : PState} {c : Int} {r : PState}, fuel ≤ fuel' →
    runSteps u fuel s = .ret c r → runSteps u fuel' s = .ret c r
  | 0, _, _, _, _, _, h => by cases h
  | fuel + 1, 0, _, _, _, h, _ => by omega
  | fuel + 1, fuel' + 1, s, c, r, h, hr => by
    unfold runSteps at hr ⊢
    split at hr
    · cases hr
    · exact hr
    · exact runSteps_mono fuel fuel' (by omega) hr

/-- Results that are equal up to line numbers. -/
def SameResult (a b : ParseResult) : Prop :=
  (∃ m, a = .ok m ∧ b = .ok m) ∨ ∃ n n' e, a = .err n e ∧ b = .err n' e

/-- Texts with the same tokens give the same result. -/
theorem parse_sim (u u' : Unicode) (text text' : Str) (toks : List Token) (h : Tokens u false text toks)
    (h' : Tokens u' false text' toks) : SameResult (parseString u text) (parseString u' text') := by
  have hsim : Sim u u' (PState.init (LexState.init text .eof)) (PState.init (LexState.init text' .eof)) := by
    unfold PState.init
    exact ⟨LexState.init text' .eof, by rw [← push_withLexer], by rw [push_lexer]; exact ⟨⟨toks, ⟨rfl, h⟩, ⟨rfl, h'⟩⟩, rfl⟩⟩
  have key : ∀ c s, yyParse u (LexState.init text .eof) = .ret c s → ∃ s', yyParse u' (LexState.init text' .eof) = .ret c s' ∧ Sim u u' s s' := by
    intro c s hs
    rcases yyParse_ok u' text' .eof with ⟨_, h⟩ | ⟨c', s', hs', _⟩
    · cases h
    · obtain ⟨r', hr', hr2⟩ := runSteps_sim _ hsim hs
      have a1 := runSteps_mono _ (max (fuelFor text.length) (fuelFor text'.length)) (Nat.le_max_left _ _) hr'
      have a2 := runSteps_mono _ (max (fuelFor text.length) (fuelFor text'.length)) (Nat.le_max_right _ _) hs'
      rw [a1] at a2
      cases a2
      exact ⟨_, hs', hr2⟩
  rcases yyParse_ok u text .eof with ⟨_, h⟩ | ⟨c, s, hs, hfin⟩
  · cases h
  · obtain ⟨s', hs', l', rfl, hl⟩ := key c s hs
    unfold parseString parseStream
    rw [hs, hs']
    have hres : c = 0 → s.result ≠ none := by
      rintro rfl
      cases hfin with
      | accept _ _ _ _ m _ _ hr => rw [hr]; simp
    have herr : c ≠ 0 → s.lexer.err ≠ none := by
      intro hc
      cases hfin with
      | accept => exact absurd rfl hc
      | error _ he => exact he
    have hle := hl.err
    cases he : s.lexer.err with
    | some p =>
      rw [he] at hle
      cases he' : l'.err with
      | none => rw [he'] at hle; simp at hle
      | some q =>
        rw [he'] at hle
        simp at hle
        right
        refine ⟨p.1, q.1, p.2, ?_, ?_⟩
        · simp only [resultOf, he]
        · simp only [resultOf, he']; rw [hle]
    | none =>
      rw [he] at hle
      cases he' : l'.err with
      | some q => rw [he'] at hle; simp at hle
      | none =>
        left
        have hc : c = 0 := by
          rcases Decidable.em (c = 0) with h | h
          · exact h
          · exact absurd he (herr h)
        obtain ⟨m, hm⟩ := Option.ne_none_iff_exists'.1 (hres hc)
        refine ⟨m.map s.derefRef s.derefValue, ?_, ?_⟩
        · simp only [resultOf, he, hm]
        · simp only [resultOf, he', hm]
          rfl

end Asn1go.LR
