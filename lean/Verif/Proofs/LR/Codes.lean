import Verif.Proofs.LR.Simul

/-! Runs on texts whose tokens have the same codes are the same but for values. -/

namespace Asn1go.LR

open Asn1go Spec

/-- Two lexers that will deliver tokens with the same codes. -/
structure LexAlike (u u' : Unicode) (l l' : LexState) : Prop where
  tokens : ∃ toks toks', Delivers u l toks ∧ Delivers u' l' toks' ∧ toks.map Prod.fst = toks'.map Prod.fst
  err : l.err.map Prod.snd = l'.err.map Prod.snd

theorem lexAlike_step {u u' : Unicode} {l l' : LexState} (h : LexAlike u u' l l') (lval lval' : LVal) :
    ∃ c v v' m m', lex u l lval = some (c, v, m) ∧ lex u' l' lval' = some (c, v', m') ∧ LexAlike u u' m m' := by
  obtain ⟨⟨toks, toks', h1, h2, hc⟩, he⟩ := h
  cases toks with
  | nil =>
    cases toks' with
    | nil =>
      obtain ⟨m, a1, a2, a3⟩ := h1.lex_nil lval
      obtain ⟨m', b1, b2, b3⟩ := h2.lex_nil lval'
      exact ⟨_, _, _, m, m', a1, b1, ⟨[], [], a2, b2, rfl⟩, by rw [a3, b3, he]⟩
    | cons p toks' => cases hc
  | cons p toks =>
    cases toks' with
    | nil => cases hc
    | cons p' toks' =>
      obtain ⟨c, p⟩ := p
      obtain ⟨c', p'⟩ := p'
      obtain ⟨_, _, m, a1, a2, a3⟩ := h1.lex_cons lval
      obtain ⟨_, _, m', b1, b2, b3⟩ := h2.lex_cons lval'
      simp only [List.map_cons, List.cons.injEq] at hc
      obtain ⟨rfl, hc⟩ := hc
      exact ⟨_, _, _, m, m', a1, b1, ⟨toks, toks', a2, b2, hc⟩, by rw [a3, b3, he]⟩

/-- Two states that differ in values only. -/
structure PAlike (u u' : Unicode) (s s' : PState) : Prop where
  lexer : LexAlike u u' s.lexer s'.lexer
  result : s.result.isSome = s'.result.isSome
  char : s.char = s'.char
  token : s.token = s'.token
  cur : s.cur.map SymType.yys = s'.cur.map SymType.yys
  depth : s.depth = s'.depth
  state : s.state = s'.state
  errflag : s.errflag = s'.errflag

theorem PAlike.length {u u' : Unicode} {s s' : PState} (h : PAlike u u' s s') : s.cur.length = s'.cur.length := by
  have := congrArg List.length h.cur
  simpa using this

theorem fetch_alike {u u' : Unicode} {s s' : PState} (h : PAlike u u' s s') : ExRel (PAlike u u') (fetch u s) (fetch u' s') := by
  unfold fetch
  rw [← h.char]
  by_cases hc : s.char < 0
  · simp only [if_pos hc]
    obtain ⟨c, v, v', m, m', h1, h2, h3⟩ := lexAlike_step h.lexer s.lval s'.lval
    rw [h1, h2]
    simp only
    refine ExRel.bind (r := fun a b => a = b) ExRel.refl ?_
    rintro t _ rfl
    exact .ok _ _ ⟨h3, h.result, rfl, rfl, h.cur, h.depth, h.state, h.errflag⟩
  · simp only [if_neg hc]
    exact .ok _ _ h

theorem decideDefault_alike {u u' : Unicode} {s s' : PState} (h : PAlike u u' s s') :
    ExRel (fun a b => a.1 = b.1 ∧ PAlike u u' a.2 b.2) (decideDefault u s) (decideDefault u' s') := by
  unfold decideDefault
  rw [← h.state]
  refine ExRel.bind (r := fun a b => a = b) ExRel.refl ?_
  rintro n _ rfl
  split
  · refine ExRel.bind (fetch_alike h) ?_
    intro a b hab
    rw [← hab.state, ← hab.token]
    refine ExRel.bind (r := fun a b => a = b) ExRel.refl ?_
    rintro l _ rfl
    refine ExRel.bind (r := fun a b => a = b) ExRel.refl ?_
    rintro l _ rfl
    exact .ok _ _ ⟨rfl, hab⟩
  · exact .ok _ _ ⟨rfl, h⟩

theorem decideStep_alike {u u' : Unicode} {s s' : PState} (h : PAlike u u' s s') :
    ExRel (fun a b => a.1 = b.1 ∧ PAlike u u' a.2 b.2) (decideStep u s) (decideStep u' s') := by
  unfold decideStep
  rw [← h.state]
  refine ExRel.bind (r := fun a b => a = b) ExRel.refl ?_
  rintro n _ rfl
  split
  · exact decideDefault_alike h
  · refine ExRel.bind (fetch_alike h) ?_
    rintro a b hab
    simp only [← hab.token]
    split
    · exact decideDefault_alike hab
    · refine ExRel.bind (r := fun a b => a = b) ExRel.refl ?_
      rintro n _ rfl
      refine ExRel.bind (r := fun a b => a = b) ExRel.refl ?_
      rintro c _ rfl
      split
      · refine ExRel.bind (r := fun a b => a = b) ExRel.refl ?_
        rintro st _ rfl
        exact .ok _ _ ⟨rfl, hab⟩
      · exact decideDefault_alike hab

theorem grow_alike {u u' : Unicode} {s s' : PState} (h : PAlike u u' s s') (i : Nat) : PAlike u u' (grow s i) (grow s' i) := by
  unfold grow
  rw [← h.length]
  split
  · exact ⟨h.lexer, h.result, h.char, h.token, by simp [h.cur], h.depth, h.state, h.errflag⟩
  · exact h

theorem push_alike {u u' : Unicode} {s s' : PState} (h : PAlike u u' s s') : PAlike u u' (push s) (push s') := by
  unfold push
  rw [← h.depth]
  have hg := grow_alike h s.depth
  refine ⟨hg.lexer, hg.result, hg.char, hg.token, ?_, by simp [hg.depth], hg.state, hg.errflag⟩
  simp only [List.map_set, hg.cur, hg.state, hg.depth]

theorem shift_alike {u u' : Unicode} {s s' : PState} (h : PAlike u u' s s') (st : Nat) : PAlike u u' (shift st s) (shift st s') :=
  push_alike ⟨h.lexer, h.result, rfl, rfl, h.cur, h.depth, rfl, by simp [h.errflag]⟩

theorem reduce_alike {u u' : Unicode} {s s' : PState} (h : PAlike u u' s s') (n : Nat) :
    ExRel (PAlike u u') (reduce n s) (reduce n s') := by
  unfold reduce
  refine ExRel.bind (r := fun a b => a = b) ExRel.refl ?_
  rintro k _ rfl
  refine ExRel.bind (r := fun a b => a = b) ExRel.refl ?_
  rintro nt _ rfl
  simp only [← h.depth]
  split
  · exact .error _
  · have hg := grow_alike h (s.depth - k.toNat)
    generalize grow s (s.depth - k.toNat) = a at hg
    generalize grow s' (s.depth - k.toNat) = b at hg
    rw [← hg.depth]
    have hcur : ∀ i : Nat, (a.cur[i]?).map SymType.yys = (b.cur[i]?).map SymType.yys := by
      intro i
      rw [← List.getElem?_map, ← List.getElem?_map, hg.cur]
    have h1 := hcur (a.depth - k.toNat)
    have h2 := hcur (a.depth - k.toNat - 1)
    cases ha1 : a.cur[a.depth - k.toNat]? with
    | none =>
      rw [ha1] at h1
      cases hb1 : b.cur[a.depth - k.toNat]? with
      | none => exact .error _
      | some y => rw [hb1] at h1; cases h1
    | some x =>
      rw [ha1] at h1
      cases hb1 : b.cur[a.depth - k.toNat]? with
      | none => rw [hb1] at h1; cases h1
      | some y =>
        cases ha2 : a.cur[a.depth - k.toNat - 1]? with
        | none =>
          rw [ha2] at h2
          cases hb2 : b.cur[a.depth - k.toNat - 1]? with
          | none => exact .error _
          | some z => rw [hb2] at h2; cases h2
        | some z =>
          rw [ha2] at h2
          cases hb2 : b.cur[a.depth - k.toNat - 1]? with
          | none => rw [hb2] at h2; cases h2
          | some w =>
            rw [hb2] at h2
            have h2 : z.yys = w.yys := Option.some.inj h2
            simp only
            rw [h2]
            refine ExRel.bind (r := fun a b => a = b) ExRel.refl ?_
            rintro st _ rfl
            refine .ok _ _ (push_alike ⟨hg.lexer, ?_, hg.char, hg.token, hg.cur, rfl, rfl, hg.errflag⟩)
            simp only
            split
            · rfl
            · exact hg.result

/-- Steps that agree up to values. -/
inductive StepAlike (u u' : Unicode) : Step → Step → Prop
  | next (s s' : PState) : PAlike u u' s s' → StepAlike u u' (.next s) (.next s')
  | ret (c : Int) (s s' : PState) : PAlike u u' s s' → StepAlike u u' (.ret c s) (.ret c s')

theorem lexAlike_error {u u' : Unicode} {l l' : LexState} (h : LexAlike u u' l l') (m : ErrMsg) :
    LexAlike u u' (l.error m) (l'.error m) := by
  obtain ⟨⟨toks, toks', h1, h2, h3⟩, he⟩ := h
  exact ⟨⟨toks, toks', ⟨h1.fin, h1.tokens⟩, ⟨h2.fin, h2.tokens⟩, h3⟩, rfl⟩

theorem recoverGo_alike {c c' : List RawSym} (h : c.map SymType.yys = c'.map SymType.yys) : ∀ d : Nat, recoverGo c d = recoverGo c' d
  | 0 => rfl
  | d + 1 => by
    have hd : (c[d]?).map SymType.yys = (c'[d]?).map SymType.yys := by
      rw [← List.getElem?_map, ← List.getElem?_map, h]
    unfold recoverGo
    rw [recoverGo_alike h d]
    cases h1 : c[d]? with
    | none =>
      rw [h1] at hd
      cases h2 : c'[d]? with
      | none => rfl
      | some y => rw [h2] at hd; cases hd
    | some x =>
      rw [h1] at hd
      cases h2 : c'[d]? with
      | none => rw [h2] at hd; cases hd
      | some y =>
        rw [h2] at hd
        have hd : x.yys = y.yys := Option.some.inj hd
        simp only [hd]

theorem errorStep_alike {u u' : Unicode} {s s' : PState} (h : PAlike u u' s s') :
    ExRel (StepAlike u u') (errorStep s) (errorStep s') := by
  unfold errorStep
  rw [← h.errflag, ← h.token]
  by_cases h3 : s.errflag = 3
  · simp only [if_pos h3]
    by_cases ht : s.token = yyEofCode
    · simp only [if_pos ht]
      exact .ok _ _ (.ret _ _ _ h)
    · simp only [if_neg ht]
      exact .ok _ _ (.next _ _ ⟨h.lexer, h.result, rfl, rfl, h.cur, h.depth, h.state, rfl⟩)
  · simp only [if_neg h3]
    by_cases h0 : s.errflag = 0
    · simp only [if_pos h0, ← h.depth, ← h.state]
      rw [recoverGo_alike h.cur]
      refine ExRel.bind (r := fun a b => a = b) ExRel.refl ?_
      rintro o _ rfl
      have he := lexAlike_error h.lexer (.syntaxError s.state s.token)
      cases o with
      | none => exact .ok _ _ (.ret _ _ _ ⟨he, h.result, h.char, rfl, h.cur, rfl, rfl, rfl⟩)
      | some p => exact .ok _ _ (.next _ _ (push_alike ⟨he, h.result, h.char, rfl, h.cur, rfl, rfl, rfl⟩))
    · simp only [if_neg h0, ← h.depth]
      rw [recoverGo_alike h.cur]
      refine ExRel.bind (r := fun a b => a = b) ExRel.refl ?_
      rintro o _ rfl
      cases o with
      | none => exact .ok _ _ (.ret _ _ _ ⟨h.lexer, h.result, h.char, h.token, h.cur, rfl, h.state, rfl⟩)
      | some p => exact .ok _ _ (.next _ _ (push_alike ⟨h.lexer, h.result, h.char, h.token, h.cur, rfl, rfl, rfl⟩))

theorem step_alike {u u' : Unicode} {s s' : PState} (h : PAlike u u' s s') : ExRel (StepAlike u u') (step u s) (step u' s') := by
  unfold step
  refine ExRel.bind (decideStep_alike h) ?_
  rintro ⟨d, a⟩ ⟨_, b⟩ ⟨rfl, hab⟩
  simp only at hab ⊢
  cases d with
  | shift st => exact .ok _ _ (.next _ _ (shift_alike hab st))
  | reduce n =>
    refine ExRel.bind (reduce_alike hab n) ?_
    intro a b h
    exact .ok _ _ (.next _ _ h)
  | accept => exact .ok _ _ (.ret _ _ _ hab)
  | error => exact errorStep_alike hab

theorem runSteps_alike {u u' : Unicode} : ∀ (fuel : Nat) {s s' : PState} {c : Int} {r : PState}, PAlike u u' s s' →
    runSteps u fuel s = .ret c r → ∃ r', runSteps u' fuel s' = .ret c r' ∧ PAlike u u' r r'
  | 0, _, _, _, _, _, h => by cases h
  | fuel + 1, s, s', c, r, h, hr => by
    have hs := step_alike h
    unfold runSteps at hr ⊢
    cases h1 : step u s with
    | error e => rw [h1] at hr; cases hr
    | ok a =>
      rw [h1] at hs hr
      generalize h2 : step u' s' = x at hs
      cases hs with
      | ok _ b hab =>
        cases hab with
        | next t t' ht => exact runSteps_alike fuel ht hr
        | ret c' t t' ht =>
          simp only [Outcome.ret.injEq] at hr
          obtain ⟨rfl, rfl⟩ := hr
          exact ⟨t', rfl, ht⟩

/-- Results that are both modules, or errors with the same message. -/
def AlikeResult (a b : ParseResult) : Prop :=
  (∃ m m', a = .ok m ∧ b = .ok m') ∨ ∃ n n' e, a = .err n e ∧ b = .err n' e

/-- Texts whose tokens have the same codes give results that are alike. -/
theorem parse_alike (u u' : Unicode) (text text' : Str) (toks toks' : List Token) (h : Tokens u false text toks)
    (h' : Tokens u' false text' toks') (hc : toks.map Prod.fst = toks'.map Prod.fst) : AlikeResult (parseString u text) (parseString u' text') := by
  have hsim : PAlike u u' (PState.init (LexState.init text .eof)) (PState.init (LexState.init text' .eof)) := by
    unfold PState.init
    exact push_alike ⟨⟨⟨toks, toks', ⟨rfl, h⟩, ⟨rfl, h'⟩, hc⟩, rfl⟩, rfl, rfl, rfl, rfl, rfl, rfl, rfl⟩
  have key : ∀ c s, yyParse u (LexState.init text .eof) = .ret c s → ∃ s', yyParse u' (LexState.init text' .eof) = .ret c s' ∧ PAlike u u' s s' := by
    intro c s hs
    rcases yyParse_ok u' text' .eof with ⟨_, h⟩ | ⟨c', s', hs', _⟩
    · cases h
    · obtain ⟨r', hr', hr2⟩ := runSteps_alike _ hsim hs
      have a1 := runSteps_mono _ (max (fuelFor text.length) (fuelFor text'.length)) (Nat.le_max_left _ _) hr'
      have a2 := runSteps_mono _ (max (fuelFor text.length) (fuelFor text'.length)) (Nat.le_max_right _ _) hs'
      rw [a1] at a2
      cases a2
      exact ⟨_, hs', hr2⟩
  rcases yyParse_ok u text .eof with ⟨_, h⟩ | ⟨c, s, hs, hfin⟩
  · cases h
  · obtain ⟨s', hs', hl⟩ := key c s hs
    unfold parseString parseStream
    rw [hs, hs']
    have hres : c = 0 → s.result ≠ none := by
      rintro rfl
      cases hfin with
      | accept _ _ _ _ m _ _ hr => rw [hr]; simp
    have herr : c ≠ 0 → s.lexer.err ≠ none := by
      intro hc
      cases hfin with
      | accept => exact absurd rfl hc
      | error _ he => exact he
    have hle := hl.lexer.err
    cases he : s.lexer.err with
    | some p =>
      rw [he] at hle
      cases he' : s'.lexer.err with
      | none => rw [he'] at hle; simp at hle
      | some q =>
        rw [he'] at hle
        simp at hle
        right
        refine ⟨p.1, q.1, p.2, ?_, ?_⟩
        · simp only [resultOf, he]
        · simp only [resultOf, he']; rw [hle]
    | none =>
      rw [he] at hle
      cases he' : s'.lexer.err with
      | some q => rw [he'] at hle; simp at hle
      | none =>
        left
        have hc : c = 0 := by
          rcases Decidable.em (c = 0) with h | h
          · exact h
          · exact absurd he (herr h)
        obtain ⟨m, hm⟩ := Option.ne_none_iff_exists'.1 (hres hc)
        have hr := hl.result
        rw [hm] at hr
        obtain ⟨m', hm'⟩ := Option.isSome_iff_exists.1 hr.symm
        refine ⟨m.map s.derefRef s.derefValue, m'.map s'.derefRef s'.derefValue, ?_, ?_⟩
        · simp only [resultOf, he, hm]
        · simp only [resultOf, he', hm']

end Asn1go.LR
