import Verif.Proofs.LR.Expect
import Verif.Proofs.Reads
import Verif.Proofs.Stuck
import Verif.Proofs.Print.Text

/-! What the parser has read when it reports a syntax error. -/

namespace Asn1go.LR

open Asn1go Spec

/-- A decision is what the tables say: for every token when none was looked at, and for the one looked at. -/
inductive Table (s s' : PState) (d : Decision) : Prop
  | blind : s' = s → s.char < 0 → (∀ t, 1 ≤ t → t ≤ 128 → act s.state t = .ok d) → Table s s' d
  | seen : 0 ≤ s'.char → TokOk s' → act s.state s'.token = .ok d → Table s s' d

theorem Fetched.noErr {u : Unicode} {s s' : PState} (h : Fetched u s s') (he : s'.lexer.err = none) : s.lexer.err = none := by
  induction h with
  | refl => exact he
  | lex s1 c lval lexer t _ hc hl _ ih => exact ih (lex_delivers hl he).1

theorem default_table {u : Unicode} {s s1 s' : PState} {d : Decision} (hs : s.state < 432) (hf : Fetched u s s1)
    (h1 : s1 = s ∧ s.char < 0 ∧ (∀ t, 1 ≤ t → t ≤ 128 → shiftOf s.state t = .ok none) ∨
      0 ≤ s1.char ∧ TokOk s1 ∧ shiftOf s.state s1.token = .ok none)
    (h : decideDefault u s1 = .ok (d, s')) (herr : s'.lexer.err = none) : Table s s' d := by
  unfold decideDefault at h
  rw [hf.state] at h
  obtain ⟨n, hn, _⟩ := yyDef_ok hs
  rw [hn, ok_bind] at h
  split at h
  · next h2 =>
    rw [bind_ok] at h
    obtain ⟨s2, hs2, h⟩ := h
    rw [bind_ok] at h
    obtain ⟨l, hl, h⟩ := h
    rw [bind_ok] at h
    obtain ⟨m, hm, h⟩ := h
    cases h
    have hok : s1.char < 0 ∨ TokOk s1 := by
      rcases h1 with ⟨rfl, h, _⟩ | ⟨_, h, _⟩
      · exact .inl h
      · exact .inr h
    rcases fetch_ok u s1 hok with ⟨hx, _⟩ | ⟨s3, hx, hf3, ht3, hneg⟩
    · rw [hx] at hs2; cases hs2
    · rw [hx] at hs2
      cases hs2
      have hc : 0 ≤ s'.char := hneg.resolve_right (fun h => h herr)
      refine .seen hc ht3 ?_
      rw [hf3.state, hf.state] at hl
      unfold act
      have : shiftOf s.state s'.token = .ok none := by
        rcases h1 with ⟨_, _, h⟩ | ⟨h, _, h'⟩
        · exact h _ ht3.range.1 ht3.range.2
        · have : fetch u s1 = .ok s1 := fetch_idem h
          rw [hx] at this
          cases this
          exact h'
      rw [this, ok_bind]
      simp only
      rw [hn, ok_bind, if_pos h2, hl, ok_bind, hm, ok_bind]
      rfl
  · next h2 =>
    cases h
    have key : ∀ t, shiftOf s.state t = .ok none → act s.state t = .ok (if n = 0 then .error else .reduce n.toNat) := by
      intro t ht
      unfold act
      rw [ht, ok_bind]
      simp only
      rw [hn, ok_bind, if_neg h2]
      rfl
    rcases h1 with ⟨rfl, hc, h⟩ | ⟨hc, ht, h⟩
    · exact .blind rfl hc fun t k1 k2 => key t (h t k1 k2)
    · exact .seen hc ht (key _ h)

/-- The parser decides as the tables say, as long as there is no lexical error. -/
theorem decide_table {u : Unicode} {s s' : PState} {d : Decision} (hs : s.state < 432) (hok : s.char < 0 ∨ TokOk s)
    (h : decideStep u s = .ok (d, s')) (hf' : Fetched u s s') (herr : s'.lexer.err = none) : Table s s' d := by
  unfold decideStep at h
  obtain ⟨n, hn⟩ := yyPact_ok hs
  rw [hn, ok_bind] at h
  split at h
  · next hfl =>
    refine default_table hs .refl ?_ h herr
    have key : ∀ t, shiftOf s.state t = .ok none := by
      intro t
      unfold shiftOf
      rw [hn, ok_bind, if_pos hfl]
      rfl
    rcases hok with hc | hc
    · exact .inl ⟨rfl, hc, fun t _ _ => key t⟩
    · by_cases hc0 : s.char < 0
      · exact .inl ⟨rfl, hc0, fun t _ _ => key t⟩
      · exact .inr ⟨by omega, hc, key _⟩
  · next hfl =>
    rcases fetch_ok u s hok with ⟨hx, _⟩ | ⟨s1, hx, hf1, ht1, hneg⟩
    · rw [hx] at h; cases h
    · rw [hx, ok_bind] at h
      obtain ⟨o, ho, _⟩ := shiftOk hs ht1.range.1 ht1.range.2
      have ho' := ho
      unfold shiftOf at ho'
      rw [hn, ok_bind, if_neg hfl] at ho'
      simp only at h ho'
      have hdef : o = none → decideDefault u s1 = .ok (d, s') → Table s s' d := by
        rintro rfl hd
        have hfd : Fetched u s1 s' := by
          rcases decideDefault_ok u s1 s1 .refl (hf1.state ▸ hs) (.inr ht1) with ⟨hy, _⟩ | ⟨d', s'', hy, hdec⟩
          · rw [hd] at hy; cases hy
          · rw [hd] at hy
            cases hy
            cases hdec <;> assumption
        have hc : 0 ≤ s1.char := hneg.resolve_right (fun h => h (hfd.noErr herr))
        exact default_table hs hf1 (.inr ⟨hc, ht1, ho⟩) hd herr
      split at h
      · next h2 =>
        rw [if_pos h2] at ho'
        cases ho'
        exact hdef rfl h
      · next h2 =>
        rw [if_neg h2, bind_ok] at ho'
        obtain ⟨a, ha, ho'⟩ := ho'
        rw [bind_ok] at ho'
        obtain ⟨c, hc, ho'⟩ := ho'
        rw [ha, ok_bind, hc, ok_bind] at h
        split at h
        · next h3 =>
          rw [if_pos h3, bind_ok] at ho'
          obtain ⟨st, hst, ho'⟩ := ho'
          cases ho'
          rw [hst, ok_bind] at h
          cases h
          have hc : 0 ≤ s'.char := hneg.resolve_right (fun h => h herr)
          refine .seen hc ht1 ?_
          unfold act
          rw [ho]
          rfl
        · next h3 =>
          rw [if_neg h3] at ho'
          cases ho'
          exact hdef rfl h

/-- None of the tokens starts at text a failing reader is not noticed at. -/
def Free (u : Unicode) (text : Str) (done : List Token) : Prop :=
  ∀ d1 a1 r1 d2, Reads u false text d1 a1 r1 → done = d1 ++ d2 → d2 ≠ [] → ¬ Stuck r1

theorem free_nil {u : Unicode} {text : Str} : Free u text [] := by
  intro d1 a1 r1 d2 _ h h2
  simp at h
  exact absurd h.2 h2

theorem Free.snoc {u : Unicode} {text r : Str} {adj : Bool} {done : List Token} {x : Token} (h : Free u text done)
    (hrd : Reads u false text done adj r) (hr : ¬ Stuck r) : Free u text (done ++ [x]) := by
  intro d1 a1 r1 d2 h1 h2 h3
  obtain ⟨d3, y, rfl⟩ : ∃ d3 y, d2 = d3 ++ [y] := ⟨d2.dropLast, d2.getLast h3, (List.dropLast_append_getLast h3).symm⟩
  rw [← List.append_assoc] at h2
  obtain ⟨h2, _⟩ := List.append_inj' h2 rfl
  by_cases he : d3 = []
  · subst he
    simp only [List.append_nil] at h2
    subst h2
    have hz : r1 = r := by
      rcases hrd.compare h1 with ⟨x, hx, hy⟩ | ⟨x, hx, hy⟩
      · have : x = [] := by simpa using hx
        subst this
        cases hy; rfl
      · have : x = [] := by simpa using hx
        subst this
        cases hy; rfl
    rw [hz]; exact hr
  · exact h d1 a1 r1 d3 h1 h2 he

/-- What was read, and how the machine came to the stack. -/
structure Read (u : Unicode) (text : Str) (s : PState) (σ : List Nat) (done : List Token) (adj : Bool) (r : Str) (σ0 : List Nat) : Prop where
  reads : Reads u false text done adj r
  toks : OkToks done
  before : s.char < 0 → adj = s.lexer.lastWasNumber ∧ r = s.lexer.rest
  token : 0 < s.char → ∃ sp p, SkipTo r (sp ++ s.lexer.rest) ∧ Lexeme u (adj && decide (r = sp ++ s.lexer.rest)) sp s.lexer.rest s.char p ∧
    s.lexer.lastWasNumber = (s.char == Tok.NUMBER)
  atEnd : s.char = 0 → SkipTo r []
  reach : ∀ R, OkToks R → ∃ ts, Reach ⟨[0], [], done ++ R⟩ ⟨σ0, ts, R⟩
  path : Path σ0
  same : s.char < 0 → σ0 = σ
  reds : 0 ≤ s.char → ∃ n, redN s.token n σ0 = some σ
  free : s.lexer.fin = .fail → Free u text done ∧ (0 ≤ s.char → 0 < s.char ∧ ¬ Stuck r)

theorem Fetched.read {u : Unicode} {text : Str} {s s' : PState} {σ σ0 : List Nat} {done : List Token} {adj : Bool} {r : Str}
    (hf : Fetched u s s') (he : s'.lexer.err = none) (h : Read u text s σ done adj r σ0) : Read u text s' σ done adj r σ0 := by
  induction hf with
  | refl => exact h
  | lex s1 c lval lexer t hf1 hc hl ht ih =>
    have h1 := ih (lex_delivers hl he).1
    obtain ⟨rfl, rfl⟩ := h1.before hc
    have hsame := h1.same hc
    subst hsame
    have hst : s1.lexer.fin = .fail → ¬ Stuck s1.lexer.rest := by
      intro hf hs
      rw [(lex_stuck hf).2 hs] at hl
      cases hl
    cases lex_cases hl with
    | eof hs hfin =>
      refine ⟨h1.reads, h1.toks, by intro h; exact absurd h (by simp), by intro h; exact absurd h (by simp), fun _ => hs, h1.reach, h1.path, fun _ => rfl, fun _ => ⟨0, rfl⟩, ?_⟩
      intro h
      rw [show s1.lexer.fin = .fail from h] at hfin
      cases hfin
    | token sp rest code p hs hx =>
      have hcr := hx.code_range
      rw [adjAfter_eq hs] at hx
      refine ⟨h1.reads, h1.toks, ?_, ?_, ?_, h1.reach, h1.path, fun _ => rfl, fun _ => ⟨0, rfl⟩, ?_⟩
      · intro h; simp only at h; omega
      · intro _; exact ⟨sp, p, hs, hx, rfl⟩
      · intro h; simp only at h; omega
      · intro h
        exact ⟨(h1.free h).1, fun _ => ⟨by simp only; omega, hst h⟩⟩
    | readFail hs hfin => simp [LexState.error] at he
    | bad c t _ _ hs hn hp =>
      rcases hp.err with ⟨_, m, hm⟩ | ⟨h, _⟩
      · rw [hm] at he; cases he
      · omega

/-- There is text that is no token after tokens the machine can go on from. -/
def Bad (u : Unicode) (text : Str) (fin : ReadEnd) : Prop := ∃ done adj r, Reads u false text done adj r ∧ NoToken u adj r ∧ OkToks done ∧
  (fin = .fail → Free u text done ∧ ¬ Stuck r) ∧ ∃ σ0, Path σ0 ∧ ∀ R, OkToks R → ∃ ts, Reach ⟨[0], [], done ++ R⟩ ⟨σ0, ts, R⟩

/-- The failure of the reader was noticed at the end of the text. -/
def Ended (u : Unicode) (text : Str) : Prop := ∃ done adj r, Reads u false text done adj r ∧ SkipTo r [] ∧ Free u text done ∧ ¬ Stuck r

/-- A failing reader is not noticed after tokens the machine can go on from. -/
def Hung (u : Unicode) (text : Str) : Prop := ∃ done adj r, Reads u false text done adj r ∧ OkToks done ∧ Stuck r ∧
  ∃ σ0, Path σ0 ∧ ∀ R, OkToks R → ∃ ts, Reach ⟨[0], [], done ++ R⟩ ⟨σ0, ts, R⟩

theorem Fetched.fin {u : Unicode} {s s' : PState} (h : Fetched u s s') : s'.lexer.fin = s.lexer.fin := by
  induction h with
  | refl => rfl
  | lex s2 _ _ _ _ _ _ hl2 _ ih => exact (lex_fin hl2).trans ih

theorem Fetched.rest_nil {u : Unicode} {s s' : PState} (h : Fetched u s s') (hf : s.lexer.fin = .fail) (hr : s.lexer.rest = []) :
    s'.lexer.rest = [] := by
  induction h with
  | refl => exact hr
  | lex s2 c lval lexer t hf2 hc hl ht ih =>
    obtain ⟨st', h1, h2, _⟩ := lex_fail_nil (u := u) s2.lval (hf2.fin.trans hf) ih
    rw [h1] at hl
    cases hl
    exact h2

theorem Fetched.bad {u : Unicode} {text : Str} {s s' : PState} {σ σ0 : List Nat} {done : List Token} {adj : Bool} {r : Str}
    (hf : Fetched u s s') (he : s'.lexer.err ≠ none) (h : Read u text s σ done adj r σ0) (he0 : s.lexer.err = none) :
    Bad u text s.lexer.fin ∨ (s.lexer.fin = .fail ∧ Ended u text ∧ s'.lexer.rest = []) := by
  induction hf with
  | refl => exact absurd he0 he
  | lex s1 c lval lexer t hf1 hc hl ht ih =>
    by_cases h1 : s1.lexer.err = none
    · have hr := hf1.read h1 h
      obtain ⟨rfl, rfl⟩ := hr.before hc
      have hfin1 : s1.lexer.fin = s.lexer.fin := hf1.fin
      cases hfin : s.lexer.fin with
      | eof =>
        rw [hfin] at hfin1
        left
        refine ⟨done, _, _, hr.reads, ⟨?_, ?_⟩, hr.toks, by simp, _, hr.path, hr.reach⟩
        · intro hs
          rw [lex_complete_eof _ hfin1 hs] at hl
          cases hl
          exact he h1
        · rintro ⟨sp, rest, code, p, hs, hx⟩
          rw [← adjAfter_eq hs] at hx
          rw [lex_complete _ hfin1 hs hx] at hl
          cases hl
          exact he h1
      | fail =>
        rw [hfin] at hfin1
        have hst : ¬ Stuck s1.lexer.rest := by
          intro hs
          rw [(lex_stuck hfin1).2 hs] at hl
          cases hl
        have hfree := (hr.free hfin1).1
        cases lex_cases hl with
        | eof hs hx => rw [hfin1] at hx; cases hx
        | token => exact absurd h1 he
        | readFail hs hx => exact .inr ⟨rfl, ⟨done, _, _, hr.reads, hs, hfree, hst⟩, rfl⟩
        | bad x t' _ _ hs hn hp =>
          left
          refine ⟨done, _, _, hr.reads, ⟨skip_nil hs hn, ?_⟩, hr.toks, fun _ => ⟨hfree, hst⟩, _, hr.path, hr.reach⟩
          rintro ⟨sp, rest, code, p, hs, hx⟩
          rw [← adjAfter_eq hs] at hx
          have := (lex_fail_token hs hx hl).2
          simp only at he
          rw [this] at he
          exact he h1
    · rcases ih h1 with hb | ⟨k1, k2, k3⟩
      · exact .inl hb
      · obtain ⟨st', e1, e2, _⟩ := lex_fail_nil (u := u) s1.lval (hf1.fin.trans k1) k3
        rw [e1] at hl
        cases hl
        exact .inr ⟨k1, k2, e2⟩

/-- What holds before a round. -/
structure GoodTop (u : Unicode) (text : Str) (s : PState) (σ : List Nat) : Prop where
  read : s.lexer.err = none → ∃ done adj r σ0, Read u text s σ done adj r σ0
  bad : s.lexer.err ≠ none → Bad u text s.lexer.fin ∨ (s.lexer.fin = .fail ∧ Ended u text ∧ s.lexer.rest = [])

/-- How a round goes on. -/
inductive ReadOut (u : Unicode) (text : Str) : Except Abort Step → Prop
  | next (s' : PState) (st : List RawSym) (ts : List Tree) (done : List Token) : Inv u text s'.lexer.fin s' st ts done →
      GoodTop u text s' (st.map SymType.yys) → ReadOut u text (.ok (.next s'))
  | ret (s' : PState) : (s'.lexer.err ≠ none → Bad u text s'.lexer.fin ∨ (s'.lexer.fin = .fail ∧ Ended u text)) → ReadOut u text (.ok (.ret 0 s'))
  | hang : Hung u text ∨ Bad u text .fail → ReadOut u text (.error .hang)
  | error (s1 s' : PState) (σ : List Nat) : s'.lexer = s1.lexer.error (.syntaxError s1.state s1.token) → s1.state < 432 →
      σ.head? = some s1.state → (s1.lexer.err ≠ none → Bad u text s1.lexer.fin ∨ (s1.lexer.fin = .fail ∧ Ended u text)) →
      (s1.lexer.err = none → 0 ≤ s1.char ∧ TokOk s1 ∧ act s1.state s1.token = .ok .error ∧
        ∃ done adj r σ0, Read u text s1 σ done adj r σ0) → ReadOut u text (.ok (.ret 1 s'))

theorem no_blind_error : (List.range 432).all (fun s => (List.range 128).any fun i => !decEq (act s ((i : Int) + 1)) (.ok .error)) = true := by
  decide +kernel

theorem error_ret' {u : Unicode} {text : Str} {fin : ReadEnd} {s s' : PState} {st : List RawSym} {ts : List Tree} {done : List Token}
    (h : Inv u text fin s st ts done) (hf : Fetched u s s') :
    ∃ s'', errorStep s' = .ok (.ret 1 s'') ∧ s''.lexer = s'.lexer.error (.syntaxError s'.state s'.token) := by
  unfold errorStep
  have hfr := hf.frame
  have he : s'.errflag = 0 := by rw [hfr.2.2.2.2.2.2.1]; exact h.errflag
  simp only [he]
  rw [if_neg (by omega)]
  simp only [if_true]
  have hv := h.view
  have hrec : recoverGo s'.cur s'.depth = .ok none := by
    refine recoverGo_none (st := st) ?_ _ ?_ ?_
    · intro i e hi hlt
      rw [hfr.2.2.1, hv.get (by rw [← hv.len]; exact hlt)] at hi
      exact h.stk.all_lt e (List.mem_of_getElem? hi)
    · rw [hfr.2.2.2.1, hv.len]
    · rw [hfr.2.2.2.1, hfr.2.2.1]; exact hv.le
  rw [hrec, ok_bind]
  exact ⟨_, rfl, rfl⟩

theorem read_step {u : Unicode} {text : Str} {s : PState} {st : List RawSym} {ts : List Tree} {done0 : List Token}
    (h : Inv u text s.lexer.fin s st ts done0)
    (hG : GoodTop u text s (st.map SymType.yys)) : ReadOut u text (step u s) := by
  have hR := hG.read
  have hbad : ∀ {s'}, Fetched u s s' → s'.lexer.err ≠ none →
      Bad u text s'.lexer.fin ∨ (s'.lexer.fin = .fail ∧ Ended u text ∧ s'.lexer.rest = []) := by
    intro s' hf he
    rw [hf.fin]
    by_cases h0 : s.lexer.err = none
    · obtain ⟨done, adj, r, σ0, hr⟩ := hR h0
      exact hf.bad he hr h0
    · rcases hG.bad h0 with hb | ⟨k1, k2, k3⟩
      · exact .inl hb
      · exact .inr ⟨k1, k2, hf.rest_nil k1 k3⟩
  obtain ⟨e, l, rfl, hes⟩ : ∃ e l, st = e :: l ∧ e.yys = s.state := by
    have := h.top
    cases st with
    | nil => simp at this
    | cons e l => exact ⟨e, l, rfl, by simpa using this⟩
  rcases decideStep_ok u s h.lt h.tok with ⟨hd, s', hf, hc, hl⟩ | ⟨d, s', hd, hdec⟩
  · unfold step
    rw [hd]
    have hfin : s'.lexer.fin = .fail := by
      cases hx : s'.lexer.fin with
      | fail => rfl
      | eof =>
        have := lex_total (u := u) (lval := s'.lval) hx
        rw [hl] at this
        cases this
    refine .hang ?_
    by_cases he : s'.lexer.err = none
    · obtain ⟨done, adj, r, σ0, hr⟩ := hR (hf.noErr he)
      have hr' := hf.read he hr
      obtain ⟨rfl, rfl⟩ := hr'.before hc
      exact .inl ⟨done, _, _, hr'.reads, hr'.toks, (lex_stuck hfin).1 hl, σ0, hr'.path, hr'.reach⟩
    · rcases hbad hf he with hb | ⟨k1, k2, k3⟩
      · exact .inr (hfin ▸ hb)
      · obtain ⟨st', e1, _⟩ := lex_fail_nil (u := u) s'.lval hfin k3
        rw [e1] at hl
        cases hl
  · unfold step
    rw [hd, ok_bind]
    simp only
    cases hdec with
    | shift _ n hf ht hs =>
      obtain ⟨e', p, he', hinv, _⟩ := shift_inv h hf ht hs
      have hpf := push_fields { s' with char := -1, token := -1, state := n, errflag := s'.errflag - 1, val := leafOf s'.lval }
      have hlx : (shift n s').lexer = s'.lexer := hpf.1
      have hch : (shift n s').char = -1 := hpf.2.2.2.1
      have hfin : (shift n s').lexer.fin = s.lexer.fin := by rw [hlx]; exact (hf.hist h.hist).fin
      refine .next _ _ _ _ (hfin ▸ hinv) ⟨?_, by rw [hlx]; exact hbad hf⟩
      intro herr
      rw [hlx] at herr
      obtain ⟨done, adj, r, σ0, hr⟩ := hR (hf.noErr herr)
      have hr' := hf.read herr hr
      have hc : 57346 ≤ s'.char ∧ s'.char ≤ 57470 ∧ s'.token = s'.char - 57342 := by
        have := hs.token
        rcases ht with ht | ht
        · omega
        · exact ht
      have hact : act s.state s'.token = .ok (.shift n) := by
        cases decide_table h.lt h.tok hd hf herr with
        | blind h1 h2 h3 => subst h1; omega
        | seen _ _ h => exact h
      obtain ⟨sp, q, q1, q2, q3⟩ := hr'.token (by omega)
      obtain ⟨k, hk⟩ := hr'.reds (by omega)
      refine ⟨done ++ [(s'.char, q)], s'.char == Tok.NUMBER, s'.lexer.rest, n :: e.yys :: l.map SymType.yys, ?_, ?_, ?_, ?_, ?_, ?_, ?_, ?_, ?_, ?_⟩
      · exact hr'.reads.snoc q1 q2
      · exact okToks_append.2 ⟨hr'.toks, by intro x hx; simp at hx; subst hx; exact ⟨hc.1, hc.2.1⟩⟩
      · intro _; rw [hlx]; exact ⟨q3.symm, rfl⟩
      · intro hx; omega
      · intro hx; omega
      · intro R hR
        have hR' : OkToks ((s'.char, q) :: R) := by
          intro x hx
          rcases List.mem_cons.1 hx with rfl | hx
          · exact ⟨hc.1, hc.2.1⟩
          · exact hR x hx
        obtain ⟨ts1, h1⟩ := hr'.reach _ hR'
        have htn : tokNo (firstCode 0 ((s'.char, q) :: R)) = s'.token := by
          show tokNo s'.char = _
          unfold tokNo
          rw [if_neg (by omega)]
          exact hc.2.2.symm
        obtain ⟨ts2, h2⟩ := redN_reach hk ts1 _ htn
        refine ⟨.leaf s'.char q :: ts2, ?_⟩
        have h3 := h1.trans h2
        simp only [List.append_assoc, List.singleton_append]
        refine h3.tail ?_
        unfold astep
        simp only [List.map_cons, hes]
        rw [htn, hact]
      · have := redN_path ht.range.1 ht.range.2 hk hr'.path
        simp only [List.map_cons] at this
        exact .cons _ _ _ this hs.lt (by rw [hes]; exact hs.pred)
      · intro _; simp [he']
      · intro hx; omega
      · intro hfl
        rw [hlx] at hfl
        obtain ⟨f1, f2⟩ := hr'.free hfl
        exact ⟨f1.snoc hr'.reads (f2 (by omega)).2, by intro hx; omega⟩
    | reduce _ rl lhs rhs B hf hre ht =>
      obtain ⟨s2, e', es, b, l', kids, ts', g, h0, h1, h2, h3, h4, h5, h6, k1, k2, k3, k4, hinv, _⟩ := reduce_inv h hf ht hre
      simp only
      rw [h0]
      have hfin : s2.lexer.fin = s.lexer.fin := by rw [k1]; exact (hf.hist h.hist).fin
      refine .next _ _ _ _ (hfin ▸ hinv) ⟨?_, by rw [k1]; exact hbad hf⟩
      intro herr
      rw [k1] at herr
      obtain ⟨done, adj, r, σ0, hr⟩ := hR (hf.noErr herr)
      have hr' := hf.read herr hr
      have hdrop : (s.state :: l.map SymType.yys).drop rhs.length = b.yys :: l'.map SymType.yys := by
        have : s.state :: l.map SymType.yys = (e :: l).map SymType.yys := by simp [hes]
        rw [this, h1, List.map_append, List.drop_left' (by simp [h2])]
        rfl
      have hred : ∀ t, act s.state t = .ok (.reduce rl) → red t ((e :: l).map SymType.yys) = some ((e' :: b :: l').map SymType.yys) := by
        intro t hact
        simp only [List.map_cons, hes, h6]
        unfold red
        simp only [hact, hre.rule, hdrop, h5]
      cases decide_table h.lt h.tok hd hf herr with
      | blind e1 hc htab =>
        subst e1
        have hs0 := hr'.same hc
        subst hs0
        obtain ⟨e1, e2⟩ := hr'.before hc
        refine ⟨done, adj, r, (e' :: b :: l').map SymType.yys, hr'.reads, hr'.toks, ?_, ?_, ?_, ?_, ?_, fun _ => rfl, ?_, ?_⟩
        · intro _; rw [k1]; exact ⟨e1, e2⟩
        · intro hx; omega
        · intro hx; omega
        · intro R hok
          obtain ⟨ts1, q1⟩ := hr'.reach R hok
          obtain ⟨ts2, q2⟩ := red_reach (hred _ (htab _ (okToks_first hok).1 (okToks_first hok).2)) ts1 R rfl
          exact ⟨ts2, q1.tail q2⟩
        · exact red_path (hred 1 (htab 1 (by omega) (by omega))) hr'.path (by omega) (by omega)
        · intro hx; omega
        · intro hfl
          rw [k1] at hfl
          exact ⟨(hr'.free hfl).1, by intro hx; omega⟩
      | seen hc htok hact =>
        obtain ⟨n, hn⟩ := hr'.reds hc
        refine ⟨done, adj, r, σ0, hr'.reads, hr'.toks, ?_, ?_, ?_, hr'.reach, hr'.path, ?_, ?_, ?_⟩
        · intro hx; omega
        · intro hx
          rw [k3] at hx ⊢
          rw [k1]
          exact hr'.token hx
        · intro hx
          rw [k3] at hx
          exact hr'.atEnd hx
        · intro hx; omega
        · intro _
          rw [k4]
          exact ⟨n + 1, redN_add hn (redN_succ.2 ⟨_, hred _ hact, rfl⟩)⟩
        · intro hfl
          rw [k1] at hfl
          rw [k3]
          exact hr'.free hfl
    | accept _ hf => exact .ret _ fun he => (hbad hf he).imp_right fun k => ⟨k.1, k.2.1⟩
    | error _ hf =>
      obtain ⟨s'', h1, h2⟩ := error_ret' h hf
      simp only
      rw [h1]
      refine .error s' s'' ((e :: l).map SymType.yys) h2 (by rw [hf.state]; exact h.lt) (by simp [hes, hf.state]) (fun he => (hbad hf he).imp_right fun k => ⟨k.1, k.2.1⟩) ?_
      intro herr
      obtain ⟨done, adj, r, σ0, hr⟩ := hR (hf.noErr herr)
      rw [hf.state]
      cases decide_table h.lt h.tok hd hf herr with
      | blind e1 hc htab =>
        have := List.all_eq_true.1 no_blind_error s.state (List.mem_range.2 h.lt)
        obtain ⟨i, hi, hx⟩ := List.any_eq_true.1 this
        have hi := List.mem_range.1 hi
        rw [htab _ (by omega) (by omega)] at hx
        simp [decEq] at hx
      | seen hc ht hact => exact ⟨hc, ht, hact, done, adj, r, σ0, hf.read herr hr⟩

/-- What a run that reports an error has read. -/
inductive ReadEnds (u : Unicode) (text : Str) (fin : ReadEnd) (s' : PState) : Prop
  | lexical : (s'.lexer.err ≠ none → Bad u text fin ∨ (fin = .fail ∧ Ended u text)) → ReadEnds u text fin s'
  | syntactic (s1 : PState) (σ : List Nat) (done : List Token) (adj : Bool) (r : Str) (σ0 : List Nat) :
      s'.lexer = s1.lexer.error (.syntaxError s1.state s1.token) → s1.state < 432 → σ.head? = some s1.state →
      s1.lexer.err = none → 0 ≤ s1.char → TokOk s1 → act s1.state s1.token = .ok .error → Read u text s1 σ done adj r σ0 → s1.lexer.fin = fin →
      ReadEnds u text fin s'

theorem run_read {u : Unicode} {text : Str} {fin : ReadEnd} : ∀ (n : Nat) {s : PState} {st : List RawSym} {ts : List Tree} {done : List Token}
    {c : Int} {s' : PState}, Inv u text fin s st ts done → s.lexer.fin = fin → GoodTop u text s (st.map SymType.yys) →
    runSteps u n s = .ret c s' → ReadEnds u text fin s'
  | 0, _, _, _, _, _, _, _, _, _, h => by cases h
  | n + 1, s, st, ts, done, c, s', hinv, hfin, hg, h => by
    subst hfin
    have hout := read_step hinv hg
    have hf' := (step_ok hinv)
    unfold runSteps at h
    generalize hx : step u s = x at h hout hf'
    cases hout with
    | next s2 st2 ts2 done2 hinv2 hg2 =>
      have e : s2.lexer.fin = s.lexer.fin := by
        rcases hf' with ⟨h, _⟩ | ⟨_, _, h, _⟩ | ⟨s3, _, _, _, h, hi, _⟩
        · cases h
        · cases h
        · cases h; exact hi.hist.fin
      simp only at h
      have := run_read n (e ▸ hinv2) e hg2 h
      exact this
    | ret s2 hb =>
      cases h
      have e : s'.lexer.fin = s.lexer.fin := by
        rcases hf' with ⟨h, _⟩ | ⟨_, _, h, hfl⟩ | ⟨s3, _, _, _, h, _⟩
        · cases h
        · cases h
          cases hfl with
          | accept _ _ _ _ _ _ _ _ _ _ _ hh => exact hh.fin
        · cases h
      rw [e] at hb
      exact .lexical hb
    | hang => cases h
    | error s1 s2 σ e1 e2 e3 hb hr =>
      cases h
      have e : s1.lexer.fin = s.lexer.fin := by
        rcases hf' with ⟨h, _⟩ | ⟨_, _, h, hfl⟩ | ⟨s3, _, _, _, h, _⟩
        · cases h
        · cases h
          cases hfl with
          | error _ _ hh =>
            have := hh.fin
            rw [e1] at this
            exact this
        · cases h
      by_cases he : s1.lexer.err = none
      · obtain ⟨h1, h2, h3, done, adj, r, σ0, h4⟩ := hr he
        exact .syntactic s1 σ done adj r σ0 e1 e2 e3 he h1 h2 h3 h4 e
      · rw [e] at hb
        exact .lexical fun _ => hb he

theorem init_good (u : Unicode) (text : Str) (fin : ReadEnd) :
    GoodTop u text (PState.init (LexState.init text fin)) ([{ ({} : RawSym) with yys := 0 }].map SymType.yys) := by
  refine ⟨fun _ => ⟨[], false, text, [0], .nil _ _, by simp [OkToks], fun _ => ⟨rfl, rfl⟩, ?_, ?_, fun R _ => ⟨[], .refl⟩, .base, fun _ => rfl, ?_, ?_⟩, ?_⟩
  · intro h; exact absurd h (by show ¬ (0 : Int) < -1; omega)
  · intro h; exact absurd h (by show ¬ (-1 : Int) = 0; omega)
  · intro h; exact absurd h (by show ¬ (0 : Int) ≤ -1; omega)
  · intro _; exact ⟨free_nil, fun h => absurd h (by show ¬ (0 : Int) ≤ -1; omega)⟩
  · intro h; exact absurd rfl h

theorem init_stack {u : Unicode} {text : Str} {fin : ReadEnd} {st0 : List RawSym} (hinv : Inv u text fin (PState.init (LexState.init text fin)) st0 [] []) :
    st0.map SymType.yys = [{ ({} : RawSym) with yys := 0 }].map SymType.yys := by
  have h1 := hinv.top
  have h2 := hinv.view.len
  have h3 : (PState.init (LexState.init text fin)).depth = 1 := rfl
  rw [h3] at h2
  obtain ⟨e, rfl⟩ := List.length_eq_one_iff.1 h2
  simp only [List.head?_cons, Option.map_some, Option.some.injEq] at h1
  simp only [List.map_cons, List.map_nil, h1]
  rfl

/-- What was read when an error is reported: tokens the machine can go on from, then text that is no token, or a token, or the end, that the
machine cannot take. -/
theorem stream_error_read {u : Unicode} {text : Str} {fin : ReadEnd} {line : Int} {e : ErrMsg} (h : parseStream u text fin = .err line e) :
    Bad u text fin ∨ (fin = .fail ∧ Ended u text) ∨
      ∃ (st : Nat) (tok : Int) (done : List Token) (adj : Bool) (r : Str) (σ0 σ : List Nat) (n : Nat), e = .syntaxError st tok ∧ Reads u false text done adj r ∧ OkToks done ∧ st < 432 ∧ 1 ≤ tok ∧ tok ≤ 128 ∧
        (∀ R, OkToks R → ∃ ts, Reach ⟨[0], [], done ++ R⟩ ⟨σ0, ts, R⟩) ∧ Path σ0 ∧ redN tok n σ0 = some σ ∧ σ.head? = some st ∧
        act st tok = .ok .error ∧
        ((tok = 1 ∧ SkipTo r []) ∨ ∃ sp rest p, SkipTo r (sp ++ rest) ∧ Lexeme u (adj && decide (r = sp ++ rest)) sp rest (tok + 57342) p) ∧
        (fin = .fail → Free u text done ∧ ¬ Stuck r) := by
  unfold parseStream at h
  rcases yyParse_ok u text fin with ⟨hx, hf⟩ | ⟨c, s, hs, hfin⟩
  · rw [hx] at h; cases h
  · rw [hs] at h
    obtain ⟨st0, hinv, _⟩ := init_inv u text fin
    have hr := run_read _ hinv rfl (init_stack hinv ▸ init_good u text fin) hs
    have herr : s.lexer.err = some (line, e) := by
      simp only [resultOf] at h
      split at h
      · next l m hm => cases h; exact hm
      · split at h <;> cases h
    cases hr with
    | lexical hb =>
      rcases hb (by rw [herr]; simp) with hb | hb
      · exact .inl hb
      · exact .inr (.inl hb)
    | syntactic s1 σ done adj r σ0 e1 e2 e3 he hc ht hact hread hf1 =>
      rw [e1] at herr
      simp only [LexState.error, Option.some.injEq, Prod.mk.injEq] at herr
      obtain ⟨_, rfl⟩ := herr
      obtain ⟨n, hn⟩ := hread.reds hc
      refine .inr (.inr ⟨s1.state, s1.token, done, adj, r, σ0, σ, n, rfl, hread.reads, hread.toks, e2, ht.range.1, ht.range.2, hread.reach, hread.path, hn, e3, hact, ?_, ?_⟩)
      · rcases ht with ht | ht
        · exact .inl ⟨ht.2, hread.atEnd (by omega)⟩
        · obtain ⟨sp, p, q1, q2, _⟩ := hread.token (by omega)
          refine .inr ⟨sp, _, p, q1, ?_⟩
          rw [ht.2.2, show s1.char - 57342 + 57342 = s1.char by omega]
          exact q2
      · intro hf
        obtain ⟨f1, f2⟩ := hread.free (hf1.trans hf)
        exact ⟨f1, (f2 hc).2⟩

/-- What was read when an error is reported and the text could be read. -/
theorem error_read {u : Unicode} {text : Str} {line : Int} {e : ErrMsg} (h : parseString u text = .err line e) : Bad u text .eof ∨
      ∃ (st : Nat) (tok : Int) (done : List Token) (adj : Bool) (r : Str) (σ0 σ : List Nat) (n : Nat), e = .syntaxError st tok ∧ Reads u false text done adj r ∧ OkToks done ∧ st < 432 ∧ 1 ≤ tok ∧ tok ≤ 128 ∧
        (∀ R, OkToks R → ∃ ts, Reach ⟨[0], [], done ++ R⟩ ⟨σ0, ts, R⟩) ∧ Path σ0 ∧ redN tok n σ0 = some σ ∧ σ.head? = some st ∧
        act st tok = .ok .error ∧
        ((tok = 1 ∧ SkipTo r []) ∨ ∃ sp rest p, SkipTo r (sp ++ rest) ∧ Lexeme u (adj && decide (r = sp ++ rest)) sp rest (tok + 57342) p) := by
  rcases stream_error_read h with hb | ⟨hf, _⟩ | ⟨st, tok, done, adj, r, σ0, σ, n, h1, h2, h3, h4, h5, h6, h7, h8, h9, h10, h11, h12, _⟩
  · exact .inl hb
  · cases hf
  · exact .inr ⟨st, tok, done, adj, r, σ0, σ, n, h1, h2, h3, h4, h5, h6, h7, h8, h9, h10, h11, h12⟩

theorem run_hang {u : Unicode} {text : Str} {fin : ReadEnd} : ∀ (n : Nat) {s : PState} {st : List RawSym} {ts : List Tree} {done : List Token},
    Inv u text fin s st ts done → s.lexer.fin = fin → GoodTop u text s (st.map SymType.yys) →
    runSteps u n s = .abort .hang → Hung u text ∨ Bad u text .fail
  | 0, _, _, _, _, _, _, _, h => by cases h
  | n + 1, s, st, ts, done, hinv, hfin, hg, h => by
    subst hfin
    have hout := read_step hinv hg
    have hf' := (step_ok hinv)
    unfold runSteps at h
    generalize hx : step u s = x at h hout hf'
    cases hout with
    | next s2 st2 ts2 done2 hinv2 hg2 =>
      have e : s2.lexer.fin = s.lexer.fin := by
        rcases hf' with ⟨h, _⟩ | ⟨_, _, h, _⟩ | ⟨s3, _, _, _, h, hi, _⟩
        · cases h
        · cases h
        · cases h; exact hi.hist.fin
      exact run_hang n (e ▸ hinv2) e hg2 h
    | ret s2 hb => cases h
    | hang hh => exact hh
    | error s1 s2 σ e1 e2 e3 hb hr => cases h

/-- What was read when the parser does not return. -/
theorem hang_read {u : Unicode} {text : Str} {fin : ReadEnd} (h : parseStream u text fin = .hang) : Hung u text ∨ Bad u text .fail := by
  unfold parseStream at h
  obtain ⟨st0, hinv, _⟩ := init_inv u text fin
  refine run_hang (fuelFor text.length) hinv rfl (init_stack hinv ▸ init_good u text fin) ?_
  change resultOf (runSteps u (fuelFor text.length) (PState.init (LexState.init text fin))) = .hang at h
  generalize runSteps u _ _ = x at h ⊢
  cases x with
  | ret c s =>
    simp only [resultOf] at h
    split at h
    · cases h
    · split at h <;> cases h
  | abort a => cases a <;> first | rfl | cases h
  | outOfFuel => cases h

end Asn1go.LR
