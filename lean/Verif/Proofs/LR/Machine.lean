import Verif.Proofs.LR.Simul
import Verif.Spec.Preferred
import Mathlib.Logic.Relation

/-! The parser's loop as a machine on states, derivation trees and remaining tokens, without memory and lexer. -/

namespace Asn1go.LR

open Asn1go Spec

/-- The internal number of a token code. -/
def tokNo (c : Int) : Int := if c ≤ 0 then 1 else c - 57342

/-- What the tables say in state `s` with token number `t` ahead. -/
def act (s : Nat) (t : Int) : Except Abort Decision := do
  match ← shiftOf s t with
  | some n => pure (.shift n)
  | none =>
    let n ← Tab.yyDef.at s
    if n = -2 then
      let l ← excaFind s Tab.yyExca.toList
      let n ← excaScan t l
      pure (defaultDecision n)
    else pure (if n = 0 then .error else .reduce n.toNat)

/-- States (top first), trees (top first) and tokens not yet shifted. -/
structure Conf where
  states : List Nat
  trees : List Tree
  rest : List Token

/-- What a round can give. -/
inductive AOut
  | next (c : Conf)
  | accept
  | error
  | stuck

/-- One round. -/
def astep (c : Conf) : AOut :=
  match c.states with
  | [] => .stuck
  | s :: _ =>
    match act s (tokNo (firstCode 0 c.rest)) with
    | .ok (.shift n) =>
      match c.rest with
      | [] => .stuck
      | (k, p) :: rest => .next ⟨n :: c.states, .leaf k p :: c.trees, rest⟩
    | .ok (.reduce r) =>
      match ruleOf r with
      | none => .stuck
      | some (lhs, rhs) =>
        match c.states.drop rhs.length with
        | [] => .stuck
        | b :: l =>
          match gotoState lhs b with
          | .error _ => .stuck
          | .ok g => .next ⟨g :: b :: l, .node r (c.trees.take rhs.length).reverse :: c.trees.drop rhs.length, c.rest⟩
    | .ok .accept => .accept
    | .ok .error => .error
    | .error _ => .stuck

/-- Several rounds. -/
def Reach : Conf → Conf → Prop := Relation.ReflTransGen (fun a b => astep a = .next b)

/-- The machine accepts the tokens with the tree. -/
def Accepts (toks : List Token) (t : Tree) : Prop :=
  ∃ ss, Reach ⟨[0], [], toks⟩ ⟨ss, [t], []⟩ ∧ astep ⟨ss, [t], []⟩ = .accept

theorem reach_accept_unique {a b : Conf} (hb : Reach a b) (hba : astep b = .accept) {c : Conf} (hc : Reach a c)
    (hca : astep c = .accept) : b = c := by
  induction hb using Relation.ReflTransGen.head_induction_on with
  | refl =>
    cases hc using Relation.ReflTransGen.head_induction_on with
    | refl => rfl
    | head h _ => rw [hba] at h; cases h
  | head h _ ih =>
    cases hc using Relation.ReflTransGen.head_induction_on with
    | refl => rw [hca] at h; cases h
    | head h' hr =>
      rw [h] at h'
      cases h'
      exact ih hr

theorem accepts_unique {toks : List Token} {t t' : Tree} (h : Accepts toks t) (h' : Accepts toks t') : t = t' := by
  obtain ⟨ss, h1, h2⟩ := h
  obtain ⟨ss', h1', h2'⟩ := h'
  have := reach_accept_unique h1 h2 h1' h2'
  cases this
  rfl

/-- The tokens not yet shifted, as the parser state has them. -/
inductive Rem (u : Unicode) (s : PState) : List Token → Prop
  | ready (R : List Token) : s.char < 0 → Delivers u s.lexer R → Rem u s R
  | pending (c : Int) (p : Payload) (R : List Token) : s.char = c → 57346 ≤ c → c ≤ 57470 → s.token = c - 57342 → Delivers u s.lexer R →
      Rem u s ((c, p) :: R)
  | eof : s.char = 0 → s.token = 1 → Delivers u s.lexer [] → Rem u s []

theorem rem_fetch {u : Unicode} {s : PState} {R : List Token} (h : Rem u s R) :
    ∃ sf, fetch u s = .ok sf ∧ Rem u sf R ∧ 0 ≤ sf.char ∧ sf.token = tokNo (firstCode 0 R) ∧ sf.char = firstCode 0 R ∧
      sf.lexer.err = s.lexer.err := by
  cases h with
  | ready R hc hd =>
    unfold fetch
    rw [if_pos hc]
    cases R with
    | nil =>
      obtain ⟨st', h1, h2, h3⟩ := hd.lex_nil s.lval
      rw [h1]
      simp only [tokenOf_nonpos (Int.le_refl 0), ok_bind]
      exact ⟨_, rfl, .eof rfl rfl h2, by simp, rfl, rfl, h3⟩
    | cons a R =>
      obtain ⟨c, p⟩ := a
      obtain ⟨k1, k2, st', h1, h2, h3⟩ := hd.lex_cons s.lval
      rw [h1]
      simp only [tokenOf_code k1 k2, ok_bind]
      refine ⟨_, rfl, .pending c p R rfl k1 k2 rfl h2, ?_, ?_, rfl, h3⟩
      · show 0 ≤ c; omega
      · show c - 57342 = tokNo c
        unfold tokNo
        rw [if_neg (by omega)]
  | pending c p R h1 h2 h3 h4 h5 =>
    unfold fetch
    rw [if_neg (by omega)]
    refine ⟨s, rfl, .pending c p R h1 h2 h3 h4 h5, by omega, ?_, h1, rfl⟩
    show _ = tokNo c
    unfold tokNo
    rw [if_neg (by omega)]
    exact h4
  | eof h1 h2 h3 =>
    unfold fetch
    rw [if_neg (by omega)]
    exact ⟨s, rfl, .eof h1 h2 h3, by omega, h2, h1, rfl⟩

theorem fetch_idem {u : Unicode} {s : PState} (h : 0 ≤ s.char) : fetch u s = .ok s := by
  unfold fetch
  rw [if_neg (by omega)]
  rfl

/-- Deciding after a fetch without a shift. -/
theorem decideDefault_act {u : Unicode} {s s0 sf : PState} (hst : s.state < 432) (h0 : s = s0 ∨ s = sf) (hsf : sf.state = s.state)
    (hf : fetch u s = .ok sf) (hno : shiftOf s.state sf.token = .ok none) (hr : sf.token = sf.token) :
    ∃ d s', decideDefault u s = .ok (d, s') ∧ act s.state sf.token = .ok d ∧ (s' = s0 ∨ s' = sf) ∧
      (∀ n, d ≠ .shift n) ∧ (d = .accept → s' = sf) := by
  unfold act decideDefault
  rw [hno, ok_bind]
  obtain ⟨n, hn, hr⟩ := yyDef_ok hst
  obtain ⟨l, hl, hd⟩ := reduceOk hst
  simp only
  rw [hn, ok_bind, ok_bind]
  unfold defaultsOf at hl
  rw [hn, ok_bind] at hl
  split
  · rename_i h2
    rw [if_pos h2, bind_ok] at hl
    obtain ⟨l', hl', hv⟩ := hl
    rw [hf, ok_bind, hsf, hl', ok_bind, ok_bind]
    obtain ⟨m, hm⟩ := excaScan_ok (t := sf.token) hv
    rw [hm]
    refine ⟨_, _, rfl, rfl, Or.inr rfl, ?_, fun _ => rfl⟩
    intro n
    unfold defaultDecision
    split
    · simp
    · split <;> simp
  · refine ⟨_, _, rfl, rfl, h0, ?_, ?_⟩
    · intro n
      split <;> simp
    · split <;> simp

/-- The parser decides as the tables say for the token ahead. -/
theorem decide_act {u : Unicode} {s sf : PState} (hst : s.state < 432) (hf : fetch u s = .ok sf) (hc : 0 ≤ sf.char)
    (hr : 1 ≤ sf.token ∧ sf.token ≤ 128) (hsf : sf.state = s.state) :
    ∃ d s', decideStep u s = .ok (d, s') ∧ act s.state sf.token = .ok d ∧ (s' = s ∨ s' = sf) ∧
      (∀ n, d = .shift n → s' = sf) ∧ (d = .accept → s' = sf) := by
  unfold decideStep
  obtain ⟨n, hn⟩ := yyPact_ok hst
  obtain ⟨o, ho, _⟩ := shiftOk hst hr.1 hr.2
  have ho' := ho
  unfold shiftOf at ho'
  rw [hn, ok_bind] at ho' ⊢
  split
  · rename_i hfl
    rw [if_pos hfl] at ho'
    cases ho'
    obtain ⟨d, s', h1, h2, h3, h4, h5⟩ := decideDefault_act (s0 := s) hst (Or.inl rfl) hsf hf ho rfl
    exact ⟨d, s', h1, h2, h3, fun n h => absurd h (h4 n), h5⟩
  · rename_i hfl
    rw [if_neg hfl] at ho'
    rw [hf, ok_bind]
    have key : o = none → ∃ d s', decideDefault u sf = .ok (d, s') ∧ act s.state sf.token = .ok d ∧ (s' = s ∨ s' = sf) ∧
      (∀ n, d = .shift n → s' = sf) ∧ (d = .accept → s' = sf) := by
      rintro rfl
      rw [← hsf] at ho hst ⊢
      obtain ⟨d, s', h1, h2, h3, h4, h5⟩ := decideDefault_act (s0 := s) hst (Or.inr rfl) rfl (fetch_idem hc) ho rfl
      exact ⟨d, s', h1, h2, h3, fun n h => absurd h (h4 n), h5⟩
    simp only at ho' ⊢
    split
    · rename_i h2
      rw [if_pos h2] at ho'
      cases ho'
      exact key rfl
    · rename_i h2
      rw [if_neg h2, bind_ok] at ho'
      obtain ⟨a, ha, ho'⟩ := ho'
      rw [bind_ok] at ho'
      obtain ⟨c, hc', ho'⟩ := ho'
      rw [ha, ok_bind, hc', ok_bind]
      split
      · rename_i h3
        rw [if_pos h3, bind_ok] at ho'
        obtain ⟨st, hst', ho'⟩ := ho'
        cases ho'
        rw [hst']
        refine ⟨_, _, rfl, ?_, Or.inr rfl, fun _ _ => rfl, fun _ => rfl⟩
        unfold act
        rw [ho]
        rfl
      · rename_i h3
        rw [if_neg h3] at ho'
        cases ho'
        exact key rfl

/-- The invariant with the tokens not yet shifted. -/
structure AInv (u : Unicode) (text : Str) (s : PState) (st : List RawSym) (ts : List Tree) (done R : List Token) : Prop where
  inv : Inv u text .eof s st ts done
  rem : Rem u s R
  tokens : Tokens u false text (done ++ R)
  err : s.lexer.err = none

/-- The configuration of the machine. -/
def confOf (st : List RawSym) (ts : List Tree) (R : List Token) : Conf := ⟨st.map SymType.yys, ts, R⟩

/-- The rounds of the parser are those of the machine. -/
inductive SimOut (u : Unicode) (text : Str) (s : PState) (ts : List Tree) (R : List Token) : AOut → Except Abort Step → Prop
  | next (s' : PState) (st : List RawSym) (ts' : List Tree) (done R' : List Token) : AInv u text s' st ts' done R' →
      SimOut u text s ts R (.next (confOf st ts' R')) (.ok (.next s'))
  | accept (s' : PState) (t : Tree) (m : ModuleDefinition RefPtr Slot) : ts = [t] → R = [] → s'.lexer.err = none →
      s'.result = some m → (∃ kids, t = .node 1 kids) →
      m.map knownRef noSlot = t.module erased ∧ m.map s'.derefRef s'.derefValue = t.exact →
      (∃ toks, Derives (.n NT.ModuleDefinition) toks t ∧ Tokens u false text toks) →
      SimOut u text s ts R .accept (.ok (.ret 0 s'))
  | error (s' : PState) : s'.lexer.err ≠ none → SimOut u text s ts R .error (.ok (.ret 1 s'))

theorem Rem.tokOk {u : Unicode} {s : PState} {R : List Token} (h : Rem u s R) (hc : 0 ≤ s.char) : TokOk s := by
  cases h with
  | ready R h => omega
  | pending c p R h1 h2 h3 h4 => exact Or.inr ⟨by omega, by omega, by omega⟩
  | eof h1 h2 => exact Or.inl ⟨by omega, h2⟩

/-- Nothing that matters for the remaining tokens changed. -/
theorem Rem.congr {u : Unicode} {s s' : PState} {R : List Token} (h : Rem u s R) (h1 : s'.lexer = s.lexer) (h2 : s'.char = s.char)
    (h3 : s'.token = s.token) : Rem u s' R := by
  cases h with
  | ready R a b => exact .ready R (by omega) (by rw [h1]; exact b)
  | pending c p R a b d e f => exact .pending c p R (by omega) b d (by omega) (by rw [h1]; exact f)
  | eof a b c => exact .eof (by omega) (by omega) (by rw [h1]; exact c)

theorem fetch_state {u : Unicode} {s sf : PState} (h : fetch u s = .ok sf) : sf.state = s.state := by
  unfold fetch at h
  split at h
  · split at h
    · cases h
    · rw [bind_ok] at h
      obtain ⟨t, _, h⟩ := h
      cases h
      rfl
  · cases h; rfl

theorem sim_step {u : Unicode} {text : Str} {s : PState} {st : List RawSym} {ts : List Tree} {done R : List Token}
    (h : AInv u text s st ts done R) : SimOut u text s ts R (astep (confOf st ts R)) (step u s) := by
  obtain ⟨hinv, hrem, htok, herr⟩ := h
  obtain ⟨sf, hf, hremf, hcf, htf, hchf, herrf⟩ := rem_fetch hrem
  have hr := (hremf.tokOk hcf).range
  obtain ⟨d, s', hd, hact, hs', hsh, hacc⟩ := decide_act hinv.lt hf hcf hr (fetch_state hf)
  have hrem' : Rem u s' R := by rcases hs' with rfl | rfl <;> assumption
  have herr' : s'.lexer.err = none := by
    rcases hs' with rfl | rfl
    · exact herr
    · rw [herrf]; exact herr
  have hdec : Decides u s d s' := by
    rcases decideStep_ok u s hinv.lt hinv.tok with ⟨hx, _⟩ | ⟨d', s'', hx, hdec⟩
    · rw [hd] at hx; cases hx
    · rw [hd] at hx; cases hx; exact hdec
  have hst : ∃ e l, st = e :: l ∧ e.yys = s.state := by
    have := hinv.top
    cases st with
    | nil => simp at this
    | cons e l => exact ⟨e, l, rfl, by simpa using this⟩
  obtain ⟨e, l, rfl, hes⟩ := hst
  unfold step
  rw [hd, ok_bind]
  unfold astep confOf
  simp only [List.map_cons]
  rw [hes, ← htf, hact]
  cases hdec with
  | shift _ n hfe hto hso =>
    have := hsh n rfl
    subst this
    obtain ⟨e', p, he', hinv', _⟩ := shift_inv hinv hfe hto hso
    have hc : 57346 ≤ s'.char := by
      have := hso.token
      rcases hto with hto | hto <;> omega
    cases hremf with
    | ready R a => omega
    | eof a => omega
    | pending c p0 R a1 a2 a3 a4 hdel =>
      simp only
      have hL := hinv'.lex
      have hpf := push_fields { s' with char := -1, token := -1, state := n, errflag := s'.errflag - 1, val := leafOf s'.lval }
      have hlx : (shift n s').lexer = s'.lexer := hpf.1
      have hch : (shift n s').char = -1 := hpf.2.2.2.1
      have hT : Tokens u false text ((done ++ [(s'.char, p)]) ++ R) := by
        cases hL with
        | failed x _ => rw [hlx] at x; exact absurd herr' x
        | ready _ k => exact k R (by rw [hlx]; exact hdel.tokens)
        | pending _ _ x => omega
        | eof x => omega
      have heq := Tokens.det hT htok
      simp only [List.append_assoc, List.singleton_append, List.append_cancel_left_eq, List.cons.injEq, Prod.mk.injEq] at heq
      obtain ⟨⟨_, rfl⟩, _⟩ := heq
      subst a1
      have hA : AInv u text (shift n s') (e' :: e :: l) (.leaf s'.char p :: ts) (done ++ [(s'.char, p)]) R :=
        ⟨hinv', .ready R (by omega) (by rw [hlx]; exact hdel), hT, by rw [hlx]; exact herr'⟩
      have := SimOut.next (s := s) (ts := ts) (R := (s'.char, p) :: R) _ _ _ _ _ hA
      unfold confOf at this
      simp only [List.map_cons, he', hes] at this
      exact this
  | reduce _ r lhs rhs B hfe hre hto =>
    obtain ⟨s2, e', es, b, l', kids, ts', g, h0, h1, h2, h3, h4, h5, h6, k1, k2, k3, k4, hinv', _⟩ := reduce_inv hinv hfe hto hre
    simp only
    rw [hre.rule]
    simp only
    have hdrop : (s.state :: l.map SymType.yys).drop rhs.length = b.yys :: l'.map SymType.yys := by
      have : s.state :: l.map SymType.yys = (e :: l).map SymType.yys := by simp [hes]
      rw [this, h1, List.map_append, List.drop_left' (by simp [h2])]
      rfl
    rw [hdrop]
    simp only
    rw [h5]
    simp only
    rw [h3, List.take_left' h4, List.drop_left' h4, h0]
    have hA : AInv u text s2 (e' :: b :: l') (.node r kids.reverse :: ts') done R :=
      ⟨hinv', hrem'.congr k1 k3 k4, htok, by rw [k1]; exact herr'⟩
    have := SimOut.next (s := s) (ts := kids ++ ts') (R := R) _ _ _ _ _ hA
    unfold confOf at this
    simp only [List.map_cons, h6] at this
    exact this
  | accept _ hfe hto hs1 ht1 _ =>
    have hstep' : step u s = .ok (.ret 0 s') := by
      unfold step; rw [hd, ok_bind]; rfl
    obtain ⟨m, kids, ts', rfl, hres, hm, hx⟩ := hinv.result hs1
    have hR : R = [] := by
      have := hacc rfl
      subst this
      cases R with
      | nil => rfl
      | cons a R =>
        cases hremf with
        | ready _ a => omega
        | pending c p R a1 a2 a3 a4 => omega
    subst hR
    have hstk := hinv.stk
    cases hstk with
    | cons _ p l t ts done toks X hp h1 h2 h3 h4 h5 h6 =>
      rw [hes, hs1, preds_one] at h2
      rw [hes, hs1, sym_one] at h4
      have hX := symInt_inj (by decide) h3 h4
      subst hX
      cases hp with
      | cons _ q _ _ _ _ _ _ _ _ hq =>
        simp at h2
        rw [h2, preds_zero] at hq
        simp at hq
      | base =>
        refine .accept s' _ m rfl rfl herr' (by rw [hfe.frame.1]; exact hres) ⟨kids, rfl⟩ ⟨?_, ?_⟩ ⟨toks, h5, ?_⟩
        · rw [hm, Tree.module, evalList_eq]
        · exact exact_of_mem (MemOk.congr (s := s) hinv.mem.ok hfe.frame.2.1 hfe.frame.2.2.1) hx
        · simpa using htok
  | error _ hfe =>
    obtain ⟨s'', he, h1, _⟩ := error_ret hinv hfe
    simp only
    rw [he]
    exact .error _ h1

theorem init_ainv {u : Unicode} {text : Str} {toks : List Token} (h : Tokens u false text toks) :
    ∃ st, AInv u text (PState.init (LexState.init text .eof)) st [] [] toks ∧ confOf st [] toks = ⟨[0], [], toks⟩ := by
  refine ⟨[{ ({} : RawSym) with yys := 0 }], ⟨⟨?_, .base _ rfl, rfl, rfl, ?_, ?_, ?_, Hist.init text .eof, init_mem _, trivial⟩, ?_, h, rfl⟩, rfl⟩
  · exact push_view (s := { lexer := LexState.init text .eof, cur := List.replicate yyInitialStackSize {} }) (st := [])
      ⟨rfl, by simp, by simp [yyInitialStackSize]⟩
  · left; show (-1 : Int) < 0; omega
  · exact .ready (by show (-1 : Int) < 0; omega) (fun toks h => h)
  · intro h; exact absurd h (by show ¬ (0 = 1); omega)
  · exact .ready toks (by show (-1 : Int) < 0; omega) ⟨rfl, h⟩

/-- What the parser returns when it accepts. -/
theorem accept_result {u : Unicode} {text : Str} {toks : List Token} {t : Tree} {s : PState} {m : ModuleDefinition RefPtr Slot}
    (he : s.lexer.err = none) (hr : s.result = some m)
    (hm : m.map knownRef noSlot = t.module erased ∧ m.map s.derefRef s.derefValue = t.exact)
    (hd : Derives (.n NT.ModuleDefinition) toks t) (ht : Tokens u false text toks) :
    ∃ m', resultOf (.ret 0 s) = .ok m' ∧ Parsed u text m' toks t := by
  refine ⟨m.map s.derefRef s.derefValue, by simp only [resultOf, he, hr], ht, hd, ⟨m.map (mark s) s.derefValue, ?_, ?_⟩, hm.2⟩
  · rw [ModuleDefinition.map_map]
    congr 1
    funext p
    cases p <;> rfl
  · rw [marked_known hd, ← hm.1, ModuleDefinition.map_map]
    congr 1
    funext p
    cases p <;> rfl

/-- A run of the machine that accepts is a run of the parser. -/
theorem run_of_reach {u : Unicode} {text : Str} {toks : List Token} {t : Tree} {ss : List Nat} {c : Conf}
    (h : Reach c ⟨ss, [t], []⟩) (ha : astep ⟨ss, [t], []⟩ = .accept) :
    ∀ {s : PState} {st : List RawSym} {done : List Token}, AInv u text s st c.trees done c.rest → confOf st c.trees c.rest = c →
      Tokens u false text toks → ∃ n s', runSteps u n s = .ret 0 s' ∧ ∃ m, resultOf (.ret 0 s') = .ok m ∧ Parsed u text m toks t := by
  induction h using Relation.ReflTransGen.head_induction_on with
  | refl =>
    intro s st done hA hc ht
    have hs := sim_step hA
    rw [hc, ha] at hs
    generalize hx : step u s = x at hs
    cases hs with
    | accept s' t' m h1 h2 h3 h4 h5 h6 h7 =>
      cases h1
      obtain ⟨toks', hd, ht'⟩ := h7
      have := Tokens.det ht' ht
      subst this
      obtain ⟨m', hm'⟩ := accept_result h3 h4 h6 hd ht
      refine ⟨1, s', ?_, m', hm'⟩
      simp only [runSteps, hx]
  | head h1 _ ih =>
    intro s st done hA hc ht
    have hs := sim_step hA
    rw [hc, h1] at hs
    generalize hx : step u s = x at hs
    generalize hy : AOut.next _ = y at hs
    cases hs with
    | next s' st' ts' done' R' hA' =>
      cases hy
      obtain ⟨n, s'', hr, hm⟩ := ih hA' rfl ht
      refine ⟨n + 1, s'', ?_, hm⟩
      simp only [runSteps, hx]
      exact hr
    | accept => cases hy
    | error => cases hy

theorem parse_of_accepts {u : Unicode} {text : Str} {toks : List Token} {t : Tree} (ht : Tokens u false text toks) (h : Accepts toks t) :
    ∃ m, parseString u text = .ok m ∧ Parsed u text m toks t := by
  obtain ⟨ss, hr, ha⟩ := h
  obtain ⟨st, hA, hc⟩ := init_ainv ht
  obtain ⟨n, s', hn, m, hm, hp⟩ := run_of_reach hr ha hA hc ht
  rcases yyParse_ok u text .eof with ⟨_, hf⟩ | ⟨c, s, hs, _⟩
  · cases hf
  · have a1 := runSteps_mono _ (max n (fuelFor text.length)) (Nat.le_max_left _ _) hn
    have a2 := runSteps_mono _ (max n (fuelFor text.length)) (Nat.le_max_right _ _) hs
    rw [a1] at a2
    cases a2
    refine ⟨m, ?_, hp⟩
    unfold parseString parseStream
    rw [hs]
    exact hm

theorem reach_of_run {u : Unicode} {text : Str} : ∀ (n : Nat) {s : PState} {st : List RawSym} {ts : List Tree} {done R : List Token}
    {c : Int} {s' : PState}, AInv u text s st ts done R → runSteps u n s = .ret c s' →
    (s'.lexer.err ≠ none ∧ c = 1) ∨ (c = 0 ∧ ∃ ss t toks m, Reach (confOf st ts R) ⟨ss, [t], []⟩ ∧ astep ⟨ss, [t], []⟩ = .accept ∧
      Tokens u false text toks ∧ resultOf (.ret 0 s') = .ok m ∧ Parsed u text m toks t)
  | 0, _, _, _, _, _, _, _, _, h => by cases h
  | n + 1, s, st, ts, done, R, c, s', hA, h => by
    have hs := sim_step hA
    unfold runSteps at h
    generalize hx : step u s = x at hs h
    generalize hy : astep (confOf st ts R) = y at hs
    cases hs with
    | next s2 st' ts' done' R' hA' =>
      rcases reach_of_run n hA' h with h | ⟨hc, ss, t, toks, m, h1, h2⟩
      · exact Or.inl h
      · exact Or.inr ⟨hc, ss, t, toks, m, Relation.ReflTransGen.head hy h1, h2⟩
    | accept s2 t m h1 h2 h3 h4 h5 h6 h7 =>
      cases h
      obtain ⟨toks, hd, ht⟩ := h7
      obtain ⟨m', h8, h9⟩ := accept_result h3 h4 h6 hd ht
      subst h1 h2
      exact Or.inr ⟨rfl, _, t, toks, m', .refl, hy, ht, h8, h9⟩
    | error s2 he =>
      cases h
      exact Or.inl ⟨he, rfl⟩

theorem accepts_of_parse {u : Unicode} {text : Str} {toks : List Token} {m : Module} (ht : Tokens u false text toks)
    (h : parseString u text = .ok m) : ∃ t, Accepts toks t ∧ Parsed u text m toks t := by
  obtain ⟨st, hA, hc⟩ := init_ainv ht
  unfold parseString parseStream at h
  rcases yyParse_ok u text .eof with ⟨_, hf⟩ | ⟨c, s, hs, _⟩
  · cases hf
  · rw [hs] at h
    rcases reach_of_run _ hA hs with ⟨he, _⟩ | ⟨rfl, ss, t, toks', m', h1, h2, h3, h4, h5⟩
    · obtain ⟨p, hp⟩ := Option.ne_none_iff_exists'.1 he
      simp only [resultOf, hp] at h
      cases h
    · rw [h4] at h
      cases h
      have := Tokens.det h3 ht
      subst this
      rw [hc] at h1
      exact ⟨t, ⟨ss, h1, h2⟩, h5⟩

end Asn1go.LR
