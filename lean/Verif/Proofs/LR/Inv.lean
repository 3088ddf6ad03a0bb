import Verif.Proofs.LR.Memory

/-! The invariant of the parser's loop. -/

namespace Asn1go.LR

open Asn1go Spec

/-- The tokens that carry a name or a number are reported with it. -/
theorem lexeme_payload {u : Unicode} {adj : Bool} {sp rest : Str} {code : Int} {p : Payload}
    (h : Lexeme u adj sp rest code p) :
    (code = Tok.TYPEORMODULEREFERENCE ∨ code = Tok.VALUEIDENTIFIER → ∃ w, p = .name w) ∧
    (code = Tok.NUMBER → ∃ w n, p = .number w n) := by
  have hk : ∀ q ∈ reservedWords, q.2 ≠ Tok.TYPEORMODULEREFERENCE ∧ q.2 ≠ Tok.VALUEIDENTIFIER ∧ q.2 ≠ Tok.NUMBER := by
    decide +kernel
  have hs : ∀ q ∈ symbols, q.2 ≠ Tok.TYPEORMODULEREFERENCE ∧ q.2 ≠ Tok.VALUEIDENTIFIER ∧ q.2 ≠ Tok.NUMBER := by
    decide +kernel
  have no : ∀ {a b : Int} {P : Prop}, a ≠ b → a = b → P := fun h h' => absurd h' h
  cases h with
  | exponent => exact ⟨fun h => h.elim (no (by decide)) (no (by decide)), no (by decide)⟩
  | keyword _ _ _ _ _ _ h =>
    have := hk _ h
    exact ⟨fun h => h.elim (no this.1) (no this.2.1), no this.2.2⟩
  | typeReference => exact ⟨fun _ => ⟨_, rfl⟩, no (by decide)⟩
  | identifier => exact ⟨fun _ => ⟨_, rfl⟩, no (by decide)⟩
  | number => exact ⟨fun h => h.elim (no (by decide)) (no (by decide)), fun _ => ⟨_, _, rfl⟩⟩
  | symbol _ _ _ h =>
    have := hs _ h
    exact ⟨fun h => h.elim (no this.1) (no this.2.1), no this.2.2⟩

/-- The value pushed for a token. -/
def leafOf {R D : Type} (l : LVal) : SymType R D := { name := l.name, numberRepr := l.numberRepr, number := l.number }

/-- The payload condition used for leaves. -/
def PayloadOk (code : Int) (p : Payload) : Prop :=
  (code = Tok.TYPEORMODULEREFERENCE ∨ code = Tok.VALUEIDENTIFIER → ∃ w, p = .name w) ∧
    (code = Tok.NUMBER → ∃ w n, p = .number w n)

theorem leaf_agree {R R' D D' : Type} {f : R → R'} {g : D → D'} {code : Int} {p : Payload} (h : PayloadOk code p) (l : LVal) (yys : Nat) :
    agree f g (fieldOf (.t code)) { (leafOf (p.apply l) : SymType R D) with yys := yys } (leafValue p) := by
  simp only [fieldOf]
  split
  · rename_i hc
    obtain ⟨w, rfl⟩ := h.1 hc
    rfl
  · split
    · rename_i hc
      obtain ⟨w, n, rfl⟩ := h.2 hc
      rfl
    · trivial

theorem agree_yys {R R' D D' : Type} {f : R → R'} {g : D → D'} {fl : Fld} {a : SymType R D} {b : SymType R' D'} {n : Nat} :
    agree f g fl { a with yys := n } b ↔ agree f g fl a b := by
  cases fl <;> exact Iff.rfl

/-- How the lexer's state relates to the tokens read so far. -/
inductive LexInv (u : Unicode) (text : Str) (s : PState) (done : List Token) : Prop
  | failed : s.lexer.err ≠ none → (0 < s.char → ∃ p l, PayloadOk s.char p ∧ s.lval = p.apply l) → LexInv u text s done
  | ready : s.char < 0 →
      (∀ toks, Tokens u s.lexer.lastWasNumber s.lexer.rest toks → Tokens u false text (done ++ toks)) → LexInv u text s done
  | pending (p : Payload) (l : LVal) : 57346 ≤ s.char → PayloadOk s.char p → s.lval = p.apply l →
      (∀ toks, Tokens u s.lexer.lastWasNumber s.lexer.rest toks →
        Tokens u false text (done ++ (s.char, p) :: toks)) → LexInv u text s done
  | eof : s.char = 0 → Tokens u false text done → s.lexer.fin = .eof → LexInv u text s done

/-- The potential of a stack. -/
def potential : List RawSym → Nat
  | [] => 0
  | e :: l => rank e.yys + ((e :: l).dropLast.map (fun e => weight (sym e.yys))).sum

/-- The number of tokens that may still be read, with the one being looked at. -/
def pending (s : PState) : Nat := s.lexer.rest.length + (if 0 < s.char then 1 else 0)

/-- The entries of the stack, top first. -/
structure View (s : PState) (st : List RawSym) : Prop where
  take : s.cur.take s.depth = st.reverse
  le : s.depth ≤ s.cur.length
  pos : 0 < s.cur.length

theorem View.len {s : PState} {st : List RawSym} (h : View s st) : st.length = s.depth := by
  have := congrArg List.length h.take
  rw [List.length_take, List.length_reverse, Nat.min_eq_left h.le] at this
  exact this.symm

/-- Entry of the stack. -/
theorem View.get {s : PState} {st : List RawSym} (h : View s st) {i : Nat} (hi : i < s.depth) :
    s.cur[i]? = st[s.depth - 1 - i]? := by
  have h1 : (s.cur.take s.depth)[i]? = s.cur[i]? := by rw [List.getElem?_take_of_lt hi]
  rw [← h1, h.take, List.getElem?_reverse (by rw [h.len]; exact hi), h.len]

theorem grow_view {s : PState} {st : List RawSym} (h : View s st) {i : Nat} :
    View (grow s i) st := by
  unfold grow
  split
  · refine ⟨?_, ?_, ?_⟩
    · simp only [List.take_append_of_le_length h.le]; exact h.take
    · simp; have := h.le; omega
    · simp; have := h.pos; omega
  · exact h

theorem grow_lt {s : PState} {st : List RawSym} (h : View s st) {i : Nat} (hi : i ≤ s.depth) : i < (grow s i).cur.length := by
  unfold grow
  have := h.pos
  have := h.le
  split
  · simp; omega
  · omega

theorem push_view {s : PState} {st : List RawSym} (h : View s st) : View (push s) ({ s.val with yys := s.state } :: st) := by
  unfold push
  have h1 := grow_view h (i := s.depth)
  have h2 := grow_lt h (Nat.le_refl s.depth)
  have e1 : (grow s s.depth).val = s.val := by unfold grow; split <;> rfl
  have e2 : (grow s s.depth).state = s.state := by unfold grow; split <;> rfl
  have e3 : (grow s s.depth).depth = s.depth := by unfold grow; split <;> rfl
  refine ⟨?_, ?_, ?_⟩
  · simp only [e1, e2, e3, List.reverse_cons]
    rw [List.take_add_one, List.getElem?_set_self h2, List.take_set_of_le (Nat.le_refl _)]
    have := h1.take
    rw [e3] at this
    rw [this]; rfl
  · simp [e3]; omega
  · simp; omega

theorem push_fields (s : PState) : (push s).lexer = s.lexer ∧ (push s).result = s.result ∧ (push s).lval = s.lval ∧
    (push s).char = s.char ∧ (push s).token = s.token ∧ (push s).state = s.state ∧ (push s).errflag = s.errflag := by
  unfold push grow
  split <;> exact ⟨rfl, rfl, rfl, rfl, rfl, rfl, rfl⟩

theorem push_depth (s : PState) : (push s).depth = s.depth + 1 := by
  unfold push grow
  split <;> rfl

/-- What the result cell holds once state 1 has been reached. -/
def ResultInv (s : PState) (ts : List Tree) : Prop :=
  s.state = 1 → ∃ m kids ts', ts = .node 1 kids :: ts' ∧ s.result = some m ∧
    m.map knownRef noSlot = moduleOf (dollars (kids.map eval0)) ∧
    m.map id id = moduleOf (dollars (Tree.placedList (topOf ts') (ts'.length + 1) kids))

/-- The lexer's past: how much was read, and where an error was seen. -/
structure Hist (text : Str) (fin : ReadEnd) (l : LexState) : Prop where
  consumed : ∃ c, text = c ++ l.rest ∧ l.lineNo = lineEnds c
  fin : l.fin = fin
  err : ∀ n m, l.err = some (n, m) → ∃ c r, text = c ++ r ∧ n = (lineEnds c : Int) + 1

theorem Hist.init (text : Str) (fin : ReadEnd) : Hist text fin (LexState.init text fin) :=
  ⟨⟨[], rfl, rfl⟩, rfl, fun _ _ h => by simp [LexState.init] at h⟩

theorem Hist.error {text : Str} {fin : ReadEnd} {l : LexState} (h : Hist text fin l) (m : ErrMsg) : Hist text fin (l.error m) := by
  refine ⟨h.consumed, h.fin, ?_⟩
  obtain ⟨c, hc, hl⟩ := h.consumed
  intro n m' he
  simp only [LexState.error, Option.some.injEq, Prod.mk.injEq] at he
  exact ⟨c, l.rest, hc, by rw [← he.1, hl]⟩

theorem Hist.lex {u : Unicode} {text : Str} {fin : ReadEnd} {l l' : LexState} {lval lval' : LVal} {code : Int}
    (h : Hist text fin l) (hl : Asn1go.lex u l lval = some (code, lval', l')) : Hist text fin l' := by
  have hp := lex_post hl
  obtain ⟨c, hc, hline⟩ := h.consumed
  obtain ⟨d, hd⟩ := hp.adv.suffix
  have hcd : l'.lineNo = lineEnds (c ++ d) := by
    have := hp.adv.lines
    rw [← hd, lineEnds_append] at this
    rw [lineEnds_append]
    omega
  refine ⟨⟨c ++ d, by rw [hc, ← hd]; simp, hcd⟩, hp.adv.fin.trans h.fin, ?_⟩
  intro n m he
  rcases hp.err with ⟨_, m', hm⟩ | ⟨_, hm⟩
  · rw [hm] at he
    simp only [Option.some.injEq, Prod.mk.injEq] at he
    exact ⟨c ++ d, l'.rest, by rw [hc, ← hd]; simp, by rw [← he.1, hcd]⟩
  · exact h.err n m (hm ▸ he)

theorem Fetched.hist {u : Unicode} {text : Str} {fin : ReadEnd} {s s' : PState} (hf : Fetched u s s')
    (h : Hist text fin s.lexer) : Hist text fin s'.lexer := by
  induction hf with
  | refl => exact h
  | lex s1 c lval lexer t _ hc hl _ ih => exact ih.lex hl

/-- The invariant of the parser's loop. -/
structure Inv (u : Unicode) (text : Str) (fin : ReadEnd) (s : PState) (st : List RawSym) (ts : List Tree) (done : List Token) : Prop where
  view : View s st
  stk : Stk st ts done
  top : (st.head?.map SymType.yys) = some s.state
  errflag : s.errflag = 0
  tok : s.char < 0 ∨ TokOk s
  lex : LexInv u text s done
  result : ResultInv s ts
  hist : Hist text fin s.lexer
  mem : MemInv s st ts

theorem Inv.lt {u : Unicode} {text : Str} {fin : ReadEnd} {s : PState} {st : List RawSym} {ts : List Tree} {done : List Token}
    (h : Inv u text fin s st ts done) : s.state < 432 := by
  have := h.top
  cases hst : st with
  | nil => rw [hst] at this; simp at this
  | cons e l =>
    rw [hst] at this
    simp at this
    rw [← this]
    exact (hst ▸ h.stk).lt

theorem lex_fin {u : Unicode} {st st' : LexState} {lval lval' : LVal} {code : Int}
    (h : Asn1go.lex u st lval = some (code, lval', st')) : st'.fin = st.fin := (lex_post h).adv.fin

theorem lex_inv {u : Unicode} {text : Str} {s : PState} {done : List Token} {c : Int} {lval : LVal} {lexer : LexState} {t : Int}
    (h : LexInv u text s done) (hc : s.char < 0) (hl : Asn1go.lex u s.lexer s.lval = some (c, lval, lexer)) :
    LexInv u text { s with lexer := lexer, lval := lval, char := c, token := t } done := by
  by_cases he : lexer.err = none
  · obtain ⟨he', h'⟩ := lex_delivers hl he
    cases h with
    | failed h _ => exact absurd he' h
    | ready _ h =>
      rcases h' with ⟨rfl, rfl, hf, ht⟩ | ⟨h1, h2, p, rfl, ⟨_, _, _, hx⟩, ht⟩
      · exact .eof rfl (by simpa using h _ ht) ((lex_fin hl).trans hf)
      · exact .pending p s.lval h1 (lexeme_payload hx) rfl (fun toks h' => h _ (ht toks h'))
    | pending _ _ h _ _ _ => omega
    | eof h _ _ => omega
  · refine .failed he (fun h0 => ?_)
    cases lex_cases hl with
    | eof => exact absurd h0 (by simp)
    | token sp rest code p hs hx => exact ⟨p, s.lval, lexeme_payload hx, rfl⟩
    | readFail => exact absurd h0 (by simp)
    | bad => exact absurd h0 (by simp)

theorem Fetched.lexInv {u : Unicode} {text : Str} {s s' : PState} {done : List Token} (hf : Fetched u s s')
    (h : LexInv u text s done) : LexInv u text s' done := by
  induction hf with
  | refl => exact h
  | lex s1 c lval lexer t _ hc hl _ ih => exact lex_inv ih hc hl

theorem Fetched.pending_le {u : Unicode} {s s' : PState} (hf : Fetched u s s') : pending s' ≤ pending s := by
  induction hf with
  | refl => exact Nat.le_refl _
  | lex s1 c lval lexer t _ hc hl _ ih =>
    refine Nat.le_trans ?_ ih
    unfold pending
    rw [if_neg (by omega : ¬ 0 < s1.char)]
    simp only
    rcases lex_consumes hl with h | ⟨h, h'⟩
    · split <;> omega
    · rw [h, if_neg (by omega)]; simp

/-- A fetch changes nothing but the lexer, the symbol value read and the lookahead. -/
theorem Fetched.frame {u : Unicode} {s s' : PState} (hf : Fetched u s s') :
    s'.result = s.result ∧ s'.old = s.old ∧ s'.cur = s.cur ∧ s'.depth = s.depth ∧ s'.val = s.val ∧ s'.state = s.state ∧
      s'.errflag = s.errflag ∧ s'.nerrs = s.nerrs := by
  induction hf with
  | refl => exact ⟨rfl, rfl, rfl, rfl, rfl, rfl, rfl, rfl⟩
  | lex s1 c lval lexer t _ hc hl _ ih => exact ih

theorem potential_eq (e : RawSym) (l : List RawSym) :
    potential (e :: l) = rank e.yys + ((e :: l).dropLast.map (fun e => weight (sym e.yys))).sum := rfl

end Asn1go.LR
