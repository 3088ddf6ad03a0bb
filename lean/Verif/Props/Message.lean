import Verif.Props.Parser
import Verif.Proofs.LR.Suggest
import Verif.Proofs.LR.Chosen

/-! Properties of the messages of syntax errors (`yyErrorMessage`, /repo/y.go:785-847): C27 and C65. -/

namespace Asn1go.Props

open Spec LR

/-- The text of the message of a result. -/
def message? : ParseResult → Option (Int × Str)
  | .err n (.syntaxError st tok) => some (n, yyErrorMessage st.toNat tok)
  | _ => none

/-! ### C27: the tokens listed as expected -/

/-- The tokens a message lists as expected, for an error in state `st`. -/
def Listed (st : Int) (t : Int) : Prop := ∃ l, expected st.toNat = some l ∧ t ∈ l

/-- What the message says: the names of the listed tokens, in order. -/
theorem C27_text (st : Nat) (tok : Int) : yyErrorMessage st tok = (c! "syntax error: unexpected ") ++ yyTokname tok ++
    match expected st with
    | some (t :: l) => (c! ", expecting ") ++ yyTokname t ++ l.flatMap fun t => (c! " or ") ++ yyTokname t
    | _ => [] := by
  unfold yyErrorMessage
  congr 1
  cases h : expected st with
  | none => rfl
  | some l => cases l <;> rfl

/-- A name stands for one token. -/
theorem C27_names {t t' : Int} (h1 : 1 ≤ t) (h2 : t ≤ 128) (h1' : 1 ≤ t') (h2' : t' ≤ 128) (h : yyTokname t = yyTokname t') : t = t' := by
  have hc : ((List.range 128).all fun i => (List.range 128).all fun j => yyTokname ((i : Int) + 1) != yyTokname ((j : Int) + 1) || i == j) = true := by
    decide +kernel
  have := List.all_eq_true.1 (List.all_eq_true.1 hc (t - 1).toNat (List.mem_range.2 (by omega))) (t' - 1).toNat (List.mem_range.2 (by omega))
  rw [show (((t - 1).toNat : Nat) : Int) + 1 = t by omega, show (((t' - 1).toNat : Nat) : Int) + 1 = t' by omega, h] at this
  simp at this
  omega

/-- In the state a message lists tokens for, the parser shifts each of them. -/
theorem C27_shifted {u : Unicode} {s : PState} (hc : 0 ≤ s.char) (hl : Listed s.state s.token) : ∃ n s', decideStep u s = .ok (.shift n, s') := by
  obtain ⟨l, h1, h2⟩ := hl
  rw [Int.toNat_natCast] at h1
  have hst : s.state < 432 := expected_lt h1
  obtain ⟨h3, h4, n, h5⟩ := (mem_expected hst h1).1 h2
  obtain ⟨d, s', k1, k2, _⟩ := decide_act (u := u) hst (fetch_idem hc) hc (by omega) rfl
  rw [h5] at k2
  cases k2
  exact ⟨n, s', k1⟩

/-- The text `k` is the tokens `toks` up to what comes next, and can be gone on from to a text that parses. -/
def Viable (u : Unicode) (k : Str) (toks : List Token) : Prop :=
  ∃ more rest m, parseString u (k ++ more) = .ok m ∧ Tokens u false (k ++ more) (toks ++ rest)

/-- The text has text that is no token, after tokens that can be gone on from. -/
def BadToken (u : Unicode) (text : Str) : Prop :=
  ∃ k r done adj, text = k ++ r ∧ Reads u false text done adj r ∧ NoToken u adj r ∧ Viable u k done

theorem viable_of_path {u : Unicode} {text r : Str} {adj : Bool} {done : List Token} (hrd : Reads u false text done adj r) {σ0 : List Nat}
    (hp : Path σ0) (hr : ∀ R, OkToks R → ∃ ts, Reach ⟨[0], [], done ++ R⟩ ⟨σ0, ts, R⟩) (hd : OkToks done) {k : Str} (hk : text = k ++ r) :
    Viable u k done := by
  obtain ⟨k', hk', hrep⟩ := hrd.replace
  obtain rfl : k = k' := List.append_cancel_right (hk.symm.trans hk')
  obtain ⟨w, hw, tr, hacc⟩ := path_accept hp hr hd
  have htok : Tokens u false (k ++ ' ' :: Print.write (plainWord w)) (done ++ plainWord w) :=
    (hrep _).tokens (.after_white (by decide) (plainWord_tokens u hw _))
  obtain ⟨m, hm, _⟩ := parse_of_accepts htok hacc
  exact ⟨_, _, m, hm, htok⟩

theorem badToken_of_bad {u : Unicode} {text : Str} {fin : ReadEnd} (h : Bad u text fin) : BadToken u text := by
  obtain ⟨done, adj, r, h1, h2, h3, _, σ0, h4, h5⟩ := h
  obtain ⟨k, hk, _⟩ := h1.replace
  exact ⟨k, r, done, adj, hk, h1, h2, viable_of_path h1 h4 h5 h3 hk⟩

/-- A text with a syntax error, in which text that is no token was not met before, starts with tokens the error comes after.  Each of the listed
tokens can be written, and however it is written, written after those tokens it can be gone on from to a text that parses. -/
theorem C27_continues {u : Unicode} {text : Str} {line st tok : Int} (h : parseString u text = .err line (.syntaxError st tok)) :
    BadToken u text ∨
    ∃ k r done adj, text = k ++ r ∧ Reads u false text done adj r ∧ ∀ t, Listed st t →
      (∃ sp p, Printable u sp (t + 57342) p) ∧ ∀ sp p, Printable u sp (t + 57342) p → Viable u (k ++ ' ' :: sp) (done ++ [(t + 57342, p)]) := by
  rcases error_read h with hb | ⟨sn, tk, done, adj, r, σ0, σ, n, he0, hrd, hd, hst, ht1, ht2, hr, hp, hn, hh, he, _⟩
  · exact .inl (badToken_of_bad hb)
  · right
    cases he0
    obtain ⟨k, hk, hrep⟩ := hrd.replace
    refine ⟨k, r, done, adj, hk, hrd, fun t ⟨l, hl1, hl2⟩ => ?_⟩
    rw [Int.toNat_natCast] at hl1
    obtain ⟨h3, h4, j, h5⟩ := (mem_expected hst hl1).1 hl2
    have hne : t ≠ Tok.EXPONENT - 57342 := by
      rintro rfl
      exact no_exponent hst ht1 ht2 he h5
    constructor
    · exact speakable_printable u (speakable_of_shift hst (by omega) h4 h5 hne)
    · intro sp p hpr
      obtain ⟨w, hw, tr, hacc⟩ := suggested_accept hr hd hp ht1 ht2 hn hh he h3 h4 h5 p
      have hlex : Lexeme u false sp (Print.write (plainWord w)) (t + 57342) p := hpr.lexeme _ (write_head hw)
      have htok : Tokens u false (k ++ ' ' :: (sp ++ Print.write (plainWord w))) (done ++ (t + 57342, p) :: plainWord w) := by
        refine (hrep _).tokens (.cons _ _ sp _ _ _ _ (.white _ _ _ (by decide) (.done _)) ?_ (plainWord_tokens u hw _))
        have : decide (' ' :: (sp ++ Print.write (plainWord w)) = sp ++ Print.write (plainWord w)) = false := by simp
        rw [this, Bool.and_false]
        exact hlex
      obtain ⟨m, hm, _⟩ := parse_of_accepts htok hacc
      exact ⟨_, plainWord w, m, by simpa using hm, by simpa using htok⟩

/-- The list is all the state shifts, when the message has one. -/
theorem C27_all {u : Unicode} {s : PState} (hc : 0 ≤ s.char) (h1 : 1 ≤ s.token) (h2 : s.token ≤ 128) {l : List Int}
    (hl : expected s.state = some l) {n : Nat} {s' : PState} (h : decideStep u s = .ok (.shift n, s')) : s.token ∈ l := by
  have hst : s.state < 432 := expected_lt hl
  obtain ⟨d, s'', k1, k2, _⟩ := decide_act (u := u) hst (fetch_idem hc) hc (by omega) rfl
  rw [h] at k1
  cases k1
  obtain ⟨d, hd1, hd2⟩ := act_ok hst h1 h2
  rw [k2] at hd1
  cases hd1
  cases hd2 with
  | shift _ hok => exact (mem_expected hst hl).2 ⟨hok.token, h2, n, k2⟩

/-- The hypotheses are met: an error with a list of two tokens, and the texts the tokens lead to. -/
example : message? (parseString asciiUnicode (c! "A DEFINITIONS ::= BEGIN a INTEGER ::= 5 B ::= SET END")) =
    some (1, c! "syntax error: unexpected END, expecting OPEN_CURLY or OPEN_ROUND or SIZE or OF") := by decide +kernel

example : Listed 99 (Tok.OF - 57342) := ⟨_, rfl, by decide +kernel⟩

/-- The list need not be all that can follow: the parser has reduced before it found the error. -/
theorem C27_not_all : message? (parseString asciiUnicode (c! "A DEFINITIONS B")) =
      some (1, c! "syntax error: unexpected TYPEORMODULEREFERENCE, expecting ASSIGNMENT") ∧
    (module? (parseString asciiUnicode (c! "A DEFINITIONS AUTOMATIC TAGS ::= BEGIN END"))).isSome = true := by
  constructor <;> decide +kernel

/-- A piece of text that is no token can be reported as the end of the text. -/
theorem C27_hidden : message? (parseString asciiUnicode (c! "A DEFINITIONS ::= BEGIN B ::= OCTET ? STRING END")) =
    some (1, c! "syntax error: unexpected $end, expecting STRING") := by decide +kernel

/-! ### C65: errors are found at the first token they can be found at -/

/-- What no text that parses goes on with after the tokens `done`: the token number `tok`, or the end when `tok` is 1. -/
def Refused (done : List Token) (tok : Int) : Prop := ∀ v text m, parseString v text = .ok m →
  (tok = 1 → ¬ Tokens v false text done) ∧ ∀ p rest, ¬ Tokens v false text (done ++ (tok + 57342, p) :: rest)

/-- The next token of the text is token number `tok`, or the text is at its end and `tok` is 1. -/
def Next (u : Unicode) (adj : Bool) (r : Str) (tok : Int) : Prop :=
  (tok = 1 ∧ SkipTo r []) ∨ ∃ sp rest p, SkipTo r (sp ++ rest) ∧ Lexeme u (adj && decide (r = sp ++ rest)) sp rest (tok + 57342) p

/-- A text that does not parse starts with tokens that can be gone on from to a text that parses; what comes next is no token, or it is the token
(or the end) the message names, and no text that parses has it there. -/
theorem C65_first {u : Unicode} {text : Str} {line : Int} {e : ErrMsg} (h : parseString u text = .err line e) :
    BadToken u text ∨
    ∃ k r done adj st tok, e = .syntaxError st tok ∧ text = k ++ r ∧ Reads u false text done adj r ∧ Viable u k done ∧ Next u adj r tok ∧ Refused done tok := by
  rcases error_read h with hb | ⟨sn, tok, done, adj, r, σ0, σ, n, he0, hrd, hd, hst, ht1, ht2, hr, hp, hn, hh, he, hnext⟩
  · exact .inl (badToken_of_bad hb)
  · right
    obtain ⟨k, hk, hrep⟩ := hrd.replace
    refine ⟨k, r, done, adj, sn, tok, he0, hk, hrd, viable_of_path hrd hp hr hd hk, hnext, fun v text' m hm => ?_⟩
    have no : ∀ R, OkToks R → tokNo (firstCode 0 R) = tok → ¬ Tokens v false text' (done ++ R) := by
      intro R hR hf htok
      obtain ⟨t, hacc, _⟩ := accepts_of_parse htok hm
      exact refused hr hn hh he hR hf t hacc
    constructor
    · rintro rfl htok
      exact no [] okToks_nil (by decide) (by simpa using htok)
    · intro p rest htok
      have hR := (okToks_append.1 (okToks_of_tokens htok)).2
      have h4 : 4 ≤ tok := by have := (hR _ List.mem_cons_self).1; simp only at this; omega
      exact no _ hR (tokNo_code h4) htok

/-- The two cases of `C65_first` exclude each other. -/
theorem C65_exclusive {u : Unicode} {text r : Str} {done : List Token} {adj : Bool} {tok : Int} (hrd : Reads u false text done adj r)
    (hn : Next u adj r tok) (hr : Refused done tok) : ¬ BadToken u text := by
  rintro ⟨k, r', done', adj', _, hrd', hno, more, rest, m, hm, htok⟩
  have hnext : ∀ {adj r x adj2 r2}, Reads u adj r x adj2 r2 → NoToken u adj r → x = [] := by
    intro adj r x adj2 r2 h hno
    cases h with
    | nil => rfl
    | cons _ _ sp rest code p _ _ _ hs hl => exact absurd ⟨sp, rest, code, p, hs, hl⟩ hno.2
  have key : Reads u adj r [] adj' r' → False := by
    intro h
    cases h
    rcases hn with ⟨_, h⟩ | ⟨sp, rest, p, h1, h2⟩
    · exact hno.1 h
    · exact hno.2 ⟨sp, rest, _, p, h1, h2⟩
  rcases hrd.compare hrd' with ⟨x, rfl, h⟩ | ⟨x, rfl, h⟩
  · cases h with
    | nil => exact key (.nil _ _)
    | cons _ _ sp rest code p _ _ _ hs hl =>
      rcases hn with ⟨_, h⟩ | ⟨sp', rest', p', hs', hl'⟩
      · exact next_end hs hl h
      · obtain ⟨rfl, rfl, _⟩ := next_det hs hl hs' hl'
        exact (hr u _ m hm).2 _ _ (by simpa using htok)
  · obtain rfl := hnext h hno
    cases h
    exact key (.nil _ _)

/-- The hypotheses are met. -/
example : error? (parseString asciiUnicode (c! "A DEFINITIONS ::= BEGIN B, END")) = some (1, .syntaxError 53 30) := by decide +kernel

end Asn1go.Props
