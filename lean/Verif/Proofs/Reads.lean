import Verif.Spec.Reads
import Verif.Proofs.Lex6

/-! Tokens at the start of a text stay there when what follows them is replaced. -/

namespace Asn1go

open Spec

theorem Spec.LineTo.replace {t r : Str} (h : LineTo t r) (hr : r ≠ []) : ∃ g, g ≠ [] ∧ t = g ++ r ∧ ∀ r', LineTo (g ++ r') r' := by
  induction h with
  | eof => exact absurd rfl hr
  | lineEnd c t hc => exact ⟨[c], by simp, rfl, fun r' => .lineEnd c r' hc⟩
  | hyphens t => exact ⟨['-', '-'], by simp, rfl, fun r' => .hyphens r'⟩
  | char c t r h1 h2 _ ih =>
    obtain ⟨g, g1, rfl, g2⟩ := ih hr
    refine ⟨c :: g, by simp, rfl, fun r' => .char c _ _ h1 ?_ (g2 r')⟩
    obtain ⟨d, g, rfl⟩ := List.exists_cons_of_ne_nil g1
    simpa using h2

theorem Spec.BlockTo.replace {t r : Str} (h : BlockTo t r) : ∃ g, g ≠ [] ∧ t = g ++ r ∧ ∀ r', BlockTo (g ++ r') r' := by
  induction h with
  | close t => exact ⟨['*', '/'], by simp, rfl, fun r' => .close r'⟩
  | nest t m r _ _ ih1 ih2 =>
    obtain ⟨g, g1, rfl, g2⟩ := ih1
    obtain ⟨k, k1, rfl, k2⟩ := ih2
    refine ⟨'/' :: '*' :: (g ++ k), by simp, by simp, fun r' => ?_⟩
    simp only [List.cons_append, List.append_assoc]
    exact .nest _ _ _ (g2 _) (k2 r')
  | char c t r h1 h2 _ ih =>
    obtain ⟨g, g1, rfl, g2⟩ := ih
    obtain ⟨d, g, rfl⟩ := List.exists_cons_of_ne_nil g1
    exact ⟨c :: d :: g, by simp, rfl, fun r' => .char c _ _ (by simpa using h1) (by simpa using h2) (g2 r')⟩

theorem Spec.SkipTo.nil {r : Str} (h : SkipTo [] r) : r = [] := by
  have := h.suffix
  simpa using this

theorem Spec.SkipTo.replace {t r : Str} (h : SkipTo t r) (hr : r ≠ []) : ∃ g, t = g ++ r ∧ ∀ r', SkipTo (g ++ r') r' := by
  induction h with
  | done t => exact ⟨[], rfl, fun r' => .done r'⟩
  | white c t r hc _ ih =>
    obtain ⟨g, rfl, g2⟩ := ih hr
    exact ⟨c :: g, rfl, fun r' => .white c _ _ hc (g2 r')⟩
  | line t m r h1 h2 h3 ih =>
    obtain ⟨k, rfl, k2⟩ := ih hr
    have hm : k ++ r ≠ [] := by simp [hr]
    obtain ⟨g, g1, rfl, g2⟩ := h2.replace hm
    obtain ⟨d, g, rfl⟩ := List.exists_cons_of_ne_nil g1
    refine ⟨'-' :: '-' :: (d :: g ++ k), by simp, fun r' => ?_⟩
    have := SkipTo.line (d :: g ++ (k ++ r')) (k ++ r') r' (by simpa using h1) (g2 _) (k2 r')
    simpa using this
  | line3 t r _ ih =>
    obtain ⟨g, rfl, g2⟩ := ih hr
    exact ⟨'-' :: '-' :: '-' :: g, rfl, fun r' => .line3 _ _ (g2 r')⟩
  | block t m r h1 h2 h3 ih =>
    obtain ⟨k, rfl, k2⟩ := ih hr
    obtain ⟨g, g1, rfl, g2⟩ := h2.replace
    obtain ⟨d, g, rfl⟩ := List.exists_cons_of_ne_nil g1
    refine ⟨'/' :: '*' :: (d :: g ++ k), by simp, fun r' => ?_⟩
    have := SkipTo.block (d :: g ++ (k ++ r')) (k ++ r') r' (by simpa using h1) (g2 _) (k2 r')
    simpa using this
  | blockSlash t r _ ih =>
    obtain ⟨g, rfl, g2⟩ := ih hr
    exact ⟨'/' :: '*' :: '/' :: g, rfl, fun r' => .blockSlash _ _ (g2 r')⟩
  | blockOpen => exact absurd rfl hr

/-- What has no space at the start of a text that goes on with a space, is there before the space. -/
theorem prefix_space : ∀ {w a x : Str}, (∀ c ∈ w, c ≠ ' ') → w <+: a ++ ' ' :: x → w <+: a
  | [], a, x, _, _ => List.nil_prefix
  | c :: w, [], x, hw, h => by
    simp only [List.nil_append, List.cons_prefix_cons] at h
    exact absurd h.1 (hw c (by simp))
  | c :: w, d :: a, x, hw, h => by
    simp only [List.cons_append, List.cons_prefix_cons] at h ⊢
    exact ⟨h.1, prefix_space (fun c hc => hw c (by simp [hc])) h.2⟩

theorem symbols_no_space : ∀ q ∈ symbols, ∀ c ∈ q.1, c ≠ ' ' := by decide +kernel

theorem NoSkip.space {a r : Str} (ha : a ≠ []) (h : NoSkip (a ++ r)) (x : Str) : NoSkip (a ++ ' ' :: x) := by
  obtain ⟨h1, h2, h3⟩ := h
  obtain ⟨d, a, rfl⟩ := List.exists_cons_of_ne_nil ha
  refine ⟨by simpa using h1, fun h => h2 ?_, fun h => h3 ?_⟩
  · exact (prefix_space (by decide) h).trans (List.prefix_append _ _)
  · exact (prefix_space (by decide) h).trans (List.prefix_append _ _)

theorem not_wordChar_space (u : Unicode) : ¬ WordChar u ' ' := by
  unfold WordChar
  rw [u.letter_ascii ' ' (by decide), u.digit_ascii ' ' (by decide)]
  decide

theorem head_replace {k r : Str} {p : Char → Prop} (h : ∀ c, (k ++ r).head? = some c → p c) (hp : p ' ') (x : Str) :
    ∀ c, (k ++ ' ' :: x).head? = some c → p c := by
  intro c hc
  cases k with
  | nil =>
    simp only [List.nil_append, List.head?_cons, Option.some.injEq] at hc
    exact hc ▸ hp
  | cons d k => exact h c (by simpa using hc)

theorem Spec.Lexeme.replace {u : Unicode} {adj : Bool} {sp k r : Str} {code : Int} {p : Payload} (h : Lexeme u adj sp (k ++ r) code p)
    (x : Str) : Lexeme u adj sp (k ++ ' ' :: x) code p := by
  have hsp := h.ne_nil
  have hmax : ∀ {w : Str}, Maximal (WordChar u) w (k ++ r) → Maximal (WordChar u) w (k ++ ' ' :: x) :=
    fun h => ⟨h.1, head_replace h.2 (not_wordChar_space u) x⟩
  generalize hr : k ++ r = rest at h
  cases h with
  | exponent c _ h1 h2 => exact .exponent c _ h1 h2
  | keyword _ _ _ h1 h2 h3 h4 => subst hr; exact .keyword _ _ _ h1 h2 (hmax h3) h4
  | typeReference c w _ h1 h2 h3 h4 h5 => subst hr; exact .typeReference c w _ h1 h2 h3 (hmax h4) h5
  | identifier c w _ h1 h2 h3 h4 => subst hr; exact .identifier c w _ h1 h2 h3 (hmax h4)
  | number _ _ h1 h2 h3 h4 =>
    subst hr
    exact .number _ _ h1 h2 (head_replace h3 (by rw [u.digit_ascii ' ' (by decide)]; decide) x) h4
  | symbol _ _ _ h1 h2 h3 =>
    subst hr
    rw [← List.append_assoc] at h2
    refine .symbol _ _ _ h1 ?_ ?_
    · rw [← List.append_assoc]
      exact NoSkip.space (by simp [hsp]) h2 x
    · intro w' code' hw' hpre
      rw [← List.append_assoc] at hpre
      refine h3 w' code' hw' ?_
      rw [← List.append_assoc]
      exact (prefix_space (symbols_no_space _ hw') hpre).trans (List.prefix_append _ _)

/-- What is read stays when what follows is replaced by text that starts with a space. -/
theorem Spec.Reads.replace {u : Unicode} {adj adj' : Bool} {t r : Str} {toks : List (Int × Payload)} (h : Reads u adj t toks adj' r) :
    ∃ k, t = k ++ r ∧ ∀ x, Reads u adj (k ++ ' ' :: x) toks adj' (' ' :: x) := by
  induction h with
  | nil adj t => exact ⟨[], rfl, fun x => .nil _ _⟩
  | cons adj t sp rest code p toks adj' r hs hl _ ih =>
    obtain ⟨k, rfl, hk⟩ := ih
    have hsp := hl.ne_nil
    obtain ⟨g, rfl, hg⟩ := hs.replace (by simp [hsp])
    refine ⟨g ++ (sp ++ k), by simp, fun x => ?_⟩
    have e : g ++ (sp ++ k) ++ ' ' :: x = g ++ (sp ++ (k ++ ' ' :: x)) := by simp
    rw [e]
    refine .cons _ _ sp (k ++ ' ' :: x) code p toks adj' _ (hg _) ?_ (hk x)
    have hl := hl.replace x
    have e2 : ∀ y : Str, decide (g ++ y = y) = decide (g = []) := by
      intro y
      simp
    rw [e2] at hl ⊢
    exact hl

theorem Spec.Reads.tokens {u : Unicode} {adj adj' : Bool} {t r : Str} {a b : List (Int × Payload)} (h : Reads u adj t a adj' r)
    (hb : Tokens u adj' r b) : Tokens u adj t (a ++ b) := by
  induction h with
  | nil => exact hb
  | cons adj t sp rest code p toks adj' r hs hl _ ih => exact .cons _ _ _ _ _ _ _ hs hl (ih hb)

theorem Spec.Reads.snoc {u : Unicode} {adj adj' : Bool} {t r sp rest : Str} {a : List (Int × Payload)} {code : Int} {p : Payload}
    (h : Reads u adj t a adj' r) (hs : SkipTo r (sp ++ rest)) (hl : Lexeme u (adj' && decide (r = sp ++ rest)) sp rest code p) :
    Reads u adj t (a ++ [(code, p)]) (code == Tok.NUMBER) rest := by
  induction h with
  | nil => exact .cons _ _ _ _ _ _ _ _ _ hs hl (.nil _ _)
  | cons adj t sp' rest' code' p' toks adj' r hs' hl' _ ih => exact .cons _ _ _ _ _ _ _ _ _ hs' hl' (ih hs hl)

/-- A text that is read to its end has the tokens read at its start. -/
theorem Spec.Reads.of_tokens {u : Unicode} {adj : Bool} {t : Str} {a b : List (Int × Payload)} (h : Tokens u adj t (a ++ b)) :
    ∃ adj' r, Reads u adj t a adj' r ∧ Tokens u adj' r b := by
  induction a generalizing adj t with
  | nil => exact ⟨adj, t, .nil _ _, h⟩
  | cons q a ih =>
    obtain ⟨code, p⟩ := q
    cases h with
    | cons _ _ sp rest _ _ _ hs hl ht =>
      obtain ⟨adj', r, h1, h2⟩ := ih ht
      exact ⟨adj', r, .cons _ _ _ _ _ _ _ _ _ hs hl h1, h2⟩

/-- The next token is determined by the text. -/
theorem next_det {u : Unicode} {adj : Bool} {t sp sp' rest rest' : Str} {code code' : Int} {p p' : Payload} (hs : SkipTo t (sp ++ rest))
    (hl : Lexeme u (adj && decide (t = sp ++ rest)) sp rest code p) (hs' : SkipTo t (sp' ++ rest'))
    (hl' : Lexeme u (adj && decide (t = sp' ++ rest')) sp' rest' code' p') : code = code' ∧ p = p' ∧ rest = rest' := by
  rw [← adjAfter_eq hs] at hl
  rw [← adjAfter_eq hs'] at hl'
  have e1 := lex_complete (st := { rest := t, fin := .eof, lastWasNumber := adj }) {} rfl hs hl
  have e2 := lex_complete (st := { rest := t, fin := .eof, lastWasNumber := adj }) {} rfl hs' hl'
  rw [e1] at e2
  simp only [Option.some.injEq, Prod.mk.injEq, LexState.after, LexState.at, LexState.mk.injEq, true_and] at e2
  obtain ⟨rfl, hp, rfl, _⟩ := e2
  exact ⟨rfl, hl.payload_inj hl' hp, rfl⟩

/-- There is no token at the end. -/
theorem next_end {u : Unicode} {adj : Bool} {t sp rest : Str} {code : Int} {p : Payload} (hs : SkipTo t (sp ++ rest))
    (hl : Lexeme u (adj && decide (t = sp ++ rest)) sp rest code p) : ¬ SkipTo t [] := by
  intro h
  rw [← adjAfter_eq hs] at hl
  have e1 := lex_complete (st := { rest := t, fin := .eof, lastWasNumber := adj }) {} rfl hs hl
  have e2 := lex_complete_eof (u := u) (st := { rest := t, fin := .eof, lastWasNumber := adj }) {} rfl h
  rw [e1] at e2
  simp only [Option.some.injEq, Prod.mk.injEq] at e2
  have := hl.code_range
  omega

/-- Of two readings of a text one goes on from the other. -/
theorem Spec.Reads.compare {u : Unicode} {adj adj1 adj2 : Bool} {t r1 r2 : Str} {a b : List (Int × Payload)} (h1 : Reads u adj t a adj1 r1)
    (h2 : Reads u adj t b adj2 r2) : (∃ x, b = a ++ x ∧ Reads u adj1 r1 x adj2 r2) ∨ ∃ x, a = b ++ x ∧ Reads u adj2 r2 x adj1 r1 := by
  induction h1 generalizing b with
  | nil adj t => exact .inl ⟨b, rfl, h2⟩
  | cons adj t sp rest code p toks adj' r hs hl hr ih =>
    generalize hb : b = b' at h2
    cases h2 with
    | nil => exact .inr ⟨_, rfl, .cons _ _ _ _ _ _ _ _ _ hs hl hr⟩
    | cons _ _ sp' rest' code' p' toks' _ _ hs' hl' hr' =>
      obtain ⟨rfl, rfl, rfl⟩ := next_det hs hl hs' hl'
      rcases ih hr' with ⟨x, rfl, h⟩ | ⟨x, rfl, h⟩
      · exact .inl ⟨x, rfl, h⟩
      · exact .inr ⟨x, rfl, h⟩

end Asn1go
