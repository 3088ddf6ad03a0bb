import Verif.Proofs.LR.Prefix
import Verif.Proofs.Reads
import Verif.Proofs.Print.Text
import Verif.Proofs.Tables
import Verif.Proofs.LR.Parts

/-! What the tokens named in the message of a syntax error lead to. -/

namespace Asn1go.LR

open Asn1go Spec

/-- Tokens of the message: for each of them the state has a shift, and these are all the shifts of the state. -/
def expectedRight (s : Nat) : Bool := match expected s with
    | none => true
    | some l => l == ((List.range 125).map fun i : Nat => (i : Int) + 4).filter fun t => isShift (act s t)

theorem expectedPart_0 : part expectedRight 0 = true := by decide +kernel
theorem expectedPart_1 : part expectedRight 1 = true := by decide +kernel
theorem expectedPart_2 : part expectedRight 2 = true := by decide +kernel
theorem expectedPart_3 : part expectedRight 3 = true := by decide +kernel
theorem expectedPart_4 : part expectedRight 4 = true := by decide +kernel
theorem expectedPart_5 : part expectedRight 5 = true := by decide +kernel
theorem expectedPart_6 : part expectedRight 6 = true := by decide +kernel
theorem expectedPart_7 : part expectedRight 7 = true := by decide +kernel
theorem expectedPart_8 : part expectedRight 8 = true := by decide +kernel
theorem expectedPart_9 : part expectedRight 9 = true := by decide +kernel
theorem expectedPart_10 : part expectedRight 10 = true := by decide +kernel
theorem expectedPart_11 : part expectedRight 11 = true := by decide +kernel

theorem expected_check : (List.range 432).all expectedRight = true :=
  all_of_parts expectedPart_0 expectedPart_1 expectedPart_2 expectedPart_3 expectedPart_4 expectedPart_5
    expectedPart_6 expectedPart_7 expectedPart_8 expectedPart_9 expectedPart_10 expectedPart_11

theorem expected_eq {s : Nat} (hs : s < 432) {l : List Int} (h : expected s = some l) :
    l = ((List.range 125).map fun i : Nat => (i : Int) + 4).filter fun t => isShift (act s t) := by
  have := List.all_eq_true.1 expected_check s (List.mem_range.2 hs)
  simp only [expectedRight, h] at this
  exact beq_iff_eq.1 this

theorem expected_lt {s : Nat} {l : List Int} (h : expected s = some l) : s < 432 := by
  apply Decidable.byContradiction
  intro hs
  have hd : Tab.yyDef.at (s : Int) = .error .panic := by
    rw [yyDef_listed]
    unfold listAt
    rw [if_neg (by omega), List.getElem?_eq_none]
    have : Listing.yyDef.length = 432 := by decide +kernel
    omega
  unfold expected at h
  rw [hd] at h
  cases hsh : shiftables s ((List.range 125).map fun i : Nat => (i : Int) + 4) [] with
  | none => rw [hsh] at h; cases h
  | some l => rw [hsh] at h; cases h

theorem isShift_iff {a : Except Abort Decision} : isShift a = true ↔ ∃ n, a = .ok (.shift n) := by
  unfold isShift
  split
  · simp
  · rename_i h
    simp only [Bool.false_eq_true, false_iff]
    rintro ⟨n, rfl⟩
    exact h n rfl

theorem mem_expected {s : Nat} (hs : s < 432) {l : List Int} (h : expected s = some l) {t : Int} :
    t ∈ l ↔ 4 ≤ t ∧ t ≤ 128 ∧ ∃ n, act s t = .ok (.shift n) := by
  rw [expected_eq hs h, List.mem_filter, isShift_iff]
  constructor
  · rintro ⟨h1, h2⟩
    obtain ⟨i, hi, rfl⟩ := List.mem_map.1 h1
    have := List.mem_range.1 hi
    exact ⟨by omega, by omega, h2⟩
  · rintro ⟨h1, h2, h3⟩
    exact ⟨List.mem_map.2 ⟨(t - 4).toNat, List.mem_range.2 (by omega), by omega⟩, h3⟩

/-- The table entries `expected` looks at are there. -/
def inBounds (s : Nat) : Bool :=
  match Tab.yyPact.at s, Tab.yyDef.at s with
  | .ok base, .ok d =>
    ((List.range 125).all fun i : Nat =>
      let n := base + ((i : Int) + 4)
      !(0 ≤ n && n < yyLast) || match Tab.yyAct.at n with
        | .error _ => false
        | .ok a => match Tab.yyChk.at a with
          | .error _ => false
          | .ok _ => true) &&
    (d != -2 || match excaFind s Tab.yyExca.toList with
      | .error _ => false
      | .ok e => ((List.range (e.length / 2)).any fun i => match e[2 * i]? with
        | some t => t < 0
        | none => false))
  | _, _ => false

theorem boundsPart_0 : part inBounds 0 = true := by decide +kernel
theorem boundsPart_1 : part inBounds 1 = true := by decide +kernel
theorem boundsPart_2 : part inBounds 2 = true := by decide +kernel
theorem boundsPart_3 : part inBounds 3 = true := by decide +kernel
theorem boundsPart_4 : part inBounds 4 = true := by decide +kernel
theorem boundsPart_5 : part inBounds 5 = true := by decide +kernel
theorem boundsPart_6 : part inBounds 6 = true := by decide +kernel
theorem boundsPart_7 : part inBounds 7 = true := by decide +kernel
theorem boundsPart_8 : part inBounds 8 = true := by decide +kernel
theorem boundsPart_9 : part inBounds 9 = true := by decide +kernel
theorem boundsPart_10 : part inBounds 10 = true := by decide +kernel
theorem boundsPart_11 : part inBounds 11 = true := by decide +kernel

theorem expected_bounds : ∀ s < 432, inBounds s = true := by
  have h : (List.range 432).all inBounds = true := all_of_parts boundsPart_0 boundsPart_1 boundsPart_2 boundsPart_3 boundsPart_4 boundsPart_5
    boundsPart_6 boundsPart_7 boundsPart_8 boundsPart_9 boundsPart_10 boundsPart_11
  exact fun s hs => List.all_eq_true.1 h s (List.mem_range.2 hs)

/-- In the states with a shift of EXPONENT no token is an error. -/
def exponentOk (s : Nat) : Bool := !isShift (act s (Tok.EXPONENT - 57342)) ||
    (List.range 128).all fun i => match act s ((i : Int) + 1) with
      | .ok .error => false
      | _ => true

theorem exponentPart_0 : part exponentOk 0 = true := by decide +kernel
theorem exponentPart_1 : part exponentOk 1 = true := by decide +kernel
theorem exponentPart_2 : part exponentOk 2 = true := by decide +kernel
theorem exponentPart_3 : part exponentOk 3 = true := by decide +kernel
theorem exponentPart_4 : part exponentOk 4 = true := by decide +kernel
theorem exponentPart_5 : part exponentOk 5 = true := by decide +kernel
theorem exponentPart_6 : part exponentOk 6 = true := by decide +kernel
theorem exponentPart_7 : part exponentOk 7 = true := by decide +kernel
theorem exponentPart_8 : part exponentOk 8 = true := by decide +kernel
theorem exponentPart_9 : part exponentOk 9 = true := by decide +kernel
theorem exponentPart_10 : part exponentOk 10 = true := by decide +kernel
theorem exponentPart_11 : part exponentOk 11 = true := by decide +kernel

theorem exponent_check : (List.range 432).all exponentOk = true :=
  all_of_parts exponentPart_0 exponentPart_1 exponentPart_2 exponentPart_3 exponentPart_4 exponentPart_5
    exponentPart_6 exponentPart_7 exponentPart_8 exponentPart_9 exponentPart_10 exponentPart_11

theorem no_exponent {s : Nat} (hs : s < 432) {b : Int} (h1 : 1 ≤ b) (h2 : b ≤ 128) (hb : act s b = .ok .error) {n : Nat} :
    act s (Tok.EXPONENT - 57342) ≠ .ok (.shift n) := by
  intro h
  have := List.all_eq_true.1 exponent_check s (List.mem_range.2 hs)
  rw [exponentOk, isShift_iff.2 ⟨n, h⟩] at this
  simp only [Bool.not_true, Bool.false_or] at this
  have := List.all_eq_true.1 this (b - 1).toNat (List.mem_range.2 (by omega))
  rw [show (((b - 1).toNat : Nat) : Int) + 1 = b by omega, hb] at this
  cases this

/-- The tokens that can be written in one way at least. -/
def speakable (t : Int) : Bool :=
  decide (t + 57342 ∈ Print.spelled) || t + 57342 == Tok.TYPEORMODULEREFERENCE || t + 57342 == Tok.VALUEIDENTIFIER || t + 57342 == Tok.NUMBER

/-- All tokens a state shifts can be written, but for EXPONENT. -/
def speakableAt (s : Nat) : Bool := (List.range 128).all fun i =>
    !isShift (act s ((i : Int) + 1)) || speakable ((i : Int) + 1) || (i : Int) + 1 == Tok.EXPONENT - 57342

theorem speakablePart_0 : part speakableAt 0 = true := by decide +kernel
theorem speakablePart_1 : part speakableAt 1 = true := by decide +kernel
theorem speakablePart_2 : part speakableAt 2 = true := by decide +kernel
theorem speakablePart_3 : part speakableAt 3 = true := by decide +kernel
theorem speakablePart_4 : part speakableAt 4 = true := by decide +kernel
theorem speakablePart_5 : part speakableAt 5 = true := by decide +kernel
theorem speakablePart_6 : part speakableAt 6 = true := by decide +kernel
theorem speakablePart_7 : part speakableAt 7 = true := by decide +kernel
theorem speakablePart_8 : part speakableAt 8 = true := by decide +kernel
theorem speakablePart_9 : part speakableAt 9 = true := by decide +kernel
theorem speakablePart_10 : part speakableAt 10 = true := by decide +kernel
theorem speakablePart_11 : part speakableAt 11 = true := by decide +kernel

theorem speakable_check : (List.range 432).all speakableAt = true :=
  all_of_parts speakablePart_0 speakablePart_1 speakablePart_2 speakablePart_3 speakablePart_4 speakablePart_5
    speakablePart_6 speakablePart_7 speakablePart_8 speakablePart_9 speakablePart_10 speakablePart_11

theorem speakable_of_shift {s : Nat} (hs : s < 432) {t : Int} (h1 : 1 ≤ t) (h2 : t ≤ 128) {n : Nat} (h : act s t = .ok (.shift n))
    (he : t ≠ Tok.EXPONENT - 57342) : speakable t = true := by
  have := List.all_eq_true.1 (List.all_eq_true.1 speakable_check s (List.mem_range.2 hs)) (t - 1).toNat (List.mem_range.2 (by omega))
  rw [show (((t - 1).toNat : Nat) : Int) + 1 = t by omega, isShift_iff.2 ⟨n, h⟩] at this
  simpa [he] using this

theorem finTokens_check : finTokens.all (fun t => speakable t) = true := by decide +kernel

theorem word_A (u : Unicode) : Word u ['A'] :=
  ⟨⟨'A', [], rfl, by rw [u.letter_ascii _ (by decide)]; decide⟩,
    fun c hc => by simp at hc; subst hc; left; rw [u.letter_ascii _ (by decide)]; decide, by decide, by decide⟩

theorem word_a (u : Unicode) : Word u ['a'] :=
  ⟨⟨'a', [], rfl, by rw [u.letter_ascii _ (by decide)]; decide⟩,
    fun c hc => by simp at hc; subst hc; left; rw [u.letter_ascii _ (by decide)]; decide, by decide, by decide⟩

theorem plainToken_writable (u : Unicode) (t : Nat) : Print.Writable u (plainToken t) := by
  unfold plainToken
  simp only
  by_cases h1 : (t : Int) + 57342 = Tok.TYPEORMODULEREFERENCE
  · rw [if_pos h1, h1]
    exact .upper 'A' [] (word_A u) (by rw [u.upper_ascii _ (by decide)]; decide) (fun code => by
      have : ∀ x ∈ reservedWords, x.1 ≠ ['A'] := by decide +kernel
      exact fun h => this _ h rfl)
  · rw [if_neg h1]
    by_cases h2 : (t : Int) + 57342 = Tok.VALUEIDENTIFIER
    · rw [if_pos h2, h2]
      exact .lower 'a' [] (word_a u) (by rw [u.upper_ascii _ (by decide)]; decide)
    · rw [if_neg h2]
      by_cases h3 : (t : Int) + 57342 = Tok.NUMBER
      · rw [if_pos h3, h3]
        exact .number 0 (by decide)
      · rw [if_neg h3]
        exact .word _

theorem plainToken_shape {t : Nat} (h : speakable t = true) : (plainToken t).2 = .none → (plainToken t).1 ∈ Print.spelled := by
  unfold plainToken
  simp only
  intro h'
  unfold speakable at h
  by_cases h1 : (t : Int) + 57342 = Tok.TYPEORMODULEREFERENCE
  · rw [if_pos h1] at h'; cases h'
  · rw [if_neg h1] at h'
    by_cases h2 : (t : Int) + 57342 = Tok.VALUEIDENTIFIER
    · rw [if_pos h2] at h'; cases h'
    · rw [if_neg h2] at h'
      by_cases h3 : (t : Int) + 57342 = Tok.NUMBER
      · rw [if_pos h3] at h'; cases h'
      · simpa [h1, h2, h3] using h

theorem plainWord_shape : ∀ {w : List Nat} (after : Bool), (∀ t ∈ w, speakable t = true) → Print.Shape after (plainWord w)
  | [], _, _ => trivial
  | t :: w, _, h => ⟨fun h' => .inl (plainToken_shape (h t List.mem_cons_self) h'),
      plainWord_shape _ fun x hx => h x (List.mem_cons_of_mem _ hx)⟩

theorem plainWord_writable (u : Unicode) (w : List Nat) : ∀ t ∈ plainWord w, Print.Writable u t := by
  intro t ht
  obtain ⟨x, _, rfl⟩ := List.mem_map.1 ht
  exact plainToken_writable u x

theorem plainWord_tokens (u : Unicode) {w : List Nat} (h : ∀ t ∈ w, t ∈ finTokens ∧ 4 ≤ t ∧ t ≤ 128) (after : Bool) :
    Tokens u after (Print.write (plainWord w)) (plainWord w) :=
  Print.write_tokens u _ _ (plainWord_shape _ fun t ht => List.all_eq_true.1 finTokens_check t (h t ht).1) (plainWord_writable u w)

theorem write_head {w : List Nat} (h : ∀ t ∈ w, t ∈ finTokens ∧ 4 ≤ t ∧ t ≤ 128) :
    ∀ c, (Print.write (plainWord w)).head? = some c → White c := by
  cases w with
  | nil => intro c hc; cases hc
  | cons t w =>
    intro c hc
    have hne : (plainToken t).1 ≠ Tok.EXPONENT := by
      have : finTokens.all (fun t => (plainToken t).1 != Tok.EXPONENT) = true := by decide +kernel
      simpa using List.all_eq_true.1 this t (h t List.mem_cons_self).1
    have e : Print.write (plainWord (t :: w)) = ' ' :: (Print.spelling (plainToken t) ++ Print.write (plainWord w)) := by
      show Print.write (plainToken t :: plainWord w) = _
      simp [Print.write, hne]
    rw [e] at hc
    cases hc
    decide

theorem _root_.Asn1go.Spec.LineTo.length_le {t r : Str} (h : LineTo t r) : r.length ≤ t.length := by
  induction h <;> simp_all <;> omega

theorem _root_.Asn1go.Spec.BlockTo.length_le {t r : Str} (h : BlockTo t r) : r.length ≤ t.length := by
  induction h <;> simp_all <;> omega

theorem _root_.Asn1go.Spec.SkipTo.length_le {t r : Str} (h : SkipTo t r) : r.length ≤ t.length := by
  induction h with
  | line t m r _ h1 _ ih => have := h1.length_le; simp; omega
  | block t m r _ h1 _ ih => have := h1.length_le; simp; omega
  | _ => simp_all <;> omega

/-- Tokens after a blank. -/
theorem _root_.Asn1go.Spec.Tokens.after_white {u : Unicode} {adj : Bool} {c : Char} {t : Str} {toks : List Token} (hc : White c)
    (h : Tokens u false t toks) : Tokens u adj (c :: t) toks := by
  cases h with
  | nil _ _ h => exact .nil _ _ (.white _ _ _ hc h)
  | cons _ _ sp rest code p toks h1 h2 h3 =>
    refine .cons _ _ sp rest code p toks (.white _ _ _ hc h1) ?_ h3
    have : decide (c :: t = sp ++ rest) = false := by
      rw [decide_eq_false_iff_not]
      intro e
      have := h1.length_le
      rw [← e] at this
      simp at this
    rw [this, Bool.and_false]
    rwa [Bool.false_and] at h2

theorem speakable_printable (u : Unicode) {t : Int} (h : speakable t = true) : ∃ sp p, Props.Printable u sp (t + 57342) p := by
  by_cases h1 : t + 57342 = Tok.TYPEORMODULEREFERENCE
  · rw [h1]
    exact ⟨_, _, .typeReference 'A' [] (word_A u) (by rw [u.upper_ascii _ (by decide)]; decide) (fun code => by
      have : ∀ x ∈ reservedWords, x.1 ≠ ['A'] := by decide +kernel
      exact fun h => this _ h rfl)⟩
  · by_cases h2 : t + 57342 = Tok.VALUEIDENTIFIER
    · rw [h2]
      exact ⟨_, _, .identifier 'a' [] (word_a u) (by rw [u.upper_ascii _ (by decide)]; decide)⟩
    · by_cases h3 : t + 57342 = Tok.NUMBER
      · rw [h3]
        exact ⟨_, _, .number ['0'] (by decide) (by decide) (by decide)⟩
      · unfold speakable at h
        have h' : t + 57342 ∈ Print.spelled := by simpa [h1, h2, h3] using h
        exact ⟨_, _, Print.spelled_printable u h'⟩

/-- From every stack the machine can have, it can be brought to accept. -/
theorem path_accept {done : List Token} {σ : List Nat} (hp : Path σ)
    (hr : ∀ R, OkToks R → ∃ ts, Reach ⟨[0], [], done ++ R⟩ ⟨σ, ts, R⟩) (hd : OkToks done) :
    ∃ w : List Nat, (∀ t ∈ w, t ∈ finTokens ∧ 4 ≤ t ∧ t ≤ 128) ∧ ∃ t, Accepts (done ++ plainWord w) t := by
  cases hp with
  | base =>
    have hpA : Path [4, 0] := .cons 4 0 [] .base (by omega) (by decide +kernel)
    have hsh : act 0 6 = .ok (.shift 4) := by decide +kernel
    obtain ⟨w, hw, _, h⟩ := path_finish _ hpA (by decide) (Nat.le_refl _)
    refine ⟨6 :: w, ?_, ?_⟩
    · intro t ht
      rcases List.mem_cons.1 ht with rfl | ht
      · exact ⟨by decide +kernel, by decide, by decide⟩
      · exact hw t ht
    · have hok : OkToks (plainWord (6 :: w)) := (plainWord_ok (fun t ht => by
        rcases List.mem_cons.1 ht with rfl | ht
        · exact ⟨by decide, by decide⟩
        · exact (hw t ht).2)).1
      obtain ⟨ts, h1⟩ := hr _ hok
      have hl := (path_reach h1 .base (okToks_append.2 ⟨hd, hok⟩) rfl).2.2
      have hts : ts = [] := by simpa using hl
      subst hts
      obtain ⟨ss, t, h2, h3⟩ := h [.leaf (plainToken 6).1 (plainToken 6).2] rfl
      refine ⟨t, ss, h1.trans (Relation.ReflTransGen.head ?_ h2), h3⟩
      have e : plainWord (6 :: w) = ((plainToken 6).1, (plainToken 6).2) :: plainWord w := rfl
      rw [e]
      unfold astep
      have e2 : tokNo (firstCode 0 (((plainToken 6).1, (plainToken 6).2) :: plainWord w)) = 6 := by
        show tokNo (plainToken 6).1 = 6
        decide +kernel
      simp only [e2, hsh]
  | cons s p l hp hs hm =>
    have hne : s ≠ 0 := by
      rintro rfl
      rw [preds_zero] at hm
      cases hm
    obtain ⟨w, hw, _, h⟩ := path_finish _ (.cons s p l hp hs hm) hne (Nat.le_refl _)
    have hok : OkToks (plainWord w) := (plainWord_ok fun t ht => (hw t ht).2).1
    refine ⟨w, hw, ?_⟩
    obtain ⟨ts, h1⟩ := hr _ hok
    have hl := (path_reach h1 .base (okToks_append.2 ⟨hd, hok⟩) rfl).2.2
    obtain ⟨ss, t, h2, h3⟩ := h ts (by simpa using hl)
    exact ⟨t, ss, h1.trans h2, h3⟩

theorem tokNo_code {t : Int} (h : 4 ≤ t) {p : Payload} {R : List Token} : tokNo (firstCode 0 ((t + 57342, p) :: R)) = t := by
  show tokNo (t + 57342) = t
  unfold tokNo
  rw [if_neg (by omega)]
  omega

/-- A token that is shifted where another was an error can stand in its place, with more tokens after it. -/
theorem suggested_accept {done : List Token} {σ0 σ : List Nat} {st n : Nat} {tok t : Int}
    (hr : ∀ R, OkToks R → ∃ ts, Reach ⟨[0], [], done ++ R⟩ ⟨σ0, ts, R⟩) (hd : OkToks done) (hp : Path σ0)
    (h1 : 1 ≤ tok) (h2 : tok ≤ 128) (hn : redN tok n σ0 = some σ) (hh : σ.head? = some st) (he : act st tok = .ok .error)
    (ht1 : 4 ≤ t) (ht2 : t ≤ 128) {k : Nat} (hs : act st t = .ok (.shift k)) (p : Payload) :
    ∃ w : List Nat, (∀ t ∈ w, t ∈ finTokens ∧ 4 ≤ t ∧ t ≤ 128) ∧ ∃ tr, Accepts (done ++ (t + 57342, p) :: plainWord w) tr := by
  obtain ⟨l, rfl⟩ : ∃ l, σ = st :: l := by
    cases σ with
    | nil => cases hh
    | cons a l => cases hh; exact ⟨l, rfl⟩
  obtain ⟨m, τ, s', hτ, hs'⟩ := lockstep h1 h2 (by omega) ht2 (σe := st :: l) he hs n n (Nat.le_refl _) hp hn
  have hpτ := redN_path (by omega) ht2 hτ hp
  obtain ⟨top, l', rfl⟩ : ∃ top l', τ = top :: l' := by
    cases hpτ <;> exact ⟨_, _, rfl⟩
  have hsh : act top t = .ok (.shift s') := hs'
  obtain ⟨d, hd1, hd2⟩ := act_ok hpτ.lt (t := t) (by omega) ht2
  rw [hsh] at hd1
  cases hd1
  cases hd2 with
  | shift _ hok =>
    have hr' : ∀ R, OkToks R → ∃ ts, Reach ⟨[0], [], (done ++ [(t + 57342, p)]) ++ R⟩ ⟨s' :: top :: l', ts, R⟩ := by
      intro R hR
      have hcode : OkToks ((t + 57342, p) :: R) := by
        intro x hx
        rcases List.mem_cons.1 hx with rfl | hx
        · exact ⟨by show 57346 ≤ t + 57342; omega, by show t + 57342 ≤ 57470; omega⟩
        · exact hR x hx
      obtain ⟨ts, hts⟩ := hr _ hcode
      obtain ⟨ts', hts'⟩ := redN_reach hτ ts ((t + 57342, p) :: R) (tokNo_code ht1)
      refine ⟨.leaf (t + 57342) p :: ts', ?_⟩
      rw [List.append_assoc]
      refine (hts.trans hts').tail ?_
      unfold astep
      simp only [tokNo_code ht1, hsh]
    have hpath : Path (s' :: top :: l') := .cons _ _ _ hpτ hok.lt hok.pred
    obtain ⟨w, hw, tr, h⟩ := path_accept hpath hr' (by
      refine okToks_append.2 ⟨hd, fun x hx => ?_⟩
      rcases List.mem_cons.1 hx with rfl | hx
      · exact ⟨by show 57346 ≤ t + 57342; omega, by show t + 57342 ≤ 57470; omega⟩
      · cases hx)
    refine ⟨w, hw, tr, ?_⟩
    rw [List.append_assoc] at h
    exact h

theorem reach_error_accept {a b : Conf} (hb : Reach a b) (hbe : astep b = .error) {c : Conf} (hc : Reach a c) (hca : astep c = .accept) :
    False := by
  induction hb using Relation.ReflTransGen.head_induction_on with
  | refl =>
    cases hc using Relation.ReflTransGen.head_induction_on with
    | refl => rw [hbe] at hca; cases hca
    | head h _ => rw [hbe] at h; cases h
  | head h _ ih =>
    cases hc using Relation.ReflTransGen.head_induction_on with
    | refl => rw [hca] at h; cases h
    | head h' hr =>
      rw [h] at h'
      cases h'
      exact ih hr

/-- Nothing that starts with the tokens read and has the refused token, or the end, next is accepted. -/
theorem refused {done R : List Token} {σ0 σ : List Nat} {st n : Nat} {tok : Int}
    (hr : ∀ R, OkToks R → ∃ ts, Reach ⟨[0], [], done ++ R⟩ ⟨σ0, ts, R⟩) (hn : redN tok n σ0 = some σ) (hh : σ.head? = some st)
    (he : act st tok = .ok .error) (hR : OkToks R) (hf : tokNo (firstCode 0 R) = tok) (t : Tree) : ¬ Accepts (done ++ R) t := by
  rintro ⟨ss, h1, h2⟩
  obtain ⟨ts, hts⟩ := hr _ hR
  obtain ⟨ts', hts'⟩ := redN_reach hn ts R hf
  refine reach_error_accept (hts.trans hts') ?_ h1 h2
  cases σ with
  | nil => cases hh
  | cons a l =>
    cases hh
    unfold astep
    simp only [hf, he]

end Asn1go.LR
