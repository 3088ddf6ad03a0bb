import Mathlib.Data.List.Induction
import Verif.Proofs.Tools.Calendar

/-! `time.Parse` on the layout of dump.go reads the texts of moments. -/

namespace Asn1go

open Spec

/-- A decimal digit. -/
def digitChar (k : Nat) : Char := Char.ofNat (48 + k % 10)

theorem digitChar_toNat (k : Nat) : (digitChar k).toNat = 48 + k % 10 := by
  have : ∀ i, i < 10 → (Char.ofNat (48 + i)).toNat = 48 + i := by decide
  exact this _ (Nat.mod_lt _ (by omega))

theorem isTimeDigit_digitChar (k : Nat) : isTimeDigit (digitChar k) = true := by
  have := digitChar_toNat k
  simp only [isTimeDigit, this, Bool.and_eq_true, decide_eq_true_eq]
  omega

theorem eq_digitChar {c : Char} (h : isTimeDigit c = true) : c = digitChar (c.toNat - 48) := by
  simp only [isTimeDigit, Bool.and_eq_true, decide_eq_true_eq] at h
  have : 48 + (c.toNat - 48) % 10 = c.toNat := by omega
  rw [digitChar, this, Char.ofNat_toNat]

theorem digit_iff (c : Char) : isTimeDigit c = true ↔ '0' ≤ c ∧ c ≤ '9' := by
  simp only [isTimeDigit, Bool.and_eq_true, decide_eq_true_eq, Char.le_def, UInt32.le_iff_toNat_le]
  exact Iff.rfl

theorem digits_succ (k n : Nat) : digits (k + 1) n = digits k (n / 10) ++ [digitChar n] := rfl

theorem digits_two (n : Nat) : digits 2 n = [digitChar (n / 10), digitChar n] := rfl
theorem digits_one (n : Nat) : digits 1 n = [digitChar n] := rfl
theorem digits_four (n : Nat) :
    digits 4 n = [digitChar (n / 10 / 10 / 10), digitChar (n / 10 / 10), digitChar (n / 10), digitChar n] := rfl

theorem digits_length : ∀ k n, (digits k n).length = k
  | 0, _ => rfl
  | k + 1, n => by rw [digits_succ, List.length_append, digits_length k]; rfl

theorem digits_all : ∀ k n, ∀ c ∈ digits k n, isTimeDigit c = true
  | 0, _, _, h => nomatch h
  | k + 1, n, c, h => by
    rw [digits_succ, List.mem_append, List.mem_singleton] at h
    rcases h with h | rfl
    · exact digits_all k _ c h
    · exact isTimeDigit_digitChar n

theorem decValue_append (a : Nat) (s : Str) (c : Char) : decValue a (s ++ [c]) = decValue a s * 10 + (c.toNat - 48) := by
  simp [decValue, List.foldl_append]

theorem decValue_digits : ∀ k n, n < 10 ^ k → decValue 0 (digits k n) = n
  | 0, n, h => by
    have : n = 0 := by simpa using h
    subst this; rfl
  | k + 1, n, h => by
    have : n / 10 < 10 ^ k := by rw [Nat.pow_succ] at h; omega
    rw [digits_succ, decValue_append, decValue_digits k _ this, digitChar_toNat]
    omega

theorem digits_decValue (s : Str) (h : ∀ c ∈ s, isTimeDigit c = true) :
    s = digits s.length (decValue 0 s) ∧ decValue 0 s < 10 ^ s.length := by
  induction s using List.reverseRecOn with
  | nil => exact ⟨rfl, by simp [decValue]⟩
  | append_singleton l c ih =>
    obtain ⟨h1, h2⟩ := ih fun x hx => h x (by simp [hx])
    have hc := h c (by simp)
    have hd : c.toNat - 48 < 10 := by
      simp only [isTimeDigit, Bool.and_eq_true, decide_eq_true_eq] at hc; omega
    rw [List.length_append, List.length_singleton, decValue_append, digits_succ]
    have e1 : (decValue 0 l * 10 + (c.toNat - 48)) / 10 = decValue 0 l := by omega
    have e2 : digitChar (decValue 0 l * 10 + (c.toNat - 48)) = c := by
      have e3 : (decValue 0 l * 10 + (c.toNat - 48)) % 10 = c.toNat - 48 := by omega
      have := eq_digitChar hc
      rw [digitChar, Nat.mod_eq_of_lt hd] at this
      rw [digitChar, e3]
      exact this.symm
    rw [e1, e2, ← h1]
    exact ⟨rfl, by rw [Nat.pow_succ]; omega⟩

theorem getnum_two (n : Nat) (h : n < 100) (l : Str) (b : Bool) : getnum (digits 2 n ++ l) b = some ((n : Int), l) := by
  rw [digits_two]
  simp only [getnum, List.cons_append, List.nil_append, isTimeDigit_digitChar, digitChar_toNat, Bool.not_true, Bool.false_eq_true,
    if_false, Option.some.injEq, Prod.mk.injEq, and_true]
  omega

theorem getnum_one (n : Nat) (h : n < 10) {c : Char} (hc : isTimeDigit c = false) (l : Str) :
    getnum (digits 1 n ++ c :: l) false = some ((n : Int), c :: l) := by
  rw [digits_one]
  simp only [getnum, List.cons_append, List.nil_append, isTimeDigit_digitChar, digitChar_toNat, Bool.not_true, Bool.false_eq_true,
    if_false, hc, Bool.not_false, if_true, Option.some.injEq, Prod.mk.injEq, and_true]
  omega

theorem getnum_inv {s l : Str} {b : Bool} {n : Int} (h : getnum s b = some (n, l)) :
    ∃ k : Nat, n = k ∧ ((k < 100 ∧ s = digits 2 k ++ l) ∨ (b = false ∧ k < 10 ∧ s = digits 1 k ++ l)) := by
  unfold getnum at h
  split at h
  · exact nomatch h
  · rename_i c l'
    split at h
    · exact nomatch h
    · rename_i hc
      have hc : isTimeDigit c = true := by simpa using hc
      have ec := eq_digitChar hc
      have hc' : 48 ≤ c.toNat ∧ c.toNat ≤ 57 := by simpa [isTimeDigit] using hc
      have one : c = digitChar (c.toNat - 48) := ec
      split at h
      · split at h
        · exact nomatch h
        · rename_i hb
          simp only [Option.some.injEq, Prod.mk.injEq] at h
          obtain ⟨rfl, rfl⟩ := h
          exact ⟨_, rfl, .inr ⟨by simpa using hb, by omega, by rw [digits_one, ← ec]; rfl⟩⟩
      · rename_i d l''
        split at h
        · split at h
          · exact nomatch h
          · rename_i hb
            simp only [Option.some.injEq, Prod.mk.injEq] at h
            obtain ⟨rfl, rfl⟩ := h
            exact ⟨_, rfl, .inr ⟨by simpa using hb, by omega, by rw [digits_one, ← ec]; rfl⟩⟩
        · rename_i hd
          have hd : isTimeDigit d = true := by simpa using hd
          have ed := eq_digitChar hd
          have hd' : 48 ≤ d.toNat ∧ d.toNat ≤ 57 := by simpa [isTimeDigit] using hd
          simp only [Option.some.injEq, Prod.mk.injEq] at h
          obtain ⟨rfl, rfl⟩ := h
          refine ⟨_, rfl, .inl ⟨by omega, ?_⟩⟩
          have e1 : ((c.toNat - 48) * 10 + (d.toNat - 48)) / 10 = c.toNat - 48 := by omega
          have e2 : digitChar ((c.toNat - 48) * 10 + (d.toNat - 48)) = d := by
            have : ((c.toNat - 48) * 10 + (d.toNat - 48)) % 10 = (d.toNat - 48) % 10 := by omega
            rw [digitChar, this]; exact ed.symm
          rw [digits_two, e1, e2, ← ec]; rfl

theorem getnum_true {s l : Str} {n : Int} (h : getnum s true = some (n, l)) :
    ∃ k : Nat, n = k ∧ k < 100 ∧ s = digits 2 k ++ l := by
  obtain ⟨k, e, h | h⟩ := getnum_inv h
  · exact ⟨k, e, h.1, h.2⟩
  · exact nomatch h.1

theorem span_digits : ∀ (s l : Str), (∀ c ∈ s, isTimeDigit c = true) → (∀ c, l.head? = some c → isTimeDigit c = false) →
    spanTimeDigits (s ++ l) = (s, l)
  | [], [], _, _ => rfl
  | [], c :: l, _, h => by
    have := h c rfl
    simp [spanTimeDigits, this]
  | c :: s, l, h, hl => by
    have := span_digits s l (fun x hx => h x (by simp [hx])) hl
    simp only [List.cons_append, spanTimeDigits, h c (by simp), if_true, this]

theorem span_inv : ∀ (s : Str), s = (spanTimeDigits s).1 ++ (spanTimeDigits s).2 ∧ ∀ c ∈ (spanTimeDigits s).1, isTimeDigit c = true
  | [] => ⟨rfl, by simp [spanTimeDigits]⟩
  | c :: s => by
    obtain ⟨h1, h2⟩ := span_inv s
    unfold spanTimeDigits
    split
    · rename_i hc
      refine ⟨by rw [List.cons_append, ← h1], ?_⟩
      intro x hx
      rcases List.mem_cons.1 hx with rfl | hx
      · exact hc
      · exact h2 x hx
    · exact ⟨rfl, by simp⟩

theorem parseFraction_of {s : Str} {n : Nat} (h : FractionText s n) : parseFraction s = ((n : Int), []) := by
  cases h with
  | none => rfl
  | @some c more k n hc hk hk9 hn hm ha =>
    have hall : ∀ x ∈ digits k n ++ more, isTimeDigit x = true := by
      intro x hx
      rcases List.mem_append.1 hx with hx | hx
      · exact digits_all k n x hx
      · exact (digit_iff x).2 (ha x hx)
    have hspan := span_digits (digits k n ++ more) [] hall (by simp)
    rw [List.append_nil] at hspan
    have htake : (digits k n ++ more).take 9 = digits k n := by
      by_cases e : more = []
      · rw [e, List.append_nil, List.take_of_length_le]; rw [digits_length]; omega
      · have := hm e
        subst this
        rw [List.take_append_of_le_length (by rw [digits_length]; omega), List.take_of_length_le (by rw [digits_length]; omega)]
    generalize hl : digits k n ++ more = l at *
    match l with
    | [] =>
      have : (digits k n ++ more).length = 0 := by rw [hl]; rfl
      rw [List.length_append, digits_length] at this
      omega
    | d :: l' =>
      have hd := hall d (by simp)
      have hc' : c = '.' ∨ c = ',' := hc
      simp only [parseFraction, hc', hd, and_self, if_true, hspan, Prod.mk.injEq, and_true]
      rw [parseNanoseconds, htake, decValue_digits k n hn, digits_length]

theorem parseFraction_inv {s : Str} {n : Int} (h : parseFraction s = (n, [])) : ∃ k : Nat, n = k ∧ k < 1000000000 ∧ FractionText s k := by
  unfold parseFraction at h
  split at h
  · rename_i c d l
    split at h
    · rename_i hc
      obtain ⟨h1, h2⟩ := span_inv (d :: l)
      simp only [Prod.mk.injEq] at h
      obtain ⟨rfl, h⟩ := h
      rw [h, List.append_nil] at h1
      rw [← h1] at h2 ⊢
      obtain ⟨s, hs⟩ : ∃ s, s = (d :: l).take 9 := ⟨_, rfl⟩
      have hall : ∀ x ∈ s, isTimeDigit x = true := fun x hx => h2 x (List.mem_of_mem_take (hs ▸ hx))
      obtain ⟨e1, e2⟩ := digits_decValue s hall
      have hlen : 1 ≤ s.length ∧ s.length ≤ 9 := by
        rw [hs, List.length_take, List.length_cons]; omega
      refine ⟨decValue 0 s * 10 ^ (9 - s.length), by rw [parseNanoseconds, ← hs], ?_, ?_⟩
      · have : 10 ^ s.length * 10 ^ (9 - s.length) = 1000000000 := by
          rw [← Nat.pow_add, show s.length + (9 - s.length) = 9 by omega]
        rw [← this]
        exact Nat.mul_lt_mul_of_pos_right e2 (Nat.pow_pos (by omega))
      · have hsplit : d :: l = digits s.length (decValue 0 s) ++ (d :: l).drop 9 := by
          rw [← e1, hs, List.take_append_drop]
        rw [hsplit]
        refine .some hc.1 hlen.1 hlen.2 e2 ?_ ?_
        · intro hne
          have : 9 < (d :: l).length := by
            apply Nat.lt_of_not_le
            intro hle
            exact hne (List.drop_eq_nil_of_le hle)
          rw [hs, List.length_take]; omega
        · intro x hx
          exact (digit_iff x).1 (h2 x (List.mem_of_mem_drop hx))
    · exact nomatch h
  · simp only [Prod.mk.injEq] at h
    obtain ⟨rfl, rfl⟩ := h
    exact ⟨0, rfl, by omega, .none⟩

theorem cutspace_replicate (k : Nat) {l : Str} (h : ∀ c, l.head? = some c → c ≠ ' ') : cutspace (List.replicate k ' ' ++ l) = l := by
  induction k with
  | zero =>
    cases l with
    | nil => rfl
    | cons c l => simp [cutspace, h c rfl]
  | succ k ih => rw [List.replicate_succ, List.cons_append, cutspace, if_pos rfl, ih]

theorem cutspace_inv (s : Str) : ∃ k, s = List.replicate k ' ' ++ cutspace s := by
  induction s with
  | nil => exact ⟨0, rfl⟩
  | cons c l ih =>
    unfold cutspace
    split
    · rename_i hc
      obtain ⟨k, hk⟩ := ih
      exact ⟨k + 1, by rw [List.replicate_succ, List.cons_append, ← hk, hc]⟩
    · exact ⟨0, rfl⟩

theorem skip_char {p : Char} (hp : p ≠ ' ') (s : Str) : skipPrefix 2 [p] (p :: s) = some s := by
  simp [skipPrefix, hp]

theorem skip_char_inv {p : Char} (hp : p ≠ ' ') {s l : Str} (h : skipPrefix 2 [p] s = some l) : s = p :: l := by
  cases s with
  | nil => simp [skipPrefix, hp] at h
  | cons v vs =>
    simp only [skipPrefix, hp, if_false, ne_eq, ite_not] at h
    split at h
    · rename_i e; simp only [Option.some.injEq] at h; rw [e, h]
    · exact nomatch h

theorem skip_space_inv {s l : Str} (h : skipPrefix 2 [' '] s = some l) : s = [] ∧ l = [] ∨ ∃ k, 1 ≤ k ∧ s = List.replicate k ' ' ++ l := by
  cases s with
  | nil => left; simpa [skipPrefix, cutspace] using h.symm
  | cons v vs =>
    right
    simp only [skipPrefix, if_true, ne_eq, ite_not] at h
    split at h
    · rename_i e
      subst e
      have h : cutspace (' ' :: vs) = l := by simpa [cutspace, skipPrefix] using h
      obtain ⟨k, hk⟩ := cutspace_inv vs
      refine ⟨k + 1, by omega, ?_⟩
      rw [cutspace, if_pos rfl] at h
      rw [List.replicate_succ, List.cons_append, ← h, ← hk]
    · exact nomatch h

theorem skip_space {k : Nat} (hk : 1 ≤ k) {l : Str} (h : ∀ c, l.head? = some c → c ≠ ' ') :
    skipPrefix 2 [' '] (List.replicate k ' ' ++ l) = some l := by
  obtain ⟨j, rfl⟩ : ∃ j, k = j + 1 := ⟨k - 1, by omega⟩
  have e : cutspace [' '] = [] := rfl
  have := cutspace_replicate (j + 1) h
  rw [List.replicate_succ, List.cons_append] at this ⊢
  simp only [skipPrefix, if_true, ne_eq, not_true_eq_false, if_false, e, this]

theorem atoi_four (n : Nat) (h : n < 10000) : atoi (digits 4 n) = some (n : Int) := by
  have h1 : (digits 4 n).all (fun c => 48 ≤ c.toNat && c.toNat ≤ 57) = true := List.all_eq_true.2 (digits_all 4 n)
  have h2 : (digits 4 n).isEmpty = false := rfl
  rw [atoi, h1, h2]
  simp only [Bool.not_false, Bool.and_self, if_true, decValue_digits 4 n (by omega)]
  rw [if_pos (by omega)]

theorem atoi_four_inv {a b c d : Char} {y : Int} (h : atoi [a, b, c, d] = some y) :
    ∃ k : Nat, y = k ∧ k < 10000 ∧ [a, b, c, d] = digits 4 k := by
  unfold atoi at h
  split at h
  · rename_i hall
    have hall : ∀ x ∈ [a, b, c, d], isTimeDigit x = true := by
      have := (Bool.and_eq_true _ _ ▸ hall).1
      exact List.all_eq_true.1 this
    obtain ⟨e1, e2⟩ := digits_decValue _ hall
    dsimp only at h
    split at h
    · simp only [Option.some.injEq] at h
      exact ⟨_, h.symm, by simpa using e2, e1⟩
    · exact nomatch h
  · exact nomatch h

theorem parseChunks_cons {pre : Str} {k : TimeChunk} {l : List (Str × TimeChunk)} {f f1 : TimeFields} {s s1 s2 : Str}
    (h1 : skipPrefix (pre.length + 1) pre s = some s1) (h2 : parseChunk k f s1 = some (f1, s2)) :
    parseChunks ((pre, k) :: l) f s = parseChunks l f1 s2 := by
  rw [parseChunks, h1]
  dsimp only
  rw [h2]

theorem parseTimeFields_of {s : Str} {t : Moment} (h : MomentText s t) : parseTimeFields s = some (fieldsOf t) := by
  obtain ⟨ok, hsp, hw, hfr⟩ := h
  rename_i spaces w fraction
  obtain ⟨⟨h1, h2, h3, h4⟩, h5, h6, h7, h8, h9⟩ := ok
  have h31 : monthLength t.day.year t.day.month ≤ 31 := by
    unfold monthLength
    by_cases hl : LeapYear t.day.year <;> simp only [hl, if_true, if_false] <;> split <;> (try split) <;> omega
  have hd := daysIn_eq (y := t.day.year) h1 h2
  have hy : ∀ l, parseChunk .year {} (digits 4 t.day.year ++ l) = some ({ year := t.day.year }, l) := by
    intro l
    have := atoi_four t.day.year (by omega)
    rw [digits_four] at this ⊢
    simp only [parseChunk, List.cons_append, List.nil_append, isTimeDigit_digitChar, Bool.not_true, Bool.false_eq_true, if_false, this]
  have hhead : ∀ (l : Str) c, (digits w t.hour ++ l).head? = some c → c ≠ ' ' := by
    intro l c hc
    have : isTimeDigit c = true := by
      rcases hw with rfl | ⟨rfl, _⟩
      · rw [digits_two] at hc
        simp only [List.cons_append, List.head?_cons, Option.some.injEq] at hc
        rw [← hc]; exact isTimeDigit_digitChar _
      · rw [digits_one] at hc
        simp only [List.cons_append, List.head?_cons, Option.some.injEq] at hc
        rw [← hc]; exact isTimeDigit_digitChar _
    rintro rfl
    exact absurd this (by decide)
  have hhour : ∀ l, getnum (digits w t.hour ++ ':' :: l) false = some ((t.hour : Int), ':' :: l) := by
    intro l
    rcases hw with rfl | ⟨rfl, hlt⟩
    · exact getnum_two _ (by omega) _ _
    · exact getnum_one _ hlt (by decide) _
  have hmo : ∀ f l, parseChunk .month f (digits 2 t.day.month ++ l) = some ({ f with month := t.day.month }, l) := by
    intro f l
    simp only [parseChunk, getnum_two _ (show t.day.month < 100 by omega)]
    rw [if_neg (by omega)]
  have hda : ∀ f l, parseChunk .day f (digits 2 t.day.day ++ l) = some ({ f with day := t.day.day }, l) := by
    intro f l
    simp only [parseChunk, getnum_two _ (show t.day.day < 100 by omega)]
  have hho : ∀ f l, parseChunk .hour f (digits w t.hour ++ ':' :: l) = some ({ f with hour := t.hour }, ':' :: l) := by
    intro f l
    simp only [parseChunk, hhour]
    rw [if_neg (by omega)]
  have hmi : ∀ f l, parseChunk .minute f (digits 2 t.min ++ l) = some ({ f with min := t.min }, l) := by
    intro f l
    simp only [parseChunk, getnum_two _ (show t.min < 100 by omega)]
    rw [if_neg (by omega)]
  have hse : ∀ f, parseChunk .second f (digits 2 t.sec ++ fraction) = some ({ f with sec := t.sec, nsec := t.nsec }, []) := by
    intro f
    simp only [parseChunk, getnum_two _ (show t.sec < 100 by omega), parseFraction_of hfr]
    rw [if_neg (by omega)]
  unfold parseTimeFields wsLayout
  rw [parseChunks_cons rfl (hy _), parseChunks_cons (pre := ['-']) (skip_char (by decide) _) (hmo _ _),
    parseChunks_cons (pre := ['-']) (skip_char (by decide) _) (hda _ _), parseChunks_cons (pre := [' ']) (skip_space hsp (hhead _)) (hho _ _),
    parseChunks_cons (pre := [':']) (skip_char (by decide) _) (hmi _ _), parseChunks_cons (pre := [':']) (skip_char (by decide) _) (hse _)]
  simp only [parseChunks, List.length_nil, ne_eq, not_true_eq_false, if_false, hd]
  rw [if_neg (by omega)]
  rfl

theorem parseChunks_inv {pre : Str} {k : TimeChunk} {l : List (Str × TimeChunk)} {f g : TimeFields} {s : Str}
    (h : parseChunks ((pre, k) :: l) f s = some g) :
    ∃ s1 f1 s2, skipPrefix (pre.length + 1) pre s = some s1 ∧ parseChunk k f s1 = some (f1, s2) ∧ parseChunks l f1 s2 = some g := by
  unfold parseChunks at h
  split at h
  · exact nomatch h
  · rename_i s1 e1
    split at h
    · exact nomatch h
    · rename_i f1 s2 e2
      exact ⟨s1, f1, s2, e1, e2, h⟩

theorem parseYear_inv {f f' : TimeFields} {s l : Str} (h : parseChunk .year f s = some (f', l)) :
    ∃ k : Nat, k < 10000 ∧ f' = { f with year := k } ∧ s = digits 4 k ++ l := by
  simp only [parseChunk] at h
  split at h
  · rename_i a b c d l'
    split at h
    · exact nomatch h
    · split at h
      · exact nomatch h
      · rename_i y hy
        obtain ⟨k, rfl, hk, e⟩ := atoi_four_inv hy
        simp only [Option.some.injEq, Prod.mk.injEq] at h
        obtain ⟨rfl, rfl⟩ := h
        exact ⟨k, hk, rfl, by rw [← e]; rfl⟩
  · exact nomatch h

theorem parseTimeFields_inv {s : Str} {f : TimeFields} (h : parseTimeFields s = some f) : ∃ t, MomentText s t ∧ f = fieldsOf t := by
  unfold parseTimeFields at h
  split at h
  · exact nomatch h
  rename_i f' hp
  split at h
  · exact nomatch h
  rename_i hday
  simp only [Option.some.injEq] at h
  subst h
  obtain ⟨s0, f1, s1, hs0, hy, hp1⟩ := parseChunks_inv hp
  cases (show s = s0 by simpa [skipPrefix] using hs0)
  obtain ⟨y, hy1, rfl, rfl⟩ := parseYear_inv hy
  obtain ⟨s2, f2, s3, hs2, hm, hp2⟩ := parseChunks_inv hp1
  cases skip_char_inv (p := '-') (by decide) hs2
  simp only [parseChunk] at hm
  split at hm
  · exact nomatch hm
  rename_i n l hn
  obtain ⟨m, rfl, hm1, rfl⟩ := getnum_true hn
  split at hm
  · exact nomatch hm
  rename_i hm2
  simp only [Option.some.injEq, Prod.mk.injEq] at hm
  obtain ⟨rfl, rfl⟩ := hm
  obtain ⟨s4, f3, s5, hs4, hd, hp3⟩ := parseChunks_inv hp2
  cases skip_char_inv (p := '-') (by decide) hs4
  simp only [parseChunk] at hd
  split at hd
  · exact nomatch hd
  rename_i n l' hn'
  obtain ⟨d, rfl, hd1, rfl⟩ := getnum_true hn'
  simp only [Option.some.injEq, Prod.mk.injEq] at hd
  obtain ⟨rfl, rfl⟩ := hd
  obtain ⟨s6, f4, s7, hs6, hh, hp4⟩ := parseChunks_inv hp3
  simp only [parseChunk] at hh
  split at hh
  · exact nomatch hh
  rename_i n l'' hn''
  obtain ⟨hr, rfl, hw⟩ := getnum_inv hn''
  split at hh
  · exact nomatch hh
  rename_i hh2
  simp only [Option.some.injEq, Prod.mk.injEq] at hh
  obtain ⟨rfl, rfl⟩ := hh
  obtain ⟨w, hw', rfl⟩ : ∃ w, (w = 2 ∨ (w = 1 ∧ hr < 10)) ∧ s6 = digits w hr ++ l'' := by
    rcases hw with ⟨_, rfl⟩ | ⟨_, h, rfl⟩
    · exact ⟨2, .inl rfl, rfl⟩
    · exact ⟨1, .inr ⟨rfl, h⟩, rfl⟩
  have hsp : ∃ k, 1 ≤ k ∧ l' = List.replicate k ' ' ++ (digits w hr ++ l'') := by
    rcases skip_space_inv hs6 with ⟨_, h⟩ | h
    · have := congrArg List.length h
      rw [List.length_append, digits_length] at this
      rcases hw' with rfl | ⟨rfl, _⟩ <;> simp at this
    · exact h
  obtain ⟨spaces, hsp1, rfl⟩ := hsp
  obtain ⟨s8, f5, s9, hs8, hmi, hp5⟩ := parseChunks_inv hp4
  cases skip_char_inv (p := ':') (by decide) hs8
  simp only [parseChunk] at hmi
  split at hmi
  · exact nomatch hmi
  rename_i n l3 hn3
  obtain ⟨mi, rfl, hmi1, rfl⟩ := getnum_true hn3
  split at hmi
  · exact nomatch hmi
  rename_i hmi2
  simp only [Option.some.injEq, Prod.mk.injEq] at hmi
  obtain ⟨rfl, rfl⟩ := hmi
  obtain ⟨s10, f6, s11, hs10, hse, hp6⟩ := parseChunks_inv hp5
  cases skip_char_inv (p := ':') (by decide) hs10
  simp only [parseChunk] at hse
  split at hse
  · exact nomatch hse
  rename_i n l4 hn4
  obtain ⟨se, rfl, hse1, rfl⟩ := getnum_true hn4
  split at hse
  · exact nomatch hse
  rename_i hse2
  simp only [Option.some.injEq, Prod.mk.injEq] at hse
  obtain ⟨rfl, hs11⟩ := hse
  simp only [parseChunks] at hp6
  split at hp6
  · exact nomatch hp6
  rename_i hlen
  simp only [Option.some.injEq] at hp6
  subst hp6
  have hnil : s11 = [] := List.eq_nil_of_length_eq_zero (by simpa using hlen)
  obtain ⟨ns, e, hns, hfr⟩ := parseFraction_inv (s := l4) (n := (parseFraction l4).1) (by rw [← hnil, ← hs11])
  dsimp only at hday
  rw [daysIn_eq (by omega) (by omega)] at hday
  refine ⟨⟨⟨y, m, d⟩, hr, mi, se, ns⟩, ?_, ?_⟩
  · exact MomentText.mk (t := ⟨⟨y, m, d⟩, hr, mi, se, ns⟩)
      ⟨⟨by dsimp only; omega, by dsimp only; omega, by dsimp only; omega, by dsimp only; omega⟩, by dsimp only; omega,
        by dsimp only; omega, by dsimp only; omega, by dsimp only; omega, hns⟩ hsp1 hw' hfr
  · rw [fieldsOf, ← e]

end Asn1go
