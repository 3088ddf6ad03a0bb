import Verif.Model.Dump
import Verif.Spec.Dump
import Mathlib.Data.List.Forall2
import Mathlib.Tactic.Ring

/-! Hex dumps. -/

namespace Asn1go

open Spec

theorem splitAt1_ne (sep : Char) : ∀ s, splitAt1 sep s ≠ []
  | [] => by simp [splitAt1]
  | c :: l => by
    rw [splitAt1]
    split
    · simp
    · split <;> simp

theorem splitAt1_other (sep c : Char) (l : Str) (h : c ≠ sep) :
    ∃ w ws, splitAt1 sep l = w :: ws ∧ splitAt1 sep (c :: l) = (c :: w) :: ws := by
  obtain ⟨w, ws, e⟩ := List.exists_cons_of_ne_nil (splitAt1_ne sep l)
  exact ⟨w, ws, e, by rw [splitAt1, if_neg h, e]⟩

theorem joined_cons (sep : Char) (a : Str) {l : List Str} (h : l ≠ []) : joined sep (a :: l) = a ++ sep :: joined sep l := by
  obtain ⟨b, l, rfl⟩ := List.exists_cons_of_ne_nil h
  rfl

theorem joined_head (sep c : Char) (w : Str) (ws : List Str) : joined sep ((c :: w) :: ws) = c :: joined sep (w :: ws) := by
  cases ws <;> rfl

theorem joined_split (sep : Char) : ∀ s, joined sep (splitAt1 sep s) = s
  | [] => rfl
  | c :: l => by
    by_cases h : c = sep
    · rw [splitAt1, if_pos h, joined_cons _ _ (splitAt1_ne sep l), joined_split sep l, h]; rfl
    · obtain ⟨w, ws, e, e2⟩ := splitAt1_other sep c l h
      rw [e2, joined_head, ← e, joined_split sep l]

theorem split_no_sep (sep : Char) : ∀ s, ∀ f ∈ splitAt1 sep s, sep ∉ f ∧ ∀ c ∈ f, c ∈ s
  | [], f, hf => by simp [splitAt1] at hf; simp [hf]
  | c :: l, f, hf => by
    by_cases h : c = sep
    · rw [splitAt1, if_pos h] at hf
      rcases List.mem_cons.1 hf with rfl | hf
      · simp
      · obtain ⟨h1, h2⟩ := split_no_sep sep l f hf
        exact ⟨h1, fun x hx => List.mem_cons_of_mem _ (h2 x hx)⟩
    · obtain ⟨w, ws, e, e2⟩ := splitAt1_other sep c l h
      rw [e2] at hf
      rcases List.mem_cons.1 hf with rfl | hf
      · obtain ⟨h1, h2⟩ := split_no_sep sep l w (by rw [e]; simp)
        refine ⟨?_, ?_⟩
        · intro hm
          rcases List.mem_cons.1 hm with hm | hm
          · exact h hm.symm
          · exact h1 hm
        · intro x hx
          rcases List.mem_cons.1 hx with hx | hx
          · simp [hx]
          · exact List.mem_cons_of_mem _ (h2 x hx)
      · obtain ⟨h1, h2⟩ := split_no_sep sep l f (by rw [e]; exact List.mem_cons_of_mem _ hf)
        exact ⟨h1, fun x hx => List.mem_cons_of_mem _ (h2 x hx)⟩

theorem split_append (sep : Char) (l : Str) : ∀ a : Str, sep ∉ a → splitAt1 sep (a ++ sep :: l) = a :: splitAt1 sep l
  | [], _ => by rw [List.nil_append, splitAt1, if_pos rfl]
  | c :: a, h => by
    have hc : c ≠ sep := fun e => h (by simp [e])
    have ha : sep ∉ a := fun e => h (List.mem_cons_of_mem _ e)
    rw [List.cons_append, splitAt1, if_neg hc, split_append sep l a ha]

theorem split_single (sep : Char) : ∀ a : Str, sep ∉ a → splitAt1 sep a = [a]
  | [], _ => rfl
  | c :: a, h => by
    have hc : c ≠ sep := fun e => h (by simp [e])
    have ha : sep ∉ a := fun e => h (List.mem_cons_of_mem _ e)
    rw [splitAt1, if_neg hc, split_single sep a ha]

theorem split_joined (sep : Char) : ∀ l : List Str, l ≠ [] → (∀ f ∈ l, sep ∉ f) → splitAt1 sep (joined sep l) = l
  | [], h, _ => absurd rfl h
  | [a], _, h => split_single sep a (h a (by simp))
  | a :: b :: l, _, h => by
    rw [joined_cons _ _ (by simp), split_append _ _ _ (h a (by simp)),
      split_joined sep (b :: l) (by simp) (fun f hf => h f (List.mem_cons_of_mem _ hf))]

theorem not_mem_joined {sep x : Char} (hx : x ≠ sep) : ∀ {l : List Str}, (∀ f ∈ l, x ∉ f) → x ∉ joined sep l
  | [], _ => by simp [joined]
  | [a], h => h a (by simp)
  | a :: b :: l, h => by
    rw [joined_cons _ _ (by simp)]
    intro hm
    rcases List.mem_append.1 hm with hm | hm
    · exact h a (by simp) hm
    · rcases List.mem_cons.1 hm with hm | hm
      · exact hx hm
      · exact not_mem_joined hx (fun f hf => h f (List.mem_cons_of_mem _ hf)) hm

theorem char_toNat_ne {a b : Char} (h : a ≠ b) : a.toNat ≠ b.toNat := fun e => h (Char.ext (UInt32.toNat_inj.1 e))

theorem digit_spec (c : Char) (d : Nat) : hexDigit c = some d ↔ digitValue c = some d ∧ d < 16 := by
  have l0 : ('0' ≤ c) ↔ 48 ≤ c.toNat := Iff.rfl
  have l9 : (c ≤ '9') ↔ c.toNat ≤ 57 := Iff.rfl
  have la : ('a' ≤ c) ↔ 97 ≤ c.toNat := Iff.rfl
  have lf : (c ≤ 'f') ↔ c.toNat ≤ 102 := Iff.rfl
  have lA : ('A' ≤ c) ↔ 65 ≤ c.toNat := Iff.rfl
  have lF : (c ≤ 'F') ↔ c.toNat ≤ 70 := Iff.rfl
  have e0 : '0'.toNat = 48 := rfl
  have ea : 'a'.toNat = 97 := rfl
  have eA : 'A'.toNat = 65 := rfl
  unfold hexDigit digitValue
  simp only [l0, l9, la, lf, lA, lF, e0, ea, eA]
  by_cases h1 : 48 ≤ c.toNat ∧ c.toNat ≤ 57
  · simp only [h1, and_self, if_true, Option.some.injEq]; omega
  · rw [if_neg h1, if_neg h1]
    by_cases h2 : 97 ≤ c.toNat ∧ c.toNat ≤ 122
    · rw [if_pos h2]
      by_cases h3 : c.toNat ≤ 102
      · rw [if_pos ⟨h2.1, h3⟩]; simp only [Option.some.injEq]; omega
      · rw [if_neg (by omega), if_neg (by omega)]; simp only [Option.some.injEq, reduceCtorEq, false_iff]; omega
    · rw [if_neg h2, if_neg (by omega)]
      by_cases h3 : 65 ≤ c.toNat ∧ c.toNat ≤ 90
      · rw [if_pos h3]
        by_cases h4 : c.toNat ≤ 70
        · rw [if_pos ⟨h3.1, h4⟩]; simp only [Option.some.injEq]; omega
        · rw [if_neg (by omega)]; simp only [Option.some.injEq, reduceCtorEq, false_iff]; omega
      · rw [if_neg h3, if_neg (by omega)]; simp

theorem loop_step (n : Nat) (c : Char) (l : Str) (m : Nat) :
    parseUint9Loop n (c :: l) = some m ↔ ∃ d, hexDigit c = some d ∧ n * 16 + d ≤ 511 ∧ parseUint9Loop (n * 16 + d) l = some m := by
  rw [parseUint9Loop]
  constructor
  · intro h
    cases hd : digitValue c with
    | none => rw [hd] at h; cases h
    | some d =>
      rw [hd] at h
      dsimp only at h
      split at h
      · cases h
      · split at h
        · cases h
        · exact ⟨d, (digit_spec c d).2 ⟨hd, by omega⟩, by omega, h⟩
  · rintro ⟨d, hd, h1, h2⟩
    obtain ⟨hd, h3⟩ := (digit_spec c d).1 hd
    rw [hd]
    dsimp only
    rw [if_neg (by omega), if_neg (by omega), h2]

theorem loop_spec : ∀ (s : Str) (n m : Nat), s ≠ [] → (parseUint9Loop n s = some m ↔ ∃ v, Hex s v ∧ m = n * 16 ^ s.length + v ∧ m ≤ 511)
  | [], _, _, h => absurd rfl h
  | [c], n, m, _ => by
    rw [loop_step]
    constructor
    · rintro ⟨d, hd, h1, h2⟩
      simp only [parseUint9Loop, Option.some.injEq] at h2
      subst h2
      exact ⟨d, .one c d hd, by simp, h1⟩
    · rintro ⟨v, hv, h1, h2⟩
      cases hv with
      | one _ _ hd =>
        subst h1
        simp only [List.length_singleton, pow_one] at h2 ⊢
        exact ⟨v, hd, h2, rfl⟩
      | more _ _ _ _ _ h => cases h
  | c :: d :: l, n, m, _ => by
    rw [loop_step]
    constructor
    · rintro ⟨x, hx, h1, h2⟩
      obtain ⟨v, hv, e, h3⟩ := (loop_spec (d :: l) _ _ (by simp)).1 h2
      refine ⟨_, .more c _ x v hx hv, ?_, h3⟩
      rw [e]
      simp only [List.length_cons]
      ring
    · rintro ⟨v, hv, h1, h2⟩
      cases hv with
      | more _ _ x y hx hy =>
        have e : m = (n * 16 + x) * 16 ^ (d :: l).length + y := by
          rw [h1]
          simp only [List.length_cons]
          ring
        refine ⟨x, hx, ?_, (loop_spec (d :: l) _ _ (by simp)).2 ⟨y, hy, e, h2⟩⟩
        have : 1 ≤ 16 ^ (d :: l).length := Nat.one_le_two_pow.trans (Nat.pow_le_pow_left (by omega) _)
        have := Nat.le_mul_of_pos_right (n * 16 + x) this
        omega

theorem uint_spec (s : Str) (m : Nat) : parseUint9 s = some m ↔ Hex s m ∧ m ≤ 511 := by
  rw [parseUint9]
  by_cases h : s = []
  · subst h
    simp only [if_true]
    constructor
    · intro h; cases h
    · rintro ⟨h, _⟩; cases h
  · rw [if_neg h, loop_spec s 0 m h]
    simp

theorem hex_head {c : Char} {s : Str} {n : Nat} (h : Hex (c :: s) n) : ∃ d, hexDigit c = some d := by
  cases h with
  | one _ d hd => exact ⟨_, hd⟩
  | more _ _ d _ hd _ => exact ⟨_, hd⟩

theorem int_spec (s : Str) (x : Int) : parseInt9 s = some x ↔ SignedHex s x ∧ -256 ≤ x ∧ x ≤ 255 := by
  cases s with
  | nil =>
    constructor
    · intro h; cases h
    · rintro ⟨h, _⟩
      cases h with
      | plain _ _ h => cases h
  | cons c l =>
    rw [parseInt9]
    by_cases hm : c = '-'
    · subst hm
      simp only [true_or, if_true, not_true_eq_false, false_and, if_false, true_and]
      constructor
      · intro h
        cases hu : parseUint9 l with
        | none => rw [hu] at h; cases h
        | some n =>
          rw [hu] at h
          dsimp only at h
          obtain ⟨h1, h2⟩ := (uint_spec _ _).1 hu
          split at h
          · cases h
          · simp only [Option.some.injEq] at h
            subst h
            exact ⟨.minus _ _ h1, by omega, by omega⟩
      · rintro ⟨h, h1, h2⟩
        cases h with
        | plain _ n h => obtain ⟨d, hd⟩ := hex_head h; cases hd
        | minus _ n h =>
          rw [(uint_spec l n).2 ⟨h, by omega⟩]
          dsimp only
          rw [if_neg (by omega)]
    · by_cases hp : c = '+'
      · subst hp
        simp only [or_true, if_true, not_false_eq_true, true_and, false_and, if_false, Char.reduceEq]
        constructor
        · intro h
          cases hu : parseUint9 l with
          | none => rw [hu] at h; cases h
          | some n =>
            rw [hu] at h
            dsimp only at h
            obtain ⟨h1, h2⟩ := (uint_spec _ _).1 hu
            split at h
            · cases h
            · simp only [Option.some.injEq] at h
              subst h
              exact ⟨.plus _ _ h1, by omega, by omega⟩
        · rintro ⟨h, h1, h2⟩
          cases h with
          | plain _ n h => obtain ⟨d, hd⟩ := hex_head h; cases hd
          | plus _ n h =>
            rw [(uint_spec l n).2 ⟨h, by omega⟩]
            dsimp only
            rw [if_neg (by omega)]
      · simp only [hm, hp, or_self, if_false, not_false_eq_true, true_and, false_and]
        constructor
        · intro h
          cases hu : parseUint9 (c :: l) with
          | none => rw [hu] at h; cases h
          | some n =>
            rw [hu] at h
            dsimp only at h
            obtain ⟨h1, h2⟩ := (uint_spec _ _).1 hu
            split at h
            · cases h
            · simp only [Option.some.injEq] at h
              subst h
              exact ⟨.plain _ _ h1, by omega, by omega⟩
        · rintro ⟨h, h1, h2⟩
          cases h with
          | plain _ n h =>
            rw [(uint_spec (c :: l) n).2 ⟨h, by omega⟩]
            dsimp only
            rw [if_neg (by omega)]
          | plus => exact absurd rfl hp
          | minus => exact absurd rfl hm

theorem byte_of_int (x : Int) : ((UInt8.ofNat (x % 256).toNat).toNat : Int) = x % 256 := by
  have h1 := Int.emod_nonneg x (by omega : (256 : Int) ≠ 0)
  have h2 := Int.emod_lt_of_pos x (by omega : (0 : Int) < 256)
  rw [UInt8.toNat_ofNat']
  rw [Nat.mod_eq_of_lt (by omega)]
  omega

theorem field_byte (f : Str) (x : Int) (h : parseInt9 f = some x) (b : UInt8) : FieldByte f b ↔ b = UInt8.ofNat (x % 256).toNat := by
  constructor
  · rintro ⟨y, h1, h2, h3, h4⟩
    have := (int_spec f y).2 ⟨h1, h2, h3⟩
    rw [h] at this
    cases this
    rw [← byte_of_int] at h4
    exact UInt8.toNat_inj.1 (by omega)
  · rintro rfl
    obtain ⟨h1, h2, h3⟩ := (int_spec f x).1 h
    exact ⟨x, h1, h2, h3, byte_of_int x⟩

theorem field_none (f : Str) (h : parseInt9 f = none) (b : UInt8) : ¬ FieldByte f b := by
  rintro ⟨y, h1, h2, h3, _⟩
  rw [(int_spec f y).2 ⟨h1, h2, h3⟩] at h
  cases h

theorem fields_spec : ∀ (l : List Str) (bs : List UInt8), parseFields l = some bs ↔ List.Forall₂ FieldByte (l.filter (· ≠ [])) bs
  | [], bs => by
    rw [parseFields]
    simp only [List.filter_nil, Option.some.injEq]
    constructor
    · rintro rfl; exact .nil
    · intro h; cases h; rfl
  | f :: l, bs => by
    rw [parseFields]
    by_cases hf : f = []
    · rw [if_pos hf, fields_spec l bs, List.filter_cons_of_neg (by simp [hf])]
    · rw [if_neg hf, List.filter_cons_of_pos (by simp [hf])]
      cases hi : parseInt9 f with
      | none =>
        dsimp only
        constructor
        · intro h; cases h
        · intro h; cases h with | cons h1 _ => exact (field_none f hi _ h1).elim
      | some x =>
        dsimp only
        constructor
        · intro h
          cases hr : parseFields l with
          | none => rw [hr] at h; cases h
          | some bs' =>
            rw [hr] at h
            cases h
            exact .cons ((field_byte f x hi _).2 rfl) ((fields_spec l bs').1 hr)
        · intro h
          cases h with
          | cons h1 h2 =>
            rw [(fields_spec l _).2 h2, (field_byte f x hi _).1 h1]

theorem forall2_append {α β : Type} {R : α → β → Prop} : ∀ {l1 l2 : List α} {l : List β}, List.Forall₂ R (l1 ++ l2) l →
    ∃ a b, l = a ++ b ∧ List.Forall₂ R l1 a ∧ List.Forall₂ R l2 b
  | [], _, l, h => ⟨[], l, rfl, .nil, h⟩
  | x :: l1, l2, y :: l, .cons h1 h2 => by
    obtain ⟨a, b, rfl, h3, h4⟩ := forall2_append h2
    exact ⟨y :: a, b, rfl, .cons h1 h3, h4⟩

theorem lines_spec : ∀ (ls : List (List Str)) (bs : List UInt8), (∀ l ∈ ls, LineFields l) →
    (parseLines (ls.map (joined ' ')) = some bs ↔ List.Forall₂ FieldByte (byteFields ls) bs)
  | [], bs, _ => by
    rw [List.map_nil, parseLines]
    simp only [byteFields, List.flatMap_nil, Option.some.injEq]
    constructor
    · rintro rfl; exact .nil
    · intro h; cases h; rfl
  | l :: ls, bs, h => by
    have hl := h l (by simp)
    have ih := fun bs => lines_spec ls bs (fun l hl => h l (List.mem_cons_of_mem _ hl))
    rw [List.map_cons, parseLines, split_joined ' ' l hl.1 (fun f hf => (hl.2 f hf).1)]
    have e : byteFields (l :: ls) = l.tail.filter (· ≠ []) ++ byteFields ls := rfl
    rw [e]
    cases h1 : parseFields l.tail with
    | none =>
      dsimp only
      constructor
      · intro h; cases h
      · intro h
        obtain ⟨a, b, _, h2, _⟩ := forall2_append h
        rw [(fields_spec _ _).2 h2] at h1
        cases h1
    | some a =>
      have ha := (fields_spec _ _).1 h1
      dsimp only
      constructor
      · intro h
        cases h2 : parseLines (ls.map (joined ' ')) with
        | none => rw [h2] at h; cases h
        | some b =>
          rw [h2] at h
          cases h
          exact List.rel_append ha ((ih b).1 h2)
      · intro h
        obtain ⟨a, b, rfl, t1, t2⟩ := forall2_append h
        rw [(ih _).2 t2]
        have := (fields_spec _ _).2 t1
        rw [h1] at this
        cases this
        rfl

theorem text_fields (text : Str) : TextFields text ((splitAt1 '\n' text).map (splitAt1 ' ')) := by
  refine ⟨by simpa using splitAt1_ne _ _, ?_, ?_⟩
  · intro l hl
    obtain ⟨s, hs, rfl⟩ := List.mem_map.1 hl
    refine ⟨splitAt1_ne _ _, fun f hf => ?_⟩
    obtain ⟨h1, h2⟩ := split_no_sep ' ' s f hf
    exact ⟨h1, fun hm => (split_no_sep '\n' text s hs).1 (h2 _ hm)⟩
  · rw [List.map_map]
    have : ((joined ' ') ∘ (splitAt1 ' ')) = id := by funext s; exact joined_split ' ' s
    rw [this, List.map_id, joined_split]

theorem text_split {text : Str} {lines : List (List Str)} (h : TextFields text lines) : splitAt1 '\n' text = lines.map (joined ' ') := by
  rw [h.text_eq, split_joined '\n' _ (by simpa using h.lines_ne)]
  intro f hf
  obtain ⟨l, hl, rfl⟩ := List.mem_map.1 hf
  exact not_mem_joined (by decide) (fun f hf => ((h.fields l hl).2 f hf).2)

theorem hex_spec {text : Str} {lines : List (List Str)} (h : TextFields text lines) (bs : List UInt8) :
    parseWiresharkHex text = some bs ↔ List.Forall₂ FieldByte (byteFields lines) bs := by
  rw [parseWiresharkHex, text_split h, lines_spec _ _ h.fields]

end Asn1go
