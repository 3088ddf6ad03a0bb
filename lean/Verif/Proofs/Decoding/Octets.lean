import Verif.Spec.Decodable
import Verif.Proofs.Encoding.Octets2

/-! encoding/asn1 reads the octets of X.690: numbers, tags, lengths, bits, strings and times. -/

namespace Asn1go.Deco

open Asn1go Spec Enco

/-! ### Numbers -/

theorem septetsValue_cons (o : UInt8) (l : Bytes) : septetsValue (o :: l) = (o.toNat % 128) * 128 ^ l.length + septetsValue l := by
  induction l using List.reverseRecOn with
  | nil => simp [septetsValue]
  | append_singleton l d ih =>
    rw [← List.cons_append, septets_snoc, septets_snoc, ih, List.length_append, List.length_singleton, Nat.pow_succ, Nat.add_mul, Nat.mul_assoc,
      Nat.add_assoc]

theorem parse_septets (o : UInt8) (ho : o < 128) (rest : Bytes) : ∀ (i : Bytes) (j m : Nat), (∀ x ∈ i, 128 ≤ x) → j + i.length ≤ 4 →
    (j = 0 → (i ++ [o]).head? ≠ some 128) → m * 128 ^ (i.length + 1) + septetsValue (i ++ [o]) ≤ 2147483647 →
    parseBase128 j m (i ++ [o] ++ rest) = some (m * 128 ^ (i.length + 1) + septetsValue (i ++ [o]), rest)
  | [], j, m, _, hj, hh, hm => by
    simp only [List.nil_append, List.cons_append, septetsValue, List.foldl_cons, List.foldl_nil, List.length_nil, Nat.zero_add, pow_one, Nat.zero_mul] at hm hj ⊢
    rw [parseBase128, if_neg (by omega), if_neg (fun h => hh h.1 (by simp [h.2])), if_pos ho, if_neg (by omega)]
  | x :: i, j, m, hi, hj, hh, hm => by
    have hx : ¬ x < 128 := by have := hi x (by simp); rw [UInt8.le_iff_toNat_le] at this; rw [UInt8.lt_iff_toNat_lt]; omega
    simp only [List.length_cons] at hj
    have e : (m * 128 + x.toNat % 128) * 128 ^ (i.length + 1) + septetsValue (i ++ [o]) =
        m * 128 ^ ((x :: i).length + 1) + septetsValue (x :: i ++ [o]) := by
      rw [List.cons_append, septetsValue_cons, List.length_append, List.length_singleton, List.length_cons, pow_succ 128 (i.length + 1)]
      ring
    rw [← e] at hm ⊢
    rw [List.cons_append, List.cons_append, parseBase128, if_neg (by omega), if_neg (fun h => hh h.1 (by simp [h.2])), if_neg hx]
    exact parse_septets o ho rest i (j + 1) _ (fun y hy => hi y (by simp [hy])) (by omega) (by omega) hm

theorem parse_base128 {n : Nat} {q : Bytes} (h : Septets n q) (hn : n ≤ 2147483647) (rest : Bytes) : parseBase128 0 0 (q ++ rest) = some (n, rest) := by
  obtain ⟨hv, ⟨i, o, rfl, ho, hi⟩, hs⟩ := h
  have hlen : i.length ≤ 4 := by
    cases i with
    | nil => simp
    | cons x i =>
      have h1 : 128 ≤ x.toNat := by have := hi x (by simp); rw [UInt8.le_iff_toNat_le] at this; exact this
      have h2 : x.toNat ≠ 128 := fun h => by
        have : x = 128 := UInt8.toNat_inj.1 (h.trans rfl)
        subst this; exact hs rfl
      have h3 := x.toNat_lt
      rw [List.cons_append, septetsValue_cons, List.length_append, List.length_singleton] at hv
      by_contra hc
      simp only [List.length_cons] at hc
      have h4 : 128 ^ 5 ≤ 128 ^ (i.length + 1) := Nat.pow_le_pow_right (by omega) (by omega)
      have h5 : 1 ≤ x.toNat % 128 := by omega
      have h6 : 1 * 128 ^ (i.length + 1) ≤ (x.toNat % 128) * 128 ^ (i.length + 1) := Nat.mul_le_mul_right _ h5
      have h7 : (128 : Nat) ^ 5 = 34359738368 := by norm_num
      omega
  have := parse_septets o ho rest i 0 0 hi (by omega) (fun _ => hs) (by omega)
  rw [this, hv]
  simp

theorem parse_octets (rest : Bytes) : ∀ (q : Bytes) (m : Nat), m * 256 ^ q.length + octetsValue q < 2147483648 → (m = 0 → q.head? ≠ some 0) →
    parseLength q.length m (q ++ rest) = some (m * 256 ^ q.length + octetsValue q, rest)
  | [], m, _, _ => by simp [parseLength, octetsValue]
  | x :: q, m, hm, hh => by
    have e : (m * 256 + x.toNat) * 256 ^ q.length + octetsValue q = m * 256 ^ (x :: q).length + octetsValue (x :: q) := by
      rw [octetsValue_cons, List.length_cons, pow_succ]; ring
    rw [← e] at hm ⊢
    have h1 : 1 ≤ 256 ^ q.length := Nat.one_le_pow _ _ (by omega)
    have h2 : (m * 256 + x.toNat) * 1 ≤ (m * 256 + x.toNat) * 256 ^ q.length := Nat.mul_le_mul_left _ h1
    have hx : m = 0 → x.toNat ≠ 0 := fun h0 hx => by
      have : x = 0 := UInt8.toNat_inj.1 (hx.trans rfl)
      subst this; exact hh h0 rfl
    rw [List.cons_append, List.length_cons, parseLength, if_neg (by omega), if_neg (by omega)]
    exact parse_octets rest q _ hm (fun h => by omega)

theorem u8_toNat {n : Nat} (h : n < 256) : (UInt8.ofNat n).toNat = n := by simp [UInt8.toNat_ofNat', Nat.mod_eq_of_lt h]

/-- The header of an encoding. -/
theorem parse_header {g : AsnTag} {k : Bool} {c en : Bytes} (h : Encoding g k c en) (hc : g.cls < 4) (hn : g.number ≤ 2147483647)
    (hl : c.length < 2147483648) (rest : Bytes) : parseHeader (en ++ rest) = some (⟨g.cls, g.number, k, c.length⟩, c ++ rest) := by
  obtain ⟨cls, n⟩ := g
  obtain ⟨i, ln, h1, h2, rfl⟩ := h
  simp only at hc hn
  have hb : ∀ m < 32, (UInt8.ofNat (64 * cls + (if k then 32 else 0) + m)).toNat = 64 * cls + (if k then 32 else 0) + m :=
    fun m hm => u8_toNat (by split <;> omega)
  -- the tag
  obtain ⟨b, i', rfl, htag, hcls, hk⟩ : ∃ b i', i = b :: i' ∧ (∀ l, parseTag b (i' ++ l) = some (n, l)) ∧ b.toNat / 64 = cls ∧ (b.toNat / 32 % 2 == 1) = k := by
    rw [Identifier] at h1
    simp only at h1
    split at h1
    · next hle =>
      have hb := hb n (by omega)
      refine ⟨_, [], h1, fun l => ?_, ?_, ?_⟩
      · rw [parseTag, hb, if_neg (by split <;> omega), List.nil_append]
        have : (64 * cls + (if k then 32 else 0) + n) % 32 = n := by split <;> omega
        rw [this]
      · rw [hb]; split <;> omega
      · rw [hb]; cases k <;> simp <;> omega
    · next hle =>
      obtain ⟨q, rfl, hq⟩ := h1
      have hb := hb 31 (by omega)
      refine ⟨_, q, rfl, fun l => ?_, ?_, ?_⟩
      · rw [parseTag, hb, if_pos (by split <;> omega), parse_base128 hq hn]
        simp only
        rw [if_neg (by omega)]
      · rw [hb]; split <;> omega
      · rw [hb]; cases k <;> simp <;> omega
  simp only [List.cons_append, List.append_assoc]
  rw [parseHeader, htag (ln ++ (c ++ rest))]
  rw [LengthOctets] at h2
  split at h2
  · next hle =>
    subst h2
    have hb := u8_toNat (show c.length < 256 by omega)
    simp only [List.cons_append, List.nil_append]
    rw [if_pos (by rw [UInt8.lt_iff_toNat_lt, hb]; simp; omega), hb, hcls, hk]
  · next hle =>
    obtain ⟨q, rfl, hq1, hq2, hq3⟩ := h2
    have hb := u8_toNat (show 128 + q.length < 256 by omega)
    have hq0 : q ≠ [] := by rintro rfl; simp [octetsValue] at hq2; omega
    have hlen : 0 < q.length := List.length_pos_iff.2 hq0
    simp only [List.cons_append]
    rw [if_neg (by rw [UInt8.lt_iff_toNat_lt, hb]; simp), if_neg (by rw [← UInt8.toNat_inj, hb]; simp; omega), hb]
    have := parse_octets (c ++ rest) q 0 (by rw [hq2]; omega) (fun _ => hq3)
    rw [show 128 + q.length - 128 = q.length by omega, this]
    simp only [Nat.zero_mul, Nat.zero_add, hq2]
    rw [if_neg (by omega), hcls, hk]

theorem encoding_ne {g : AsnTag} {k : Bool} {c en : Bytes} (h : Encoding g k c en) : en ≠ [] := by
  obtain ⟨i, ln, h1, -, rfl⟩ := h
  rw [Identifier] at h1
  split at h1
  · subst h1; simp
  · obtain ⟨q, rfl, -⟩ := h1; simp

theorem encoding_length {g : AsnTag} {k : Bool} {c en : Bytes} (h : Encoding g k c en) : c.length ≤ en.length := by
  obtain ⟨i, ln, -, -, rfl⟩ := h
  simp only [List.length_append]
  omega

/-! ### Integers -/

theorem bigEndian_eq (c : Bytes) : bigEndian c = octetsValue c := rfl

theorem check_integer {n : Int} {c : Bytes} (h : IntegerOctets n c) : checkInteger c = true := by
  match c, h with
  | [], h => exact absurd rfl h.nonempty
  | [_], _ => rfl
  | a :: b :: q, h =>
    rw [checkInteger]
    by_cases h1 : a = 0
    · subst h1
      have := h.zeros b q rfl
      rw [UInt8.le_iff_toNat_le] at this
      have : ¬ b < 128 := by rw [UInt8.lt_iff_toNat_lt]; omega
      simp [this]
    · by_cases h2 : a = 255
      · subst h2
        have := h.ones b q rfl
        rw [UInt8.lt_iff_toNat_lt] at this
        have : ¬ b ≥ 128 := by rw [ge_iff_le, UInt8.le_iff_toNat_le]; omega
        simp [this]
      · simp [h1, h2]

theorem signed_top (o : UInt8) (q : Bytes) : (2 * octetsValue (o :: q) ≥ 256 ^ (q.length + 1)) ↔ o ≥ 128 := by
  rw [octetsValue_cons, ge_iff_le (x := o), UInt8.le_iff_toNat_le, pow_succ]
  have h1 := octetsValue_lt q
  have h2 : (128 : UInt8).toNat = 128 := rfl
  rw [h2]
  generalize 256 ^ q.length = w at *
  have h3 : o.toNat * w ≤ 127 * w ∨ 128 * w ≤ o.toNat * w := by
    rcases Nat.lt_or_ge o.toNat 128 with h | h
    · exact .inl (Nat.mul_le_mul_right _ (by omega))
    · exact .inr (Nat.mul_le_mul_right _ h)
  constructor
  · intro h
    by_contra hc
    have : o.toNat * w ≤ 127 * w := Nat.mul_le_mul_right _ (by omega)
    omega
  · intro h
    have : 128 * w ≤ o.toNat * w := Nat.mul_le_mul_right _ h
    omega

theorem signed_eq {c : Bytes} (hc : c ≠ []) :
    (if 2 * bigEndian c ≥ 256 ^ c.length then (bigEndian c : Int) - 256 ^ c.length else bigEndian c) = signedValue c := by
  cases c with
  | nil => exact absurd rfl hc
  | cons o q =>
    rw [signedValue, bigEndian_eq, List.length_cons]
    by_cases h : o ≥ 128
    · rw [if_pos ((signed_top o q).2 h), if_pos h]
    · rw [if_neg (fun h' => h ((signed_top o q).1 h')), if_neg h]; simp

/-- Minimal octets of a number of `k` octets. -/
theorem integer_length {n : Int} {c : Bytes} (h : IntegerOctets n c) {k : Nat} (h1 : -(128 * 256 ^ k) ≤ n) (h2 : n < 128 * 256 ^ k) : c.length ≤ k + 1 := by
  match c, h with
  | [], h => exact absurd rfl h.nonempty
  | [_], _ => simp
  | a :: b :: q, h =>
    by_contra hc
    simp only [List.length_cons] at hc
    have hq : k ≤ q.length := by omega
    have hp : (256 : Int) ^ k ≤ 256 ^ q.length := by exact_mod_cast Nat.pow_le_pow_right (by omega) hq
    have hv := h.value
    have hlt := octetsValue_lt q
    have hlt' : (octetsValue q : Int) < 256 ^ q.length := by exact_mod_cast hlt
    have ha := a.toNat_lt
    have hb := b.toNat_lt
    have h128 : (128 : UInt8).toNat = 128 := rfl
    rw [signedValue, octetsValue_cons, octetsValue_cons] at hv
    simp only [List.length_cons] at hv
    have e1 : (256 : Int) ^ (q.length + 1 + 1) = 65536 * 256 ^ q.length := by rw [pow_succ, pow_succ]; ring
    have e2 : (256 : Int) ^ (q.length + 1) = 256 * 256 ^ q.length := by rw [pow_succ]; ring
    push_cast at hv
    rw [e1, e2] at hv
    generalize (256 : Int) ^ q.length = w at *
    generalize (256 : Int) ^ k = z at *
    have hw : 0 < w := by
      have : (0 : Int) ≤ octetsValue q := Int.natCast_nonneg _
      omega
    have h0 : (0 : Int) ≤ octetsValue q := Int.natCast_nonneg _
    have ez : a.toNat = 0 → 128 ≤ b.toNat := fun h0 => by
      have : a = 0 := UInt8.toNat_inj.1 h0
      subst this
      have := h.zeros b q rfl
      rwa [UInt8.le_iff_toNat_le] at this
    have eo : a.toNat = 255 → b.toNat < 128 := fun h0 => by
      have : a = 255 := UInt8.toNat_inj.1 h0
      subst this
      have := h.ones b q rfl
      rwa [UInt8.lt_iff_toNat_lt] at this
    split at hv
    · next hs =>
      rw [ge_iff_le, UInt8.le_iff_toNat_le, h128] at hs
      -- n < -128 w
      have : ((a.toNat : Int) * 256 + b.toNat) * w ≤ 65407 * w := by
        refine mul_le_mul_of_nonneg_right ?_ hw.le
        by_cases h255 : a.toNat = 255
        · have := eo h255; omega
        · omega
      have e3 : (a.toNat : Int) * (256 * w) + (b.toNat * w + octetsValue q) = ((a.toNat : Int) * 256 + b.toNat) * w + octetsValue q := by ring
      rw [e3] at hv
      omega
    · next hs =>
      rw [ge_iff_le, UInt8.le_iff_toNat_le, h128] at hs
      have : 128 * w ≤ ((a.toNat : Int) * 256 + b.toNat) * w := by
        refine mul_le_mul_of_nonneg_right ?_ hw.le
        by_cases h00 : a.toNat = 0
        · have := ez h00; omega
        · omega
      have e3 : (a.toNat : Int) * (256 * w) + (b.toNat * w + octetsValue q) = ((a.toNat : Int) * 256 + b.toNat) * w + octetsValue q := by ring
      rw [e3] at hv
      omega

theorem read_int64 {n : Int} {c : Bytes} (h : IntegerOctets n c) (hn : GoInt n) : readInt64 c = some n := by
  obtain ⟨h1, h2⟩ := hn
  have hl := integer_length (k := 7) h (by norm_num; omega) (by norm_num; omega)
  rw [readInt64, if_pos ⟨check_integer h, by omega⟩]
  rw [← h.value, ← signed_eq h.nonempty]

theorem read_int32 {n : Int} {c : Bytes} (h : IntegerOctets n c) (h1 : -2147483648 ≤ n) (h2 : n ≤ 2147483647) : readInt32 c = some n := by
  rw [readInt32, read_int64 h ⟨by omega, by omega⟩]
  simp only
  rw [if_pos ⟨h1, h2⟩]

theorem read_big {n : Int} {c : Bytes} (h : IntegerOctets n c) : readBig c = some n := by
  cases c with
  | nil => exact absurd rfl h.nonempty
  | cons o q =>
    unfold readBig
    rw [if_pos (check_integer h)]
    simp only
    have hv := h.value
    rw [signedValue] at hv
    have hx := octetsValue_xor (o :: q)
    split
    · next hs =>
      rw [if_pos hs] at hv
      rw [bigEndian_eq, ← hv]
      have : ((256 ^ (o :: q).length : Nat) : Int) = 256 ^ (q.length + 1) := by push_cast; simp
      rw [← this, ← hx]
      push_cast
      congr 1
      omega
    · next hs =>
      rw [if_neg hs] at hv
      rw [bigEndian_eq, ← hv]
      simp

end Asn1go.Deco
