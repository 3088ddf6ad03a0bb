import Verif.Proofs.Decoding.Octets2
import Mathlib.Data.List.Sort

/-! Octets of numbers, identifiers and lengths are unique, and no encoding is the beginning of another. -/

namespace Asn1go.Deco

open Asn1go Spec Enco

/-! ### Numbers -/

theorem octets_inj : ∀ {a b : Bytes}, a.length = b.length → octetsValue a = octetsValue b → a = b
  | [], [], _, _ => rfl
  | [], _ :: _, h, _ => by simp at h
  | _ :: _, [], h, _ => by simp at h
  | x :: a, y :: b, hl, hv => by
    have hl' : a.length = b.length := by simpa using hl
    rw [octetsValue_cons, octetsValue_cons, hl'] at hv
    have h1 := octetsValue_lt a
    have h2 := octetsValue_lt b
    rw [hl'] at h1
    generalize 256 ^ b.length = w at hv h1 h2
    have hxy : x.toNat = y.toNat := by
      rcases Nat.lt_trichotomy x.toNat y.toNat with h | h | h
      · have : (x.toNat + 1) * w ≤ y.toNat * w := Nat.mul_le_mul_right _ h
        rw [Nat.add_mul] at this
        omega
      · exact h
      · have : (y.toNat + 1) * w ≤ x.toNat * w := Nat.mul_le_mul_right _ h
        rw [Nat.add_mul] at this
        omega
    have := UInt8.toNat_inj.1 hxy
    subst this
    rw [octets_inj hl' (by omega)]

/-- Without leading zeros. -/
theorem octets_size {o : UInt8} {a : Bytes} (h : o ≠ 0) : 256 ^ a.length ≤ octetsValue (o :: a) := by
  rw [octetsValue_cons]
  have : 1 ≤ o.toNat := by
    rcases Nat.eq_zero_or_pos o.toNat with h0 | h0
    · exact absurd (UInt8.toNat_inj.1 h0) h
    · exact h0
  have := Nat.mul_le_mul_right (256 ^ a.length) this
  omega

theorem octets_length {a b : Bytes} (ha : a.head? ≠ some 0) (hv : octetsValue a = octetsValue b) : a.length ≤ b.length := by
  cases a with
  | nil => simp
  | cons o a =>
    have h1 := octets_size (a := a) (o := o) (by simpa using ha)
    have h2 := octetsValue_lt b
    by_contra hc
    simp only [List.length_cons, not_le] at hc
    have := Nat.pow_le_pow_right (n := 256) (by omega) (show b.length ≤ a.length by omega)
    omega

theorem octets_unique {a b : Bytes} (ha : a.head? ≠ some 0) (hb : b.head? ≠ some 0) (hv : octetsValue a = octetsValue b) : a = b :=
  octets_inj (Nat.le_antisymm (octets_length ha hv) (octets_length hb hv.symm)) hv

theorem septets_lt : ∀ a : Bytes, septetsValue a < 128 ^ a.length
  | [] => by simp [septetsValue]
  | x :: a => by
    rw [septetsValue_cons, List.length_cons, pow_succ]
    have h1 := septets_lt a
    have h2 : x.toNat % 128 + 1 ≤ 128 := Nat.mod_lt _ (by decide)
    have := Nat.mul_le_mul_right (128 ^ a.length) h2
    rw [Nat.add_mul] at this
    omega

theorem septets_inj : ∀ {i j : Bytes} {o q : UInt8}, i.length = j.length → (∀ x ∈ i, 128 ≤ x) → (∀ x ∈ j, 128 ≤ x) → o < 128 → q < 128 →
    septetsValue (i ++ [o]) = septetsValue (j ++ [q]) → i ++ [o] = j ++ [q]
  | [], [], o, q, _, _, _, ho, hq, hv => by
    rw [UInt8.lt_iff_toNat_lt] at ho hq
    have : o.toNat = q.toNat := by
      simp only [List.nil_append, septetsValue, List.foldl_cons, List.foldl_nil] at hv
      have e : (128 : UInt8).toNat = 128 := rfl
      omega
    rw [UInt8.toNat_inj.1 this]
  | [], _ :: _, _, _, h, _, _, _, _, _ => by simp at h
  | _ :: _, [], _, _, h, _, _, _, _, _ => by simp at h
  | x :: i, y :: j, o, q, hl, hi, hj, ho, hq, hv => by
    have hl' : i.length = j.length := by simpa using hl
    have hll : (i ++ [o]).length = (j ++ [q]).length := by simp [hl']
    rw [List.cons_append, List.cons_append, septetsValue_cons, septetsValue_cons, hll] at hv
    have h1 := septets_lt (i ++ [o])
    have h2 := septets_lt (j ++ [q])
    rw [hll] at h1
    generalize 128 ^ (j ++ [q]).length = w at hv h1 h2
    have hx := hi x (by simp)
    have hy := hj y (by simp)
    rw [UInt8.le_iff_toNat_le] at hx hy
    have e : (128 : UInt8).toNat = 128 := rfl
    have hx' := x.toNat_lt
    have hy' := y.toNat_lt
    have hxy : x.toNat % 128 = y.toNat % 128 := by
      rcases Nat.lt_trichotomy (x.toNat % 128) (y.toNat % 128) with h | h | h
      · have : (x.toNat % 128 + 1) * w ≤ y.toNat % 128 * w := Nat.mul_le_mul_right _ h
        rw [Nat.add_mul] at this
        omega
      · exact h
      · have : (y.toNat % 128 + 1) * w ≤ x.toNat % 128 * w := Nat.mul_le_mul_right _ h
        rw [Nat.add_mul] at this
        omega
    rw [hxy] at hv
    have : x.toNat = y.toNat := by omega
    rw [UInt8.toNat_inj.1 this, List.cons_append, List.cons_append,
      septets_inj hl' (fun z hz => hi z (by simp [hz])) (fun z hz => hj z (by simp [hz])) ho hq (by omega)]

theorem septets_length {n : Nat} {a b : Bytes} (ha : Septets n a) (hb : Septets n b) : a.length ≤ b.length := by
  have hn := septets_ne hb
  cases a with
  | nil => simp
  | cons x a =>
    cases a with
    | nil => cases b with
      | nil => exact absurd rfl hn
      | cons => simp
    | cons y a =>
      have hx : 128 ≤ x := by
        obtain ⟨i, o, h1, -, h3⟩ := ha.ends
        cases i with
        | nil => simp at h1
        | cons z i => rw [List.cons_append, List.cons.injEq] at h1; rw [h1.1]; exact h3 _ (by simp)
      have hx' : x ≠ 128 := by
        intro h; subst h; exact ha.shortest rfl
      have h1 := ha.value
      have h2 := septets_lt b
      rw [hb.value, ← h1, septetsValue_cons] at h2
      rw [UInt8.le_iff_toNat_le] at hx
      have e : (128 : UInt8).toNat = 128 := rfl
      have hne : x.toNat ≠ 128 := fun h => hx' (UInt8.toNat_inj.1 (by rw [h, e]))
      have hlt := x.toNat_lt
      have h3 : 1 ≤ x.toNat % 128 := by omega
      have := Nat.mul_le_mul_right (128 ^ (y :: a).length) h3
      by_contra hc
      simp only [List.length_cons, not_le] at hc
      have h4 := Nat.pow_le_pow_right (n := 128) (by omega) (show b.length ≤ (y :: a).length by simp; omega)
      omega

theorem septets_unique {n : Nat} {a b : Bytes} (ha : Septets n a) (hb : Septets n b) : a = b := by
  have hl := Nat.le_antisymm (septets_length ha hb) (septets_length hb ha)
  have hv := ha.value.trans hb.value.symm
  obtain ⟨i, o, rfl, h2, h3⟩ := ha.ends
  obtain ⟨j, q, rfl, h5, h6⟩ := hb.ends
  exact septets_inj (by simpa using hl) h3 h6 h2 h5 hv

/-- Where septets end. -/
theorem septets_split : ∀ {i j : Bytes} {o q : UInt8} {a b : Bytes}, (∀ x ∈ i, 128 ≤ x) → (∀ x ∈ j, 128 ≤ x) → o < 128 → q < 128 →
    i ++ [o] ++ a = j ++ [q] ++ b → i ++ [o] = j ++ [q] ∧ a = b
  | [], [], _, _, _, _, _, _, _, _, h => by simp at h; simp [h]
  | [], y :: j, _, _, _, _, _, hj, ho, _, h => by
    simp at h
    have := hj y (by simp)
    rw [← h.1] at this
    exact absurd this (by rw [UInt8.not_le]; exact ho)
  | x :: i, [], _, _, _, _, hi, _, _, hq, h => by
    simp at h
    have := hi x (by simp)
    rw [h.1] at this
    exact absurd this (by rw [UInt8.not_le]; exact hq)
  | x :: i, y :: j, o, q, a, b, hi, hj, ho, hq, h => by
    simp only [List.cons_append, List.cons.injEq] at h
    obtain ⟨h1, h2⟩ := septets_split (fun z hz => hi z (by simp [hz])) (fun z hz => hj z (by simp [hz])) ho hq h.2
    exact ⟨by rw [List.cons_append, List.cons_append, h.1, h1], h2⟩

theorem septets_prefix {n m : Nat} {a b x y : Bytes} (ha : Septets n a) (hb : Septets m b) (h : a ++ x = b ++ y) : a = b ∧ x = y := by
  obtain ⟨i, o, rfl, h2, h3⟩ := ha.ends
  obtain ⟨j, q, rfl, h5, h6⟩ := hb.ends
  exact septets_split h3 h6 h2 h5 h

/-! ### Elements -/

theorem identifier_unique {t : AsnTag} {k : Bool} {a b : Bytes} (ha : Identifier t k a) (hb : Identifier t k b) : a = b := by
  unfold Identifier at ha hb
  by_cases h : t.number ≤ 30
  · rw [if_pos h] at ha hb; rw [ha, hb]
  · rw [if_neg h] at ha hb
    obtain ⟨s, rfl, h1⟩ := ha
    obtain ⟨s', rfl, h2⟩ := hb
    rw [septets_unique h1 h2]

theorem lengthOctets_unique {n : Nat} {a b : Bytes} (ha : LengthOctets n a) (hb : LengthOctets n b) : a = b := by
  unfold LengthOctets at ha hb
  by_cases h : n ≤ 127
  · rw [if_pos h] at ha hb; rw [ha, hb]
  · rw [if_neg h] at ha hb
    obtain ⟨s, rfl, h1, h2, h3⟩ := ha
    obtain ⟨s', rfl, h4, h5, h6⟩ := hb
    rw [octets_unique h3 h6 (h2.trans h5.symm)]

theorem encoding_unique {t : AsnTag} {k : Bool} {c a b : Bytes} (ha : Encoding t k c a) (hb : Encoding t k c b) : a = b := by
  obtain ⟨i, n, h1, h2, rfl⟩ := ha
  obtain ⟨j, m, h3, h4, rfl⟩ := hb
  rw [identifier_unique h1 h3, lengthOctets_unique h2 h4]

theorem identifier_prefix {t t' : AsnTag} {k k' : Bool} {a b x y : Bytes} (ha : Identifier t k a) (hb : Identifier t' k' b) (h : a ++ x = b ++ y) :
    a = b ∧ x = y := by
  have first : ∀ c (k : Bool) n, n < 32 → (UInt8.ofNat (64 * c + (if k then 32 else 0) + n)).toNat % 32 = n := by
    intro c k n hn
    rw [UInt8.toNat_ofNat']
    split <;> omega
  unfold Identifier at ha hb
  by_cases h1 : t.number ≤ 30 <;> by_cases h2 : t'.number ≤ 30
  · rw [if_pos h1] at ha
    rw [if_pos h2] at hb
    subst ha hb
    simp only [List.cons_append, List.nil_append, List.cons.injEq] at h
    rw [h.1]
    exact ⟨rfl, h.2⟩
  · rw [if_pos h1] at ha
    rw [if_neg h2] at hb
    obtain ⟨s, rfl, -⟩ := hb
    subst ha
    simp only [List.cons_append, List.nil_append, List.cons.injEq] at h
    have e1 := first t.cls k t.number (by omega)
    rw [h.1, first t'.cls k' 31 (by omega)] at e1
    omega
  · rw [if_neg h1] at ha
    rw [if_pos h2] at hb
    obtain ⟨s, rfl, -⟩ := ha
    subst hb
    simp only [List.cons_append, List.nil_append, List.cons.injEq] at h
    have e1 := first t'.cls k' t'.number (by omega)
    rw [← h.1, first t.cls k 31 (by omega)] at e1
    omega
  · rw [if_neg h1] at ha
    rw [if_neg h2] at hb
    obtain ⟨s, rfl, h3⟩ := ha
    obtain ⟨s', rfl, h4⟩ := hb
    simp only [List.cons_append, List.cons.injEq] at h
    obtain ⟨h5, h6⟩ := septets_prefix h3 h4 h.2
    rw [h.1, h5]
    exact ⟨rfl, h6⟩

theorem lengthOctets_prefix {n m : Nat} {a b x y : Bytes} (ha : LengthOctets n a) (hb : LengthOctets m b) (h : a ++ x = b ++ y) :
    n = m ∧ a = b ∧ x = y := by
  have low : ∀ n, n < 256 → (UInt8.ofNat n).toNat = n := fun n hn => u8_toNat hn
  unfold LengthOctets at ha hb
  by_cases h1 : n ≤ 127 <;> by_cases h2 : m ≤ 127
  · rw [if_pos h1] at ha
    rw [if_pos h2] at hb
    subst ha hb
    simp only [List.cons_append, List.nil_append, List.cons.injEq] at h
    have := congrArg UInt8.toNat h.1
    rw [low n (by omega), low m (by omega)] at this
    subst this
    exact ⟨rfl, rfl, h.2⟩
  · rw [if_pos h1] at ha
    rw [if_neg h2] at hb
    obtain ⟨s, rfl, hs, -⟩ := hb
    subst ha
    simp only [List.cons_append, List.nil_append, List.cons.injEq] at h
    have := congrArg UInt8.toNat h.1
    rw [low n (by omega), low (128 + s.length) (by omega)] at this
    omega
  · rw [if_neg h1] at ha
    rw [if_pos h2] at hb
    obtain ⟨s, rfl, hs, -⟩ := ha
    subst hb
    simp only [List.cons_append, List.nil_append, List.cons.injEq] at h
    have := congrArg UInt8.toNat h.1
    rw [low m (by omega), low (128 + s.length) (by omega)] at this
    omega
  · rw [if_neg h1] at ha
    rw [if_neg h2] at hb
    obtain ⟨s, rfl, hs, h3, -⟩ := ha
    obtain ⟨s', rfl, hs', h4, -⟩ := hb
    simp only [List.cons_append, List.cons.injEq] at h
    have h5 := congrArg UInt8.toNat h.1
    rw [low (128 + s.length) (by omega), low (128 + s'.length) (by omega)] at h5
    obtain ⟨h6, h7⟩ := List.append_inj h.2 (by omega)
    subst h6
    exact ⟨h3.symm.trans h4, rfl, h7⟩

/-- No encoding is the beginning of another. -/
theorem encoding_prefix {t t' : AsnTag} {k k' : Bool} {c c' a b x y : Bytes} (ha : Encoding t k c a) (hb : Encoding t' k' c' b) (h : a ++ x = b ++ y) :
    a = b ∧ x = y := by
  obtain ⟨i, n, h1, h2, rfl⟩ := ha
  obtain ⟨j, m, h3, h4, rfl⟩ := hb
  simp only [List.append_assoc] at h
  obtain ⟨rfl, h5⟩ := identifier_prefix h1 h3 h
  obtain ⟨h6, rfl, h7⟩ := lengthOctets_prefix h2 h4 h5
  obtain ⟨rfl, h8⟩ := List.append_inj h7 h6
  exact ⟨rfl, h8⟩

theorem padded_antisymm {t t' : AsnTag} {k k' : Bool} {c c' a b : Bytes} (ha : Encoding t k c a) (hb : Encoding t' k' c' b) (h1 : PaddedLe a b)
    (h2 : PaddedLe b a) : a = b := by
  have h3 : a ++ List.replicate (b.length - a.length) 0 = b ++ List.replicate (a.length - b.length) 0 :=
    octets_inj (by simp; omega) (Nat.le_antisymm h1 h2)
  exact (encoding_prefix ha hb h3).1

/-! ### Contents -/

theorem signed_range : ∀ {a : Bytes} {k : Nat}, a.length = k + 1 → -(128 * 256 ^ k) ≤ signedValue a ∧ signedValue a < 128 * 256 ^ k
  | [], _, h => by simp at h
  | o :: a, k, h => by
    have hk : a.length = k := by simpa using h
    have h1 : (octetsValue a : Int) < 256 ^ k := by
      have := octetsValue_lt a
      rw [hk] at this
      exact_mod_cast this
    have h0 : (0 : Int) ≤ octetsValue a := Int.natCast_nonneg _
    have ho := o.toNat_lt
    have e : (128 : UInt8).toNat = 128 := rfl
    have ep : (256 : Int) ^ (k + 1) = 256 * 256 ^ k := by rw [pow_succ]; ring
    rw [signedValue, octetsValue_cons, hk]
    push_cast
    rw [ep]
    have hw : (0 : Int) < 256 ^ k := by positivity
    generalize (256 : Int) ^ k = w at h1 hw ⊢
    by_cases hs : o ≥ 128
    · rw [if_pos hs]
      rw [ge_iff_le, UInt8.le_iff_toNat_le, e] at hs
      have h3 : 128 * w ≤ (o.toNat : Int) * w := mul_le_mul_of_nonneg_right (by omega) hw.le
      have h4 : (o.toNat : Int) * w ≤ 255 * w := mul_le_mul_of_nonneg_right (by omega) hw.le
      constructor <;> omega
    · rw [if_neg hs]
      rw [ge_iff_le, UInt8.le_iff_toNat_le, e] at hs
      have h3 : 0 ≤ (o.toNat : Int) * w := mul_nonneg (by omega) hw.le
      have h4 : (o.toNat : Int) * w ≤ 127 * w := mul_le_mul_of_nonneg_right (by omega) hw.le
      constructor <;> omega

theorem signed_inj {a b : Bytes} (hl : a.length = b.length) (h : signedValue a = signedValue b) : a = b := by
  cases a with
  | nil => cases b with
    | nil => rfl
    | cons => simp at hl
  | cons x a => cases b with
    | nil => simp at hl
    | cons y b =>
      refine octets_inj hl ?_
      rw [signedValue, signedValue] at h
      have hl' : a.length = b.length := by simpa using hl
      have h1 := octetsValue_lt (x :: a)
      have h2 := octetsValue_lt (y :: b)
      simp only [List.length_cons] at h1 h2
      have h1' : (octetsValue (x :: a) : Int) < 256 ^ (b.length + 1) := by rw [hl'] at h1; exact_mod_cast h1
      have h2' : (octetsValue (y :: b) : Int) < 256 ^ (b.length + 1) := by exact_mod_cast h2
      rw [hl'] at h
      have h3 : (0 : Int) ≤ octetsValue (x :: a) := Int.natCast_nonneg _
      have h4 : (0 : Int) ≤ octetsValue (y :: b) := Int.natCast_nonneg _
      generalize (256 : Int) ^ (b.length + 1) = w at h h1' h2'
      split at h <;> split at h <;> omega

theorem integer_unique {n : Int} {a b : Bytes} (ha : IntegerOctets n a) (hb : IntegerOctets n b) : a = b := by
  have key : ∀ {a b : Bytes}, IntegerOctets n a → IntegerOctets n b → a.length ≤ b.length := by
    intro a b ha hb
    have hne := hb.nonempty
    obtain ⟨k, hk⟩ : ∃ k, b.length = k + 1 := by
      cases b with
      | nil => exact absurd rfl hne
      | cons => exact ⟨_, rfl⟩
    have hr := signed_range hk
    rw [hb.value] at hr
    have := integer_length ha hr.1 hr.2
    omega
  exact signed_inj (Nat.le_antisymm (key ha hb) (key hb ha)) (ha.value.trans hb.value.symm)

theorem octetBits_inj {a b : UInt8} (h : octetBits a = octetBits b) : a = b := by
  have key : ∀ n < 256, ∀ m < 256, octetBits (UInt8.ofNat n) = octetBits (UInt8.ofNat m) → n = m := by
    intro n hn m hm h
    apply Nat.eq_of_testBit_eq
    intro i
    by_cases hi : i < 8
    · unfold octetBits at h
      rw [u8_toNat hn, u8_toNat hm] at h
      simp only [List.map_cons, List.map_nil, List.cons.injEq, and_true] at h
      obtain ⟨h7, h6, h5, h4, h3, h2, h1, h0⟩ := h
      have : i = 0 ∨ i = 1 ∨ i = 2 ∨ i = 3 ∨ i = 4 ∨ i = 5 ∨ i = 6 ∨ i = 7 := by omega
      rcases this with rfl | rfl | rfl | rfl | rfl | rfl | rfl | rfl <;> assumption
    · have hp : 2 ^ 8 ≤ 2 ^ i := Nat.pow_le_pow_right (by omega) (by omega)
      rw [Nat.testBit_lt_two_pow (by omega), Nat.testBit_lt_two_pow (by omega)]
  refine UInt8.toNat_inj.1 (key _ a.toNat_lt _ b.toNat_lt ?_)
  simpa using h

theorem flatBits_inj : ∀ {a b : Bytes}, a.flatMap octetBits = b.flatMap octetBits → a = b
  | [], [], _ => rfl
  | [], y :: b, h => by have := congrArg List.length h; simp [octetBits] at this
  | x :: a, [], h => by have := congrArg List.length h; simp [octetBits] at this
  | x :: a, y :: b, h => by
    rw [List.flatMap_cons, List.flatMap_cons] at h
    obtain ⟨h1, h2⟩ := List.append_inj h rfl
    rw [octetBits_inj h1, flatBits_inj h2]

theorem bits_unique {bits : List Bool} {a b : Bytes} (ha : BitOctets bits a) (hb : BitOctets bits b) : a = b := by
  obtain ⟨k, s, rfl, h1, h2⟩ := ha
  obtain ⟨m, q, rfl, h3, h4⟩ := hb
  have e1 := congrArg List.length h2
  have e2 := congrArg List.length h4
  rw [octetBits_length] at e1 e2
  simp only [List.length_append, List.length_replicate] at e1 e2
  have : k = m := by omega
  subst this
  rw [flatBits_inj (h2.trans h4.symm)]

theorem subidentifiers_unique {o : List Nat} {a b : Bytes} (ha : Subidentifiers o a) (hb : Subidentifiers o b) : a = b := by
  induction ha generalizing b with
  | nil => cases hb; rfl
  | cons n q r l h1 _ ih =>
    cases hb with
    | cons _ q' _ l' h2 h3 => rw [septets_unique h1 h2, ih h3]

theorem oid_unique {o : List Nat} {a b : Bytes} (ha : OidOctets o a) (hb : OidOctets o b) : a = b := by
  cases ha with
  | mk x y q _ _ _ h1 => cases hb with
    | mk _ _ _ _ _ _ h2 => exact subidentifiers_unique h1 h2

theorem stringKind_unique {k : Int} {t t' : Nat} {ok ok' : Char → Prop} {enc enc' : Char → Bytes} (h : StringKind k t ok enc)
    (h' : StringKind k t' ok' enc') : t = t' ∧ enc = enc' := by
  have d1 : Tok.IA5String ≠ Tok.VisibleString := by decide
  have d2 : Tok.IA5String ≠ Tok.PrintableString := by decide
  have d3 : Tok.IA5String ≠ Tok.NumericString := by decide
  have d4 : Tok.IA5String ≠ Tok.UTF8String := by decide
  have d5 : Tok.VisibleString ≠ Tok.PrintableString := by decide
  have d6 : Tok.VisibleString ≠ Tok.NumericString := by decide
  have d7 : Tok.VisibleString ≠ Tok.UTF8String := by decide
  have d8 : Tok.PrintableString ≠ Tok.NumericString := by decide
  have d9 : Tok.PrintableString ≠ Tok.UTF8String := by decide
  have d0 : Tok.NumericString ≠ Tok.UTF8String := by decide
  generalize hk : k = k' at h'
  cases h <;> cases h' <;> first | exact ⟨rfl, rfl⟩ | (exfalso; first | exact d1 hk | exact d2 hk | exact d3 hk | exact d4 hk | exact d5 hk | exact d6 hk | exact d7 hk | exact d8 hk | exact d9 hk | exact d0 hk | exact d1 hk.symm | exact d2 hk.symm | exact d3 hk.symm | exact d4 hk.symm | exact d5 hk.symm | exact d6 hk.symm | exact d7 hk.symm | exact d8 hk.symm | exact d9 hk.symm | exact d0 hk.symm)

end Asn1go.Deco
