import Verif.Spec.Encodable
import Mathlib.Data.List.Induction
import Mathlib.Tactic.Ring
import Mathlib.Tactic.NormNum

/-! The octets encoding/asn1 writes for numbers, tags, lengths, bits, strings and times are those of X.690. -/

namespace Asn1go.Enco

open Asn1go Spec

/-! ### Numbers to a base -/

/-- The number written by digits. -/
def digitsValue (k : Nat) (l : List Nat) : Nat := l.foldl (fun a d => a * k + d) 0

theorem digitsValue_snoc (k : Nat) (l : List Nat) (d : Nat) : digitsValue k (l ++ [d]) = digitsValue k l * k + d := by
  simp [digitsValue]

theorem digitsOf_ne {k : Nat} : ∀ {fuel n : Nat}, n < fuel → digitsOf k fuel n ≠ []
  | 0, n, h => absurd h (Nat.not_lt_zero _)
  | fuel + 1, n, h => by
    rw [digitsOf]
    split
    · simp
    · simp

theorem digitsOf_value {k : Nat} (hk : 2 ≤ k) : ∀ {fuel n : Nat}, n < fuel → digitsValue k (digitsOf k fuel n) = n
  | 0, n, h => absurd h (Nat.not_lt_zero _)
  | fuel + 1, n, h => by
    rw [digitsOf]
    split
    · simp [digitsValue]
    · next hn =>
      have : n / k < fuel := Nat.lt_of_lt_of_le (Nat.div_lt_self (by omega) hk) (by omega)
      rw [digitsValue_snoc, digitsOf_value hk this]
      exact Nat.div_add_mod' n k

theorem digitsOf_lt {k : Nat} (hk : 2 ≤ k) : ∀ {fuel n : Nat}, ∀ d ∈ digitsOf k fuel n, d < k
  | 0, n, d, h => by simp [digitsOf] at h
  | fuel + 1, n, d, h => by
    rw [digitsOf] at h
    split at h
    · simp only [List.mem_singleton] at h
      omega
    · rcases List.mem_append.1 h with h | h
      · exact digitsOf_lt hk d h
      · simp only [List.mem_singleton] at h
        subst h
        exact Nat.mod_lt _ (by omega)

theorem digitsOf_head {k : Nat} (hk : 2 ≤ k) : ∀ {fuel n : Nat}, n < fuel → n ≠ 0 → (digitsOf k fuel n).head? ≠ some 0
  | 0, n, h, _ => absurd h (Nat.not_lt_zero _)
  | fuel + 1, n, h, h0 => by
    rw [digitsOf]
    split
    · simpa using h0
    · next hn =>
      have hq : n / k < fuel := Nat.lt_of_lt_of_le (Nat.div_lt_self (by omega) hk) (by omega)
      have hq0 : n / k ≠ 0 := by
        have := Nat.div_pos (by omega : k ≤ n) (by omega)
        omega
      rw [List.head?_append_of_ne_nil _ (digitsOf_ne hq)]
      exact digitsOf_head hk hq hq0

theorem digitsOf_length {k : Nat} (hk : 2 ≤ k) : ∀ {fuel n : Nat} (b : Nat), n < k ^ (b + 1) → (digitsOf k fuel n).length ≤ b + 1
  | 0, n, b, _ => by simp [digitsOf]
  | fuel + 1, n, b, h => by
    rw [digitsOf]
    split
    · simp
    · next hn =>
      cases b with
      | zero => simp at h; omega
      | succ b =>
        have : n / k < k ^ (b + 1) := by
          rw [Nat.div_lt_iff_lt_mul (by omega)]
          rwa [Nat.pow_succ] at h
        have := digitsOf_length hk (fuel := fuel) b this
        simp only [List.length_append, List.length_singleton]
        omega

/-! ### Septets -/

theorem septets_snoc (l : Bytes) (o : UInt8) : septetsValue (l ++ [o]) = septetsValue l * 128 + o.toNat % 128 := by simp [septetsValue]

theorem octets_snoc (l : Bytes) (o : UInt8) : octetsValue (l ++ [o]) = octetsValue l * 256 + o.toNat := by simp [octetsValue]

theorem ofNat_toNat {n : Nat} (h : n < 256) : (UInt8.ofNat n).toNat = n := by simp [UInt8.toNat_ofNat', Nat.mod_eq_of_lt h]

theorem continued_snoc : ∀ (l : List Nat) (d : Nat), continued (l ++ [d]) = l.map (fun x => UInt8.ofNat (128 + x)) ++ [UInt8.ofNat d]
  | [], d => rfl
  | [x], d => rfl
  | x :: y :: l, d => by
    have := continued_snoc (y :: l) d
    simp only [List.cons_append, continued, List.map_cons] at this ⊢
    rw [this]

theorem septets_map (l : List Nat) (h : ∀ d ∈ l, d < 128) : septetsValue (l.map fun x => UInt8.ofNat (128 + x)) = digitsValue 128 l := by
  induction l using List.reverseRecOn with
  | nil => rfl
  | append_singleton l d ih =>
    rw [List.map_append, List.map_singleton, septets_snoc, digitsValue_snoc, ih fun x hx => h x (by simp [hx])]
    have : d < 128 := h d (by simp)
    rw [ofNat_toNat (by omega)]
    omega

/-- `appendBase128Int` for natural numbers. -/
theorem base128_septets (n : Nat) : Septets n (base128 n) := by
  have hn : ¬ ((n : Int) < 0) := by omega
  rw [base128, if_neg hn, Int.toNat_natCast]
  have hne : digitsOf 128 (n + 1) n ≠ [] := digitsOf_ne (by omega)
  obtain ⟨i, d, hid⟩ : ∃ i d, digitsOf 128 (n + 1) n = i ++ [d] := ⟨_, _, (List.dropLast_append_getLast hne).symm⟩
  have hlt := digitsOf_lt (k := 128) (by omega) (fuel := n + 1) (n := n)
  have hv := digitsOf_value (k := 128) (by omega) (Nat.lt_succ_self n)
  have hh : n ≠ 0 → (i ++ [d]).head? ≠ some 0 := hid ▸ digitsOf_head (k := 128) (by omega) (Nat.lt_succ_self n)
  rw [hid] at hlt hv
  rw [hid, continued_snoc]
  have hd : d < 128 := hlt d (by simp)
  refine ⟨?_, ⟨_, _, rfl, ?_, ?_⟩, ?_⟩
  · rw [septets_snoc, septets_map i fun x hx => hlt x (by simp [hx]), ofNat_toNat (by omega), Nat.mod_eq_of_lt hd, ← digitsValue_snoc]
    exact hv
  · rw [UInt8.lt_iff_toNat_lt, ofNat_toNat (by omega)]
    exact hd
  · intro x hx
    obtain ⟨y, hy, rfl⟩ := List.mem_map.1 hx
    have := hlt y (by simp [hy])
    rw [UInt8.le_iff_toNat_le, ofNat_toNat (by omega)]
    exact Nat.le_add_right _ _
  · cases i with
    | nil =>
      simp only [List.map_nil, List.nil_append, List.head?_cons, ne_eq, Option.some.injEq]
      intro h
      have := congrArg UInt8.toNat h
      rw [ofNat_toNat (by omega)] at this
      simp at this
      omega
    | cons x i =>
      simp only [List.map_cons, List.cons_append, List.head?_cons, ne_eq, Option.some.injEq]
      intro h
      have := congrArg UInt8.toNat h
      have hx := hlt x (by simp)
      rw [ofNat_toNat (by omega)] at this
      have hx0 : x = 0 := by
        simp at this
        omega
      subst hx0
      have hn0 : n ≠ 0 := by
        rintro rfl
        have : digitsOf 128 1 0 = [0] := rfl
        rw [this] at hid
        have := congrArg List.length hid
        simp at this
      exact hh hn0 rfl

/-! ### Tags and lengths -/

theorem octets_map (l : List Nat) (h : ∀ d ∈ l, d < 256) : octetsValue (l.map UInt8.ofNat) = digitsValue 256 l := by
  induction l using List.reverseRecOn with
  | nil => rfl
  | append_singleton l d ih =>
    rw [List.map_append, List.map_singleton, octets_snoc, digitsValue_snoc, ih fun x hx => h x (by simp [hx]), ofNat_toNat (h d (by simp))]

theorem base256_value (n : Nat) : octetsValue (base256 n) = n := by
  rw [base256, octets_map _ (digitsOf_lt (by omega)), digitsOf_value (by omega) (Nat.lt_succ_self n)]

theorem base256_ne (n : Nat) : base256 n ≠ [] := by
  simp only [base256, ne_eq, List.map_eq_nil_iff]
  exact digitsOf_ne (Nat.lt_succ_self n)

theorem base256_head {n : Nat} (h : n ≠ 0) : (base256 n).head? ≠ some 0 := by
  rw [base256, List.head?_map]
  have h1 := digitsOf_head (k := 256) (by omega) (Nat.lt_succ_self n) h
  have h2 := digitsOf_lt (k := 256) (by omega) (fuel := n + 1) (n := n)
  cases hd : digitsOf 256 (n + 1) n with
  | nil => simp
  | cons d l =>
    rw [hd] at h1 h2
    simp only [List.head?_cons, ne_eq, Option.some.injEq, Option.map_some] at h1 ⊢
    intro h
    have := congrArg UInt8.toNat h
    rw [ofNat_toNat (h2 d (by simp))] at this
    exact h1 this

/-- The longest contents: lengths are Go `int`s. -/
def maxLength : Nat := 9223372036854775807

theorem header_small : ∀ cls < 4, ∀ k : Bool, ∀ n < 31, UInt8.ofNat (64 * cls + if k then 32 else 0) ||| UInt8.ofNat n =
    UInt8.ofNat (64 * cls + (if k then 32 else 0) + n) := by decide

/-- `appendTagAndLength` -/
theorem header_spec (cls n : Nat) (k : Bool) (body : Bytes) (hc : cls < 4) (hl : body.length ≤ maxLength) :
    Encoding ⟨cls, n⟩ k body (header cls n k body.length ++ body) := by
  rw [header]
  refine ⟨_, _, ?_, ?_, rfl⟩
  · rw [Identifier]
    by_cases hn : n ≤ 30
    · have h1 : ¬ ((n : Int) ≥ 31) := by omega
      rw [if_pos hn, if_neg h1, ← header_small cls hc k n (by omega)]
      have : ((n : Int) % 256).toNat = n := by omega
      rw [this]
    · have h1 : (n : Int) ≥ 31 := by omega
      rw [if_neg hn, if_pos h1]
      exact ⟨_, rfl, base128_septets n⟩
  · rw [LengthOctets]
    by_cases hb : body.length ≤ 127
    · rw [if_pos hb, if_neg (by omega)]
    · rw [if_neg hb, if_pos (by omega)]
      refine ⟨_, rfl, ?_, base256_value _, base256_head (by omega)⟩
      have : (digitsOf 256 (body.length + 1) body.length).length ≤ 8 :=
        digitsOf_length (by omega) 7 (by have : maxLength < 256 ^ 8 := by decide
                                         omega)
      simp only [base256, List.length_map]
      omega

/-! ### Integers -/

theorem octetsValue_cons (o : UInt8) (l : Bytes) : octetsValue (o :: l) = o.toNat * 256 ^ l.length + octetsValue l := by
  induction l using List.reverseRecOn with
  | nil => simp [octetsValue]
  | append_singleton l d ih =>
    rw [← List.cons_append, octets_snoc, octets_snoc, ih, List.length_append, List.length_singleton, Nat.pow_succ, Nat.add_mul, Nat.mul_assoc,
      Nat.add_assoc]

theorem signedValue_snoc {l : Bytes} (h : l ≠ []) (o : UInt8) : signedValue (l ++ [o]) = 256 * signedValue l + o.toNat := by
  cases l with
  | nil => exact absurd rfl h
  | cons x l =>
    rw [List.cons_append, signedValue, signedValue, ← List.cons_append, octets_snoc, List.length_append, List.length_singleton]
    push_cast
    split
    · rw [pow_succ (256 : Int) (l.length + 1)]
      ring
    · ring

theorem emod256 (n : Int) : (UInt8.ofNat (n % 256).toNat).toNat = n % 256 := by
  have h1 : 0 ≤ n % 256 := Int.emod_nonneg _ (by omega)
  have h2 : n % 256 < 256 := Int.emod_lt_of_pos _ (by omega)
  rw [ofNat_toNat (by omega)]
  omega

theorem int_octets : ∀ (fuel : Nat) (n : Int), -(128 * 256 ^ fuel) ≤ n → n < 128 * 256 ^ fuel → IntegerOctets n (intOctets (intLength fuel n) n)
  | fuel, n, h1, h2 => by
    have small : -128 ≤ n → n ≤ 127 → IntegerOctets n (intOctets 1 n) := by
      intro h3 h4
      simp only [intOctets, List.nil_append]
      have hb := emod256 n
      refine ⟨by simp, ?_, by simp, by simp⟩
      rw [signedValue]
      simp only [octetsValue, List.foldl_cons, List.foldl_nil, Nat.zero_mul, Nat.zero_add, List.length_nil]
      have : (UInt8.ofNat (n % 256).toNat ≥ 128) ↔ 128 ≤ n % 256 := by
        rw [ge_iff_le, UInt8.le_iff_toNat_le]
        have : (128 : UInt8).toNat = 128 := rfl
        omega
      split
      · next h => rw [this] at h; omega
      · next h => rw [this] at h; omega
    cases fuel with
    | zero =>
      rw [pow_zero] at h1 h2
      exact small (by omega) (by omega)
    | succ fuel =>
      rw [intLength]
      split
      · next hn =>
        have hp : (256 : Int) ^ (fuel + 1) = 256 ^ fuel * 256 := pow_succ _ _
        have ih := int_octets fuel (n / 256) (by omega) (by omega)
        rw [intOctets]
        obtain ⟨a, b, c, d⟩ := ih
        have he := emod256 n
        refine ⟨by simp, ?_, ?_, ?_⟩
        · rw [signedValue_snoc a, b, he]
          omega
        · intro o r ho
          cases hl : intOctets (intLength fuel (n / 256)) (n / 256) with
          | nil => exact absurd hl a
          | cons x l =>
            rw [hl] at ho b
            cases l with
            | nil =>
              simp only [List.cons_append, List.nil_append, List.cons.injEq] at ho
              obtain ⟨rfl, rfl, rfl⟩ := ho
              have hq : n / 256 = 0 := by rw [← b]; rfl
              rw [UInt8.le_iff_toNat_le]
              have : (128 : UInt8).toNat = 128 := rfl
              omega
            | cons y l =>
              simp only [List.cons_append, List.cons.injEq] at ho
              obtain ⟨rfl, rfl, rfl⟩ := ho
              exact c _ _ hl
        · intro o r ho
          cases hl : intOctets (intLength fuel (n / 256)) (n / 256) with
          | nil => exact absurd hl a
          | cons x l =>
            rw [hl] at ho b
            cases l with
            | nil =>
              simp only [List.cons_append, List.nil_append, List.cons.injEq] at ho
              obtain ⟨rfl, rfl, rfl⟩ := ho
              have hq : n / 256 = -1 := by rw [← b]; rfl
              rw [UInt8.lt_iff_toNat_lt]
              have : (128 : UInt8).toNat = 128 := rfl
              omega
            | cons y l =>
              simp only [List.cons_append, List.cons.injEq] at ho
              obtain ⟨rfl, rfl, rfl⟩ := ho
              exact d _ _ hl
      · exact small (by omega) (by omega)

/-- `int64Encoder` -/
theorem encodeInt_spec {n : Int} (h : GoInt n) : IntegerOctets n (encodeInt n) := by
  obtain ⟨h1, h2⟩ := h
  exact int_octets 8 n (by norm_num; omega) (by norm_num; omega)

theorem xor_toNat (b : UInt8) : (b ^^^ 255).toNat = 255 - b.toNat := by
  have h : ∀ n < 256, (UInt8.ofNat n ^^^ 255).toNat = 255 - n := by decide +kernel
  have := h b.toNat b.toNat_lt
  rwa [UInt8.ofNat_toNat] at this

theorem octetsValue_lt (l : Bytes) : octetsValue l < 256 ^ l.length := by
  induction l using List.reverseRecOn with
  | nil => simp [octetsValue]
  | append_singleton l d ih =>
    have := d.toNat_lt
    rw [octets_snoc, List.length_append, List.length_singleton, Nat.pow_succ]
    omega

theorem octetsValue_xor (l : Bytes) : octetsValue (l.map fun b => b ^^^ 255) + octetsValue l + 1 = 256 ^ l.length := by
  induction l using List.reverseRecOn with
  | nil => simp [octetsValue]
  | append_singleton l d ih =>
    have := d.toNat_lt
    rw [List.map_append, List.map_singleton, octets_snoc, octets_snoc, xor_toNat, List.length_append, List.length_singleton, Nat.pow_succ, ← ih]
    omega

/-- `makeBigInt` -/
theorem encodeBig_spec (n : Int) : ∃ l, encodeBig (some n) = some l ∧ IntegerOctets n l := by
  rw [encodeBig]
  have h128 : (128 : UInt8).toNat = 128 := rfl
  have h255 : (255 : UInt8).toNat = 255 := rfl
  split
  · next hn =>
    by_cases hm : (-n - 1).toNat = 0
    · rw [bigBytes, if_pos hm]
      refine ⟨_, rfl, by simp, ?_, by simp, by simp⟩
      have : signedValue [255] = -1 := rfl
      omega
    · rw [bigBytes, if_neg hm]
      have hv := base256_value (-n - 1).toNat
      have hh := base256_head hm
      have hx := octetsValue_xor (base256 (-n - 1).toNat)
      cases hb : base256 (-n - 1).toNat with
      | nil => exact absurd hb (base256_ne _)
      | cons x l =>
        rw [hb] at hv hh hx
        simp only [List.map_cons] at hx ⊢
        refine ⟨_, rfl, ?_⟩
        have hx0 : x ≠ 0 := by simpa using hh
        have hx1 : x.toNat ≠ 0 := fun h => hx0 (UInt8.toNat_inj.1 h)
        have hxx := xor_toNat x
        have hlt := x.toNat_lt
        have hlen : (l.map fun b => b ^^^ 255).length = l.length := by simp
        split
        · next hs =>
          rw [UInt8.lt_iff_toNat_lt] at hs
          refine ⟨by simp, ?_, by simp, ?_⟩
          · rw [signedValue, if_pos (by decide), octetsValue_cons]
            have hpow : ((x ^^^ 255) :: l.map fun b => b ^^^ 255).length = l.length + 1 := by simp
            rw [hpow]
            simp only [List.length_cons] at hx
            have : (256 : Int) ^ (l.length + 1 + 1) = 256 ^ (l.length + 1) * 256 := pow_succ _ _
            rw [this]
            have hcast : ((256 ^ (l.length + 1) : Nat) : Int) = 256 ^ (l.length + 1) := by push_cast; rfl
            rw [← hcast]
            generalize 256 ^ (l.length + 1) = w at *
            push_cast
            omega
          · intro o r ho
            simp only [List.cons.injEq] at ho
            rw [← ho.2.1, UInt8.lt_iff_toNat_lt]
            exact hs
        · next hs =>
          rw [UInt8.lt_iff_toNat_lt] at hs
          refine ⟨by simp, ?_, ?_, ?_⟩
          · rw [signedValue, if_pos (by rw [ge_iff_le, UInt8.le_iff_toNat_le]; omega), hlen]
            simp only [List.length_cons] at hx
            have hcast : ((256 ^ (l.length + 1) : Nat) : Int) = 256 ^ (l.length + 1) := by push_cast; rfl
            rw [← hcast]
            omega
          · intro o r ho
            simp only [List.cons.injEq] at ho
            have := congrArg UInt8.toNat ho.1
            simp at this
            simp at hs
            omega
          · intro o r ho
            simp only [List.cons.injEq] at ho
            have := congrArg UInt8.toNat ho.1
            rw [hxx, h255] at this
            omega
  · next hn =>
    split
    · next h0 =>
      subst h0
      exact ⟨_, rfl, by simp, rfl, by simp, by simp⟩
    · next h0 =>
      have hm : n.toNat ≠ 0 := by omega
      rw [bigBytes, if_neg hm]
      have hv := base256_value n.toNat
      have hh := base256_head hm
      cases hb : base256 n.toNat with
      | nil => exact absurd hb (base256_ne _)
      | cons x l =>
        rw [hb] at hv hh
        refine ⟨_, rfl, ?_⟩
        have hx0 : x ≠ 0 := by simpa using hh
        split
        · next hs =>
          refine ⟨by simp, ?_, ?_, by simp⟩
          · rw [signedValue, if_neg (by decide), octetsValue_cons, hv]
            simp
            omega
          · intro o r ho
            simp only [List.cons.injEq] at ho
            rw [← ho.2.1]
            exact hs
        · next hs =>
          refine ⟨by simp, ?_, ?_, ?_⟩
          · rw [signedValue, if_neg hs, hv]
            omega
          · intro o r ho
            simp only [List.cons.injEq] at ho
            exact absurd ho.1 hx0
          · intro o r ho
            simp only [List.cons.injEq] at ho
            exact absurd (ho.1 ▸ (by decide : (255 : UInt8) ≥ 128)) hs

end Asn1go.Enco
