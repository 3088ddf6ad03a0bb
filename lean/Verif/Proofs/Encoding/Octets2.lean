import Verif.Proofs.Encoding.Octets

/-! Contents of bit strings, object identifiers, times and strings; sorting of SET OF. -/

namespace Asn1go.Enco

open Asn1go Spec

/-! ### Bit strings -/

theorem octetBits_length (b : Bytes) : (b.flatMap octetBits).length = 8 * b.length := by
  induction b with
  | nil => rfl
  | cons x b ih =>
    rw [List.flatMap_cons, List.length_append, ih, List.length_cons]
    simp [octetBits]
    omega

theorem encodeBits_spec {b : Option Bytes} {bits : List Bool} {k : Nat} (hk : k < 8)
    (h : (b.getD []).flatMap octetBits = bits ++ List.replicate k false) : BitOctets bits (encodeBits b bits.length) := by
  refine ⟨k, b.getD [], ?_, hk, h⟩
  have hl := congrArg List.length h
  rw [octetBits_length, List.length_append, List.length_replicate] at hl
  rw [encodeBits]
  congr 2
  have h1 : (bits.length : Int).tmod 8 = (bits.length : Int) % 8 := Int.tmod_eq_emod_of_nonneg (by omega)
  rw [h1, Int.tmod_eq_emod_of_nonneg (by omega)]
  omega

/-! ### Object identifiers -/

theorem subidentifiers_rest : ∀ r : List Nat, Subidentifiers r ((r.map Int.ofNat).flatMap base128)
  | [] => .nil
  | n :: r => by
    rw [List.map_cons, List.flatMap_cons]
    exact .cons _ _ _ _ (base128_septets n) (subidentifiers_rest r)

theorem encodeOid_spec {a b : Nat} {r : List Nat} (ha : a ≤ 2) (hb : a < 2 → b < 40) (hi : GoInt (40 * a + b)) :
    ∃ c, encodeOid (some ((a :: b :: r).map Int.ofNat)) = some c ∧ OidOctets (a :: b :: r) c := by
  simp only [List.map_cons, encodeOid]
  rw [if_neg (by simp; omega)]
  refine ⟨_, rfl, .mk _ _ _ _ ha hb ?_⟩
  obtain ⟨h1, h2⟩ := hi
  have : Int.bmod (Int.ofNat a * 40 + Int.ofNat b) (2 ^ 64) = ((40 * a + b : Nat) : Int) := by
    rw [Int.bmod_eq_of_le] <;> simp only [Int.ofNat_eq_natCast] <;> push_cast <;> omega
  rw [this]
  exact .cons _ _ _ _ (base128_septets _) (subidentifiers_rest r)

/-! ### Times -/

theorem twoDigits_spec (n : Nat) : twoDigits n = asciiDigits 2 n := by simp [twoDigits, asciiDigits]

theorem fourDigits_spec (n : Nat) : twoDigits (n / 100) ++ twoDigits (n % 100) = asciiDigits 4 n := by
  simp only [twoDigits, asciiDigits, List.nil_append, List.cons_append, List.cons.injEq, and_true]
  refine ⟨?_, ?_, ?_, ?_⟩ <;> congr 1 <;> omega

theorem encodeTime_spec {t : AsnTime} (h : t.Ok) :
    encodeGeneralizedTime ⟨t.year, t.month, t.day, t.hour, t.minute, t.second, 0⟩ = some (timeOctets t) := by
  have := h.year
  rw [encodeGeneralizedTime, if_neg (by simp; omega)]
  rw [Int.toNat_natCast, fourDigits_spec, timeOctets, timeCommon]
  simp [twoDigits_spec]

/-! ### Strings -/

theorem printable_chars : ∀ c ∈ PrintableChars, printableChar c = true ∧ c.toNat < 128 := by decide +kernel

theorem numeric_chars : ∀ c ∈ NumericChars, (('0' ≤ c && c ≤ '9') || c == ' ') = true ∧ c.toNat < 128 := by decide +kernel

theorem ascii_bytes {c : Char} (h : c.toNat < 128) : utf8Bytes c = [UInt8.ofNat c.toNat] := by rw [utf8Bytes, if_pos h]

theorem stringBytes_ascii {s : Str} (h : ∀ c ∈ s, c.toNat < 128) : stringBytes s = s.flatMap fun c => [UInt8.ofNat c.toNat] := by
  rw [stringBytes]
  exact List.flatMap_congr fun c hc => ascii_bytes (h c hc)

/-! ### Sorting -/

theorem bytesLe_total : ∀ a b : Bytes, bytesLe a b = true ∨ bytesLe b a = true
  | [], _ => .inl (by simp [bytesLe])
  | _ :: _, [] => .inr (by simp [bytesLe])
  | a :: as, b :: bs => by
    simp only [bytesLe, Bool.or_eq_true, decide_eq_true_eq, Bool.and_eq_true, beq_iff_eq]
    have ht : a < b ∨ a = b ∨ b < a := by
      rw [UInt8.lt_iff_toNat_lt, UInt8.lt_iff_toNat_lt, ← UInt8.toNat_inj]
      omega
    rcases ht with h | h | h
    · exact .inl (.inl h)
    · subst h
      rcases bytesLe_total as bs with h | h
      · exact .inl (.inr ⟨rfl, h⟩)
      · exact .inr (.inr ⟨rfl, h⟩)
    · exact .inr (.inl h)

theorem bytesLe_trans : ∀ {a b c : Bytes}, bytesLe a b = true → bytesLe b c = true → bytesLe a c = true
  | [], _, _, _, _ => by simp [bytesLe]
  | _ :: _, [], _, h, _ => by simp [bytesLe] at h
  | _ :: _, _ :: _, [], _, h => by simp [bytesLe] at h
  | a :: as, b :: bs, c :: cs, h1, h2 => by
    simp only [bytesLe, Bool.or_eq_true, decide_eq_true_eq, Bool.and_eq_true, beq_iff_eq] at h1 h2 ⊢
    rcases h1 with h1 | ⟨rfl, h1⟩
    · rcases h2 with h2 | ⟨rfl, h2⟩
      · exact .inl (UInt8.lt_trans h1 h2)
      · exact .inl h1
    · rcases h2 with h2 | ⟨rfl, h2⟩
      · exact .inl h2
      · exact .inr ⟨rfl, bytesLe_trans h1 h2⟩

theorem insert_perm (x : Bytes) : ∀ l, (insertBytes x l).Perm (x :: l)
  | [] => .refl _
  | y :: l => by
    rw [insertBytes]
    split
    · exact .refl _
    · exact ((insert_perm x l).cons y).trans (.swap _ _ _)

theorem insert_sorted {x : Bytes} : ∀ {l : List Bytes}, l.Pairwise (fun a b => bytesLe a b = true) →
    (insertBytes x l).Pairwise (fun a b => bytesLe a b = true)
  | [], _ => by simp [insertBytes]
  | y :: l, h => by
    rw [List.pairwise_cons] at h
    rw [insertBytes]
    split
    · next hx =>
      rw [List.pairwise_cons, List.pairwise_cons]
      refine ⟨?_, h⟩
      intro z hz
      rcases List.mem_cons.1 hz with rfl | hz
      · exact hx
      · exact bytesLe_trans hx (h.1 z hz)
    · next hx =>
      have hy : bytesLe y x = true := (bytesLe_total x y).resolve_left hx
      rw [List.pairwise_cons]
      refine ⟨?_, insert_sorted h.2⟩
      intro z hz
      rcases List.mem_cons.1 ((insert_perm x l).mem_iff.1 hz) with rfl | hz
      · exact hy
      · exact h.1 z hz

theorem sort_perm : ∀ l, (sortBytes l).Perm l
  | [] => .refl _
  | x :: l => (insert_perm x _).trans ((sort_perm l).cons x)

theorem sort_sorted : ∀ l, (sortBytes l).Pairwise (fun a b => bytesLe a b = true)
  | [] => .nil
  | _ :: l => insert_sorted (sort_sorted l)

theorem padded_le : ∀ a b : Bytes, bytesLe a b = true → PaddedLe a b
  | [], b, _ => by
    simp only [PaddedLe, List.nil_append, List.length_nil, Nat.sub_zero, Nat.zero_sub, List.replicate_zero, List.append_nil]
    have : ∀ n, octetsValue (List.replicate n 0) = 0 := by
      intro n
      induction n with
      | zero => rfl
      | succ n ih => rw [List.replicate_succ, octetsValue_cons, ih]; simp
    rw [this]
    exact Nat.zero_le _
  | _ :: _, [], h => by simp [bytesLe] at h
  | a :: as, b :: bs, h => by
    simp only [bytesLe, Bool.or_eq_true, decide_eq_true_eq, Bool.and_eq_true, beq_iff_eq] at h
    have hl : (as ++ List.replicate (bs.length - as.length) 0).length = (bs ++ List.replicate (as.length - bs.length) 0).length := by
      simp only [List.length_append, List.length_replicate]
      omega
    rw [PaddedLe]
    simp only [List.length_cons, Nat.add_sub_add_right, List.cons_append, octetsValue_cons]
    rw [hl]
    rcases h with h | ⟨rfl, h⟩
    · rw [UInt8.lt_iff_toNat_lt] at h
      have h1 := octetsValue_lt (as ++ List.replicate (bs.length - as.length) 0)
      rw [hl] at h1
      have h2 : (a.toNat + 1) * 256 ^ (bs ++ List.replicate (as.length - bs.length) 0).length ≤
          b.toNat * 256 ^ (bs ++ List.replicate (as.length - bs.length) 0).length := Nat.mul_le_mul_right _ h
      rw [Nat.succ_mul] at h2
      omega
    · exact Nat.add_le_add_left (padded_le as bs h) _

theorem sort_padded (l : List Bytes) : (sortBytes l).Pairwise PaddedLe := (sort_sorted l).imp fun h => padded_le _ _ h

end Asn1go.Enco
