import Verif.Proofs.Decoding.Octets

/-! encoding/asn1 reads the octets of X.690: bits, object identifiers, strings and times. -/

namespace Asn1go.Deco

open Asn1go Spec Enco

/-! ### Bits -/

theorem low_bits : ∀ n < 256, ∀ k < 8, List.replicate k false <:+ octetBits (UInt8.ofNat n) → n % 2 ^ k = 0 := by decide +kernel

theorem read_bits {bits : List Bool} {c : Bytes} (h : BitOctets bits c) :
    ∃ k q, k < 8 ∧ q.flatMap octetBits = bits ++ List.replicate k false ∧ readBits c = some (q, (bits.length : Int)) := by
  obtain ⟨k, q, rfl, hk, hq⟩ := h
  refine ⟨k, q, hk, hq, ?_⟩
  have hb : (UInt8.ofNat k).toNat = k := u8_toNat (by omega)
  have h7 : (7 : UInt8).toNat = 7 := rfl
  have h0 : (0 : UInt8).toNat = 0 := rfl
  have hlen := congrArg List.length hq
  rw [octetBits_length, List.length_append, List.length_replicate] at hlen
  rw [readBits, if_neg, hb]
  · simp only [Option.some.injEq, Prod.mk.injEq, true_and]
    omega
  · rintro (h | ⟨h1, h2⟩ | ⟨x, h1, h2⟩)
    · rw [gt_iff_lt, UInt8.lt_iff_toNat_lt] at h; omega
    · rw [gt_iff_lt, UInt8.lt_iff_toNat_lt] at h2
      subst h1
      simp only [List.length_nil] at hlen
      omega
    · obtain ⟨q', rfl⟩ := List.getLast?_eq_some_iff.1 h1
      rw [List.flatMap_append, List.flatMap_singleton] at hq
      have hs : List.replicate k false <:+ octetBits x := by
        refine List.suffix_of_suffix_length_le (l₃ := q'.flatMap octetBits ++ octetBits x) ?_ (List.suffix_append _ _) ?_
        · rw [hq]; exact List.suffix_append _ _
        · simp [octetBits]; omega
      have := low_bits x.toNat x.toNat_lt k hk (by rwa [UInt8.ofNat_toNat])
      rw [hb] at h2
      exact h2 this

/-! ### Object identifiers -/

theorem septets_ne {n : Nat} {q : Bytes} (h : Septets n q) : q ≠ [] := by
  obtain ⟨i, o, rfl, -, -⟩ := h.ends
  simp

theorem read_arcs {o : List Nat} {c : Bytes} (h : Subidentifiers o c) : (∀ n ∈ o, n ≤ 2147483647) → ∀ fuel, c.length ≤ fuel →
    readArcs fuel c = some (o.map Int.ofNat) := by
  induction h with
  | nil => intro _ fuel _; rw [readArcs]; rfl
  | cons n q o c hq _ ih =>
    intro hn fuel hf
    have hq0 := septets_ne hq
    cases q with
    | nil => exact absurd rfl hq0
    | cons x q =>
      cases fuel with
      | zero => simp at hf
      | succ fuel =>
        rw [List.cons_append, readArcs]
        · rw [← List.cons_append, parse_base128 hq (hn n (by simp))]
          simp only
          rw [ih (fun m hm => hn m (by simp [hm])) fuel (by simp at hf; omega)]
          rfl
        · simp

theorem read_oid {o : List Nat} {c : Bytes} (h : OidOctets o c) (h1 : ∀ n ∈ o, n ≤ 2147483647) (h2 : ∀ a b r, o = a :: b :: r → 40 * a + b ≤ 2147483647) :
    readOid c = some (o.map Int.ofNat) := by
  cases h with
  | mk a b r _ ha hb hs =>
    rw [readOid, read_arcs hs (by
      intro n hn
      rcases List.mem_cons.1 hn with rfl | hn
      · exact h2 a b r rfl
      · exact h1 n (by simp [hn])) _ (Nat.le_refl _)]
    simp only [List.map_cons, Int.ofNat_eq_natCast, Option.some.injEq]
    split
    · next hlt =>
      have hb' : b < 40 := by
        by_cases h : a < 2
        · exact hb h
        · omega
      congr 1
      · omega
      · congr 1; omega
    · next hlt =>
      have ha' : a = 2 := by
        by_contra hc
        have := hb (by omega)
        omega
      subst ha'
      congr 1
      congr 1
      omega

/-! ### Strings -/

theorem printable_bytes : ∀ c ∈ PrintableChars, printableByte (UInt8.ofNat c.toNat) = true := by decide +kernel

theorem numeric_bytes : ∀ c ∈ NumericChars, (48 ≤ UInt8.ofNat c.toNat ∧ UInt8.ofNat c.toNat ≤ 57) ∨ UInt8.ofNat c.toNat = 32 := by decide +kernel

theorem read_string {k : Int} {tag : Nat} {ok : Char → Prop} {enc : Char → Bytes} {q : Str} (h : StringKind k tag ok enc) (hk : k ∈ fieldStrings)
    (hq : ∀ c ∈ q, ok c) : ReadsString tag (q.flatMap enc) q := by
  have hasc : (∀ c ∈ q, c.toNat < 128) → (q.flatMap fun c => [UInt8.ofNat c.toNat]) = stringBytes q := fun h => (stringBytes_ascii h).symm
  have hmem : ∀ b ∈ q.flatMap (fun c => [UInt8.ofNat c.toNat]), ∃ c ∈ q, b = UInt8.ofNat c.toNat := by
    intro b hb
    obtain ⟨c, h1, h2⟩ := List.mem_flatMap.1 hb
    exact ⟨c, h1, by simpa using h2⟩
  cases h with
  | ia5 =>
    rw [hasc hq]
    refine .ia5 _ fun b hb => ?_
    rw [← hasc hq] at hb
    obtain ⟨c, h1, rfl⟩ := hmem b hb
    have := hq c h1
    rw [UInt8.lt_iff_toNat_lt, u8_toNat (by omega)]
    exact this
  | visible => exact absurd hk (by decide)
  | printable =>
    have ha : ∀ c ∈ q, c.toNat < 128 := fun c hc => (printable_chars c (hq c hc)).2
    rw [hasc ha]
    refine .printable _ fun b hb => ?_
    rw [← hasc ha] at hb
    obtain ⟨c, h1, rfl⟩ := hmem b hb
    exact printable_bytes c (hq c h1)
  | numeric =>
    have ha : ∀ c ∈ q, c.toNat < 128 := fun c hc => (numeric_chars c (hq c hc)).2
    rw [hasc ha]
    refine .numeric _ fun b hb => ?_
    rw [← hasc ha] at hb
    obtain ⟨c, h1, rfl⟩ := hmem b hb
    exact numeric_bytes c (hq c h1)
  | utf8 => exact .utf8 q

/-! ### Times -/

theorem read_time {t : AsnTime} (h : t.Ok) : ReadsTime (timeOctets t) ⟨t.year, t.month, t.day, t.hour, t.minute, t.second, 0⟩ := by
  have := ReadsTime.mk t.year t.month t.day t.hour t.minute t.second h.year h.month.1 h.month.2 h.day.1 h.day.2 h.hour h.minute h.second
  rw [fourDigits_spec] at this
  simpa only [twoDigits_spec, timeOctets] using this

end Asn1go.Deco
