import Verif.Spec.Written
import Verif.Proofs.Encoding.Encode3
import Verif.Proofs.Decoding.Canon

/-! The tags encoding/asn1 writes without parameters. -/

namespace Asn1go.Enco

open Asn1go Spec CG

variable {u : Casing} {l : List MAssignment} {d : Int} {r : Str} {f : GoFile} {strict : Bool}

theorem named_enc {t t' : MTy} (h : NamedBy l t t') {x : AsnVal} {tag : AsnTag} {k : Bool} {c : Bytes} :
    Enc strict l d t x tag k c ↔ Enc strict l d t' x tag k c := by
  induction h with
  | here t => exact Iff.rfl
  | ref a t t' h1 _ ih =>
    rw [← ih]
    constructor
    · intro h
      cases h with
      | time t'' h2 _ => exact absurd h1 (h2 _)
      | ref _ t'' _ _ _ _ h2 h3 => cases assigned_unique h1 h2; exact h3
    · exact fun h => .ref _ _ _ _ _ _ h1 h
  | constrained t t' c _ ih =>
    rw [← ih]
    constructor
    · intro h
      cases h with
      | constrained _ _ _ _ _ _ h => exact h
    · exact fun h => .constrained _ _ _ _ _ _ h

theorem named_encodes {t t' : MTy} (h : NamedBy l t t') {x : AsnVal} {bs : Bytes} :
    Encodes strict l d t x bs ↔ Encodes strict l d t' x bs := by
  simp only [Encodes, named_enc h]

theorem named_means {B : Held} {t t' : MTy} (h : NamedBy l t t') {v : GoVal} {x : AsnVal} (hm : Means l B t v x) : Means l B t' v x := by
  induction h with
  | here t => exact hm
  | ref a t t' h1 _ ih =>
    cases hm with
    | time t'' h2 _ => exact absurd h1 (h2 _)
    | ref _ t'' _ _ h2 h3 => cases assigned_unique h1 h2; exact ih h3
  | constrained t t' c _ ih =>
    cases hm with
    | constrained _ _ _ _ h => exact ih h

theorem named_unconstrained {t' : MTy} : ∀ {t : MTy}, NamedBy l (unconstrained t) t' → NamedBy l t t'
  | .constrained t c, h => by rw [unconstrained] at h; exact .constrained _ _ _ (named_unconstrained h)
  | .boolean, h | .integer _, h | .enumerated _ _, h | .octetString, h | .bitString _, h | .objectIdentifier, h | .restrictedString _, h | .sequence _ _, h
  | .set _ _, h | .sequenceOf _, h | .setOf _, h | .ref _, h | .choice _ _, h | .tagged _ _ _ _, h | .real, h | .null, h | .any _, h | .nil, h
  | .characterString, h | .named _, h => by simpa only [unconstrained] using h

theorem named_time {a : Str} (h : TimeRef l a) : NamedBy l (.ref a) (.ref (c! "GeneralizedTime")) ∧ ∀ t, ¬ Assigned l (c! "GeneralizedTime") t := by
  induction h with
  | here h => exact ⟨.here _, h⟩
  | ref a b t h1 h2 _ ih => exact ⟨.ref _ _ _ h1 (named_unconstrained (h2 ▸ ih.1)), ih.2⟩

theorem makeField_unboxed : ∀ (v : GoVal) (p : FieldParams), makeField u v.unboxed p = makeField u v p
  | .iface v, p => by rw [GoVal.unboxed, makeField_unboxed v p, makeField]
  | .bool _, _ => rfl
  | .int _, _ => rfl
  | .enum _, _ => rfl
  | .float, _ => rfl
  | .big _, _ => rfl
  | .str _, _ => rfl
  | .bytes _, _ => rfl
  | .bits _ _, _ => rfl
  | .oid _, _ => rfl
  | .time _, _ => rfl
  | .raw _ _ _ _ _, _ => rfl
  | .slice _ _ _, _ => rfl
  | .struct _, _ => rfl
  | .nilIface, _ => rfl

theorem unboxed_bare : ∀ (v w : GoVal), v.unboxed ≠ .iface w
  | .iface v, w => by rw [GoVal.unboxed]; exact unboxed_bare v w
  | .bool _, _ => nofun
  | .int _, _ => nofun
  | .enum _, _ => nofun
  | .float, _ => nofun
  | .big _, _ => nofun
  | .str _, _ => nofun
  | .bytes _, _ => nofun
  | .bits _ _, _ => nofun
  | .oid _, _ => nofun
  | .time _, _ => nofun
  | .raw _ _ _ _ _, _ => nofun
  | .slice _ _ _, _ => nofun
  | .struct _, _ => nofun
  | .nilIface, _ => nofun

/-- What is written for elements or fields. -/
def childrenOf (u : Casing) : GoVal → Option (List Bytes)
  | .struct fs => makeFields u fs
  | .slice _ _ l => makeElems u l
  | _ => some []

/-- Without parameters, the tag is the one of the value. -/
theorem written {v : GoVal} {bs : Bytes} (h : marshal u v = some bs) (hr : NotRaw v) :
    ∃ n k body, universalType v.unboxed = some (n, k) ∧
      makeBody { ({} : FieldParams) with set := valueTag {} n v.unboxed == 17 } (childrenOf u v.unboxed) v.unboxed = some body ∧
      bs = header 0 (valueTag {} n v.unboxed : Nat) k body.length ++ body := by
  rw [marshal, ← makeField_unboxed] at h
  have hr' : ∀ cls tag k b full, v.unboxed ≠ .raw cls tag k b full := hr
  have hi := unboxed_bare v
  have key : ∀ w : GoVal, (∀ cls tag k b full, w ≠ .raw cls tag k b full) → makeValue {} w (childrenOf u w) = some bs →
      ∃ n k body, universalType w = some (n, k) ∧ makeBody { ({} : FieldParams) with set := valueTag {} n w == 17 } (childrenOf u w) w = some body ∧
        bs = header 0 (valueTag {} n w : Nat) k body.length ++ body := by
    intro w hw h
    cases hu : universalType w with
    | none => cases w <;> first | exact absurd rfl (hw _ _ _ _ _) | simp [makeValue, leftOut, universalType] at h hu
    | some q =>
      obtain ⟨n, k⟩ := q
      cases hb : makeBody { ({} : FieldParams) with set := valueTag {} n w == 17 } (childrenOf u w) w with
      | none =>
        cases w <;> simp_all [makeValue, leftOut, universalType, chooseTag]
      | some body =>
        refine ⟨n, k, body, rfl, hb, ?_⟩
        rw [makeValue_eq hu (tag' := valueTag {} n w) (by simp [chooseTag]) (by simpa using hb)] at h
        rw [leftOut_empty, if_neg (by simp)] at h
        cases h
        rfl
  generalize v.unboxed = w at h hr' hi
  refine key w hr' ?_
  rw [← h]
  cases w with
  | iface w => exact absurd rfl (hi w)
  | nilIface => rw [makeField] at h; cases h
  | _ => rfl

theorem valueTag_small {v : GoVal} {n : Nat} {k : Bool} (h : universalType v = some (n, k)) : valueTag {} n v ≤ 30 := by
  cases v with
  | slice m z l =>
    simp only [universalType, Option.some.injEq, Prod.mk.injEq] at h
    rw [← h.1]
    show (if c! "SET" <:+ m then 17 else 16) ≤ 30
    split <;> omega
  | str s => simp only [valueTag, if_pos]; split <;> omega
  | time t => simp only [valueTag]; split <;> omega
  | float => cases h
  | raw => cases h
  | nilIface => cases h
  | iface => cases h
  | _ => cases h; simp [valueTag]

/-- The first octet tells which tag was written. -/
theorem first_tag {t : AsnTag} {n : Nat} {k k' : Bool} {c bs rest : Bytes} (h : Encoding t k c bs) (hc : t.cls < 4) (hn : n ≤ 30) {len : Nat}
    (he : bs = header 0 (n : Nat) k' len ++ rest) : t = ⟨0, n⟩ ∧ k = k' := by
  obtain ⟨i, m, h1, -, h2⟩ := h
  have hh : bs.head? = some (UInt8.ofNat ((if k' then 32 else 0) + n)) := by
    have h3 : ¬ ((n : Int) ≥ 31) := by omega
    have h4 : ((n : Int) % 256).toNat = n := by omega
    have h5 := header_small 0 (by omega) k' n (by omega)
    rw [Nat.mul_zero, Nat.zero_add] at h5
    rw [he, header, if_neg h3, h4]
    simp only [List.append_assoc, List.cons_append, List.head?_cons, Nat.mul_zero, Nat.zero_add, h5]
  have hh' : bs.head? = some (UInt8.ofNat (64 * t.cls + (if k then 32 else 0) + min t.number 31)) := by
    rw [h2]
    unfold Identifier at h1
    split at h1
    · rw [h1, Nat.min_eq_left (by omega)]; rfl
    · obtain ⟨s, rfl, -⟩ := h1
      rw [Nat.min_eq_right (by omega)]; rfl
  rw [hh', Option.some.injEq] at hh
  have := congrArg UInt8.toNat hh
  rw [UInt8.toNat_ofNat', UInt8.toNat_ofNat'] at this
  obtain ⟨cls, num⟩ := t
  simp only at this hc
  cases k <;> cases k' <;> simp only [if_true, if_false, Bool.false_eq_true] at this
  · exact ⟨by rw [AsnTag.mk.injEq]; omega, rfl⟩
  · omega
  · omega
  · exact ⟨by rw [AsnTag.mk.injEq]; omega, rfl⟩

/-- A right encoding has the tag of the Go value. -/
theorem right_tag {v : GoVal} {bs : Bytes} (h : marshal u v = some bs) (hr : NotRaw v) {t : MTy} {x : AsnVal} (he : Encodes strict l d t x bs) :
    ∃ n k c, universalType v.unboxed = some (n, k) ∧ Enc strict l d t x ⟨0, valueTag {} n v.unboxed⟩ k c ∧ Encoding ⟨0, valueTag {} n v.unboxed⟩ k c bs := by
  obtain ⟨n, k, body, h1, -, h2⟩ := written h hr
  obtain ⟨tag, k', c, h3, h4⟩ := he
  obtain ⟨rfl, rfl⟩ := first_tag h4 (enc_class h3) (valueTag_small h1) h2
  exact ⟨n, k', c, h1, h3, h4⟩

/-! ### Contents -/

theorem encoding_contents {t t' : AsnTag} {k k' : Bool} {c c' bs : Bytes} (ha : Encoding t k c bs) (hb : Encoding t' k' c' bs) : c = c' := by
  obtain ⟨i, n, h1, h2, rfl⟩ := ha
  obtain ⟨j, m, h3, h4, h⟩ := hb
  simp only [List.append_assoc] at h
  obtain ⟨rfl, h5⟩ := Deco.identifier_prefix h1 h3 h
  obtain ⟨-, rfl, h7⟩ := Deco.lengthOctets_prefix h2 h4 h5
  exact h7

theorem encoding_nonempty {t : AsnTag} {k : Bool} {c bs : Bytes} (h : Encoding t k c bs) : bs ≠ [] := by
  obtain ⟨i, n, h1, h2, rfl⟩ := h
  unfold Identifier at h1
  split at h1
  · rw [h1]; simp
  · obtain ⟨s, rfl, -⟩ := h1; simp

/-- Encodings one after another can be told apart. -/
theorem flatten_encodings : ∀ {a b : List Bytes}, (∀ e ∈ a, ∃ t k c, Encoding t k c e) → (∀ e ∈ b, ∃ t k c, Encoding t k c e) → a.flatten = b.flatten → a = b
  | [], [], _, _, _ => rfl
  | [], y :: b, _, h2, h => by
    obtain ⟨t, k, c, h3⟩ := h2 y (by simp)
    simp only [List.flatten_nil, List.flatten_cons] at h
    exact absurd (List.append_eq_nil_iff.1 h.symm).1 (encoding_nonempty h3)
  | x :: a, [], h1, _, h => by
    obtain ⟨t, k, c, h3⟩ := h1 x (by simp)
    simp only [List.flatten_nil, List.flatten_cons] at h
    exact absurd (List.append_eq_nil_iff.1 h).1 (encoding_nonempty h3)
  | x :: a, y :: b, h1, h2, h => by
    obtain ⟨t, k, c, h3⟩ := h1 x (by simp)
    obtain ⟨t', k', c', h4⟩ := h2 y (by simp)
    simp only [List.flatten_cons] at h
    obtain ⟨rfl, h5⟩ := Deco.encoding_prefix h3 h4 h
    rw [flatten_encodings (fun e he => h1 e (by simp [he])) (fun e he => h2 e (by simp [he])) h5]

/-- If the value is held in an `asn1.RawValue`, it has a class and a tag number, and full octets, if any, agree. -/
def RawSound (v : GoVal) : Prop := ∀ cls tag k b full, v.unboxed = .raw cls tag k b full →
  ∃ c n : Nat, cls = c ∧ tag = n ∧ c < 4 ∧ (full.getD [] ≠ [] → Encoding ⟨c, n⟩ k (b.getD []) (full.getD []))

theorem unboxed_boxed (v : GoVal) : v.boxed.unboxed = v.unboxed := by
  cases v <;> rfl

theorem means_sound {t : MTy} {v : GoVal} {x : AsnVal} (h : Means l (held strict u l d r f) t v x) : RawSound v := by
  refine Means.rec (motive_1 := fun t v x _ => RawSound v) (motive_2 := fun _ _ _ _ => True) (motive_3 := fun _ _ _ _ => True)
    ?_ ?_ ?_ ?_ ?_ ?_ ?_ ?_ ?_ ?_ ?_ ?_ ?_ ?_ ?_ ?_ ?_ ?_ ?_ ?_ ?_ ?_ ?_ ?_ h
  · intros; nofun
  · intros; nofun
  · intros; nofun
  · intros; nofun
  · intros; nofun
  · intros; nofun
  · intros; nofun
  · intros; nofun
  · intros; nofun
  · intros; assumption
  · intros; assumption
  · intros; assumption
  · intros; assumption
  · intro alts e n t v w x _ _ _ _ hw _ ih
    subst hw
    unfold RawSound
    rw [unboxed_boxed]
    exact ih
  · intro alts e cls tag k b full x _ h1 h2 cls' tag' k' b' full' h3
    rw [GoVal.unboxed] at h3
    · cases h3
      exact ⟨cls, tag, rfl, rfl, enc_class h1, h2⟩
    · nofun
  · intros; nofun
  · intros; nofun
  · intros; nofun
  · intros; nofun
  all_goals (intros; trivial)

theorem addTags_encoding {p : FieldParams} {tag : Nat} {k : Bool} {body : Bytes} (hp : ∀ n, p.tag = some n → 0 ≤ n) (hl : (addTags p tag k body).length ≤ maxLength) :
    ∃ t k' c, Encoding t k' c (addTags p tag k body) := by
  unfold addTags at hl ⊢
  cases hpt : p.tag with
  | none =>
    simp only [hpt] at hl ⊢
    rw [List.length_append] at hl
    exact ⟨_, _, _, header_spec 0 tag k body (by omega) (by omega)⟩
  | some n =>
    simp only [hpt] at hl ⊢
    obtain ⟨m, rfl⟩ := Int.eq_ofNat_of_zero_le (hp n hpt)
    have hc : (if p.application = true then 1 else if p.isPrivate = true then 3 else 2) < 4 := by split <;> (try split) <;> omega
    split at hl
    · next he =>
      rw [if_pos he]
      rw [List.length_append] at hl
      exact ⟨_, _, _, header_spec _ m true _ hc (by omega)⟩
    · next he =>
      rw [if_neg he]
      rw [List.length_append] at hl
      exact ⟨_, _, _, header_spec _ m k _ hc (by omega)⟩

/-- What is written is an encoding, of something, unless it is left out. -/
theorem field_encoding {v : GoVal} {p : FieldParams} {bs : Bytes} (h : makeField u v p = some bs) (hs : RawSound v) (hn : leftOut p v.unboxed = false)
    (hp : ∀ n, p.tag = some n → 0 ≤ n) (hl : bs.length ≤ maxLength) : ∃ t k c, Encoding t k c bs := by
  rw [← makeField_unboxed] at h
  have hi := unboxed_bare v
  have hs' : ∀ cls tag k b full, v.unboxed = .raw cls tag k b full →
    ∃ c n : Nat, cls = c ∧ tag = n ∧ c < 4 ∧ (full.getD [] ≠ [] → Encoding ⟨c, n⟩ k (b.getD []) (full.getD [])) := hs
  generalize v.unboxed = w at h hi hn hs'
  have key : ∀ ch, makeValue p w ch = some bs → ∃ t k c, Encoding t k c bs := by
    intro ch h
    cases hu : universalType w with
    | none =>
      cases w with
      | raw cls tag k b full =>
        obtain ⟨c, n, rfl, rfl, h1, h2⟩ := hs' _ _ _ _ _ rfl
        rw [makeValue, hn, if_neg (by simp)] at h
        split at h
        · next hf =>
          subst h
          exact ⟨_, _, _, h2 hf⟩
        · next hf =>
          cases h
          rw [List.length_append] at hl
          exact ⟨_, _, _, header_spec c n k _ h1 (by omega)⟩
      | _ => simp [makeValue, hn, universalType] at h hu
    | some q =>
      obtain ⟨n, k⟩ := q
      cases hc : chooseTag p w n with
      | none => cases w <;> simp_all [makeValue, universalType]
      | some tag' =>
        cases hb : makeBody { p with set := p.set || tag' == 17 } ch w with
        | none => cases w <;> simp_all [makeValue, universalType]
        | some body =>
          rw [makeValue_eq hu hc hb, hn, if_neg (by simp)] at h
          cases h
          exact addTags_encoding hp hl
  cases w with
  | iface w => exact absurd rfl (hi w)
  | nilIface => rw [makeField] at h; cases h
  | struct fs => exact key _ h
  | slice n z fs => exact key _ h
  | _ => exact key _ h

theorem alone_encoding {v : GoVal} {bs : Bytes} (h : marshal u v = some bs) (hs : RawSound v) (hl : bs.length ≤ maxLength) : ∃ t k c, Encoding t k c bs :=
  field_encoding h hs (leftOut_empty _) (by simp) hl

end Asn1go.Enco
