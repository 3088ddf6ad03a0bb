import Verif.Proofs.Encoding.Lost

/-! Encodings of lists, element by element. -/

namespace Asn1go.Enco

open Asn1go Spec CG

variable {u : Casing} {l : List MAssignment} {d : Int} {r : Str} {f : GoFile} {strict : Bool}

theorem elems_iff {t : MTy} : ∀ {vs : List GoVal} {xs : List AsnVal} {bss : List Bytes}, makeElems u vs = some bss →
    (EncElems strict l d t xs bss ↔ List.Forall₂ (RightAlone strict u l d t) vs xs)
  | [], xs, bss, h => by
    rw [makeElems] at h
    cases h
    constructor
    · intro h; cases h; exact .nil
    · intro h; cases h; exact .nil _
  | v :: vs, xs, bss, h => by
    rw [makeElems] at h
    cases hv : makeField u v {} with
    | none => rw [hv] at h; cases h
    | some b =>
      cases hvs : makeElems u vs with
      | none => rw [hv, hvs] at h; cases h
      | some bss' =>
        rw [hv, hvs] at h
        cases h
        constructor
        · intro h
          cases h with
          | cons _ x tag k c _ xs _ h1 h2 h3 => exact .cons ⟨b, hv, tag, k, c, h1, h2⟩ ((elems_iff hvs).1 h3)
        · intro h
          cases h with
          | cons h1 h2 =>
            obtain ⟨e, h3, tag, k, c, h4, h5⟩ := h1
            rw [marshal, hv] at h3
            cases h3
            exact .cons _ _ _ _ _ _ _ _ h4 h5 ((elems_iff hvs).2 h2)

theorem elems_sound {B : Held} (hB : ∀ t v x, Means l B t v x → RawSound v) {t : MTy} : ∀ {vs : List GoVal} {xs : List AsnVal}, MeansElems l B t vs xs → ∀ v ∈ vs, RawSound v
  | _, _, .nil _ => by simp
  | _, _, .cons _ v vs x xs h1 h2 => by
    intro w hw
    rcases List.mem_cons.1 hw with rfl | hw
    · exact hB _ _ _ h1
    · exact elems_sound hB h2 w hw

theorem makeElems_encodings : ∀ {vs : List GoVal} {bss : List Bytes}, makeElems u vs = some bss → (∀ v ∈ vs, RawSound v) → bss.flatten.length ≤ maxLength →
    ∀ e ∈ bss, ∃ t k c, Encoding t k c e
  | [], bss, h, _, _ => by rw [makeElems] at h; cases h; simp
  | v :: vs, bss, h, hs, hl => by
    rw [makeElems] at h
    cases hv : makeField u v {} with
    | none => rw [hv] at h; cases h
    | some b =>
      cases hvs : makeElems u vs with
      | none => rw [hv, hvs] at h; cases h
      | some bss' =>
        rw [hv, hvs] at h
        cases h
        rw [List.flatten_cons, List.length_append] at hl
        intro e he
        rcases List.mem_cons.1 he with rfl | he
        · exact alone_encoding hv (hs v (by simp)) (by omega)
        · exact makeElems_encodings hvs (fun w hw => hs w (by simp [hw])) (by omega) e he

theorem encElems_encodings {t : MTy} : ∀ {xs : List AsnVal} {es : List Bytes}, EncElems strict l d t xs es → ∀ e ∈ es, ∃ t k c, Encoding t k c e
  | _, _, .nil _ => by simp
  | _, _, .cons _ v tag k c e xs es h1 h2 h3 => by
    intro e' he
    rcases List.mem_cons.1 he with rfl | he
    · exact ⟨tag, k, c, h2⟩
    · exact encElems_encodings h3 e' he

/-- What is written for a slice. -/
theorem written_slice {n : Str} {z : Bool} {vs : List GoVal} {bs : Bytes} (h : marshal u (.slice n z vs) = some bs) :
    ∃ bss, makeElems u vs = some bss ∧
      bs = header 0 ((if c! "SET" <:+ n then 17 else 16 : Nat) : Int) true (if c! "SET" <:+ n then sortBytes bss else bss).flatten.length ++
        (if c! "SET" <:+ n then sortBytes bss else bss).flatten := by
  obtain ⟨m, k, body, h1, h2, h3⟩ := written h (by intro _ _ _ _ _ h; cases h)
  have hub : (GoVal.slice n z vs).unboxed = .slice n z vs := rfl
  rw [hub] at h1 h2 h3
  simp only [universalType, Option.some.injEq, Prod.mk.injEq] at h1
  obtain ⟨rfl, rfl⟩ := h1
  have hvt : valueTag {} (if c! "SET" <:+ n then 17 else 16) (.slice n z vs) = if c! "SET" <:+ n then 17 else 16 := rfl
  rw [hvt] at h2 h3
  rw [makeBody, childrenOf] at h2
  cases hm : makeElems u vs with
  | none => rw [hm] at h2; cases h2
  | some bss =>
    rw [hm] at h2
    refine ⟨bss, rfl, ?_⟩
    rw [Option.map_some, Option.some.injEq] at h2
    by_cases hn : c! "SET" <:+ n
    · rw [if_pos hn] at h2 h3 ⊢
      rw [if_pos (by rfl)] at h2
      rw [if_pos hn, h2]
      exact h3
    · rw [if_neg hn] at h2 h3 ⊢
      rw [if_neg (by decide)] at h2
      rw [if_neg hn, h2]
      exact h3

/-- The elements are encoded rightly if the list is, and the other way round. -/
theorem sequenceOf_iff {t : MTy} {n : Str} {z : Bool} {vs : List GoVal} {xs : List AsnVal} {bs : Bytes} (h : marshal u (.slice n z vs) = some bs)
    (hs : ∀ v ∈ vs, RawSound v) (hl : bs.length ≤ maxLength) :
    Encodes strict l d (.sequenceOf t) (.list xs) bs ↔ ¬ c! "SET" <:+ n ∧ List.Forall₂ (RightAlone strict u l d t) vs xs := by
  obtain ⟨bss, h1, h2⟩ := written_slice h
  have hbl : (if c! "SET" <:+ n then sortBytes bss else bss).flatten.length ≤ maxLength := by
    rw [h2, List.length_append] at hl; omega
  have hen := header_spec 0 (if c! "SET" <:+ n then 17 else 16) true _ (by omega) hbl
  rw [← h2] at hen
  constructor
  · rintro ⟨tag, k, c, h3, h4⟩
    cases h3 with
    | sequenceOf _ _ es h5 =>
      obtain ⟨h6, -⟩ := first_tag h4 (by simp) (n := if c! "SET" <:+ n then 17 else 16) (by split <;> omega) h2
      have hn : ¬ c! "SET" <:+ n := by
        intro hn
        rw [if_pos hn] at h6
        cases h6
      refine ⟨hn, ?_⟩
      have h7 := encoding_contents hen h4
      rw [if_neg hn] at h7 hbl
      have := flatten_encodings (makeElems_encodings h1 hs hbl) (encElems_encodings h5) h7
      subst this
      exact (elems_iff h1).1 h5
  · rintro ⟨hn, h3⟩
    rw [if_neg hn, if_neg hn] at hen
    exact ⟨_, _, _, .sequenceOf _ _ _ ((elems_iff h1).2 h3), hen⟩

theorem permuted_elems {t : MTy} {es es' : List Bytes} (hp : es.Perm es') : ∀ {xs : List AsnVal}, EncElems strict l d t xs es →
    ∃ xs', xs.Perm xs' ∧ EncElems strict l d t xs' es' := by
  induction hp with
  | nil => intro xs h; exact ⟨xs, .refl _, h⟩
  | cons e _ ih =>
    intro xs h
    cases h with
    | cons _ x tag k c _ xs _ h1 h2 h3 =>
      obtain ⟨xs', h4, h5⟩ := ih h3
      exact ⟨x :: xs', h4.cons _, .cons _ _ _ _ _ _ _ _ h1 h2 h5⟩
  | swap e e' es =>
    intro xs h
    cases h with
    | cons _ x tag k c _ xs _ h1 h2 h3 =>
      cases h3 with
      | cons _ x' tag' k' c' _ xs _ h4 h5 h6 =>
        exact ⟨x' :: x :: xs, .swap _ _ _, .cons _ _ _ _ _ _ _ _ h4 h5 (.cons _ _ _ _ _ _ _ _ h1 h2 h6)⟩
  | trans _ _ ih1 ih2 =>
    intro xs h
    obtain ⟨xs', h1, h2⟩ := ih1 h
    obtain ⟨xs'', h3, h4⟩ := ih2 h2
    exact ⟨xs'', h1.trans h3, h4⟩

/-- For SET OF, the elements may be taken in another order. -/
theorem setOf_iff {t : MTy} {n : Str} {z : Bool} {vs : List GoVal} {xs : List AsnVal} {bs : Bytes} (h : marshal u (.slice n z vs) = some bs)
    (hs : ∀ v ∈ vs, RawSound v) (hl : bs.length ≤ maxLength) :
    Encodes strict l d (.setOf t) (.list xs) bs ↔ c! "SET" <:+ n ∧ ∃ xs', xs.Perm xs' ∧ List.Forall₂ (RightAlone strict u l d t) vs xs' := by
  obtain ⟨bss, h1, h2⟩ := written_slice h
  have hbl : (if c! "SET" <:+ n then sortBytes bss else bss).flatten.length ≤ maxLength := by
    rw [h2, List.length_append] at hl; omega
  have hen := header_spec 0 (if c! "SET" <:+ n then 17 else 16) true _ (by omega) hbl
  rw [← h2] at hen
  constructor
  · rintro ⟨tag, k, c, h3, h4⟩
    cases h3 with
    | setOf _ _ es es' h5 hp _ =>
      obtain ⟨h6, -⟩ := first_tag h4 (by simp) (n := if c! "SET" <:+ n then 17 else 16) (by split <;> omega) h2
      have hn : c! "SET" <:+ n := by
        by_contra hn
        rw [if_neg hn] at h6
        cases h6
      refine ⟨hn, ?_⟩
      have h7 := encoding_contents hen h4
      rw [if_pos hn] at h7 hbl
      rw [sort_flatten] at hbl
      have := flatten_encodings (fun e he => makeElems_encodings h1 hs hbl e ((sort_perm bss).mem_iff.1 he))
        (fun e he => encElems_encodings h5 e (hp.mem_iff.1 he)) h7
      subst this
      obtain ⟨xs', h8, h9⟩ := permuted_elems (hp.symm.trans (sort_perm bss)) h5
      exact ⟨xs', h8, (elems_iff h1).1 h9⟩
  · rintro ⟨hn, xs', h3, h4⟩
    rw [if_pos hn, if_pos hn] at hen
    have h5 := (elems_iff (strict := strict) (l := l) (d := d) (t := t) h1).2 h4
    have back : ∀ {xs xs' : List AsnVal} (_ : xs'.Perm xs) {es : List Bytes}, EncElems strict l d t xs' es → ∃ es', es.Perm es' ∧ EncElems strict l d t xs es' := by
      intro xs xs' hp
      induction hp with
      | nil => intro es h; exact ⟨es, .refl _, h⟩
      | cons e _ ih =>
        intro es h
        cases h with
        | cons _ x tag k c e xs es h1 h2 h3 =>
          obtain ⟨es', h4, h5⟩ := ih h3
          exact ⟨e :: es', h4.cons _, .cons _ _ _ _ _ _ _ _ h1 h2 h5⟩
      | swap x x' xs =>
        intro es h
        cases h with
        | cons _ _ tag k c e _ es h1 h2 h3 =>
          cases h3 with
          | cons _ _ tag' k' c' e' _ es h4 h5 h6 =>
            exact ⟨e' :: e :: es, .swap _ _ _, .cons _ _ _ _ _ _ _ _ h4 h5 (.cons _ _ _ _ _ _ _ _ h1 h2 h6)⟩
      | trans _ _ ih1 ih2 =>
        intro es h
        obtain ⟨es', h1, h2⟩ := ih1 h
        obtain ⟨es'', h3, h4⟩ := ih2 h2
        exact ⟨es'', h1.trans h3, h4⟩
    obtain ⟨es, h6, h7⟩ := back h3.symm h5
    exact ⟨_, _, _, .setOf _ _ es (sortBytes bss) h7 ((sort_perm bss).trans h6) (fun _ => sort_padded _), hen⟩

end Asn1go.Enco
