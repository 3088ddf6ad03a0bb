import Verif.Proofs.Encoding.Lost3

/-! The tags encoding/asn1 writes for components. -/

namespace Asn1go.Enco

open Asn1go Spec CG

variable {u : Casing} {l : List MAssignment} {d : Int} {r : Str} {f : GoFile} {strict : Bool}

theorem identifier_inj {t t' : AsnTag} {k k' : Bool} {i : Bytes} (h : Identifier t k i) (h' : Identifier t' k' i) (hc : t.cls < 4) (hc' : t'.cls < 4) :
    t = t' ∧ k = k' := by
  have key : ∀ m m', m ≤ 31 → m' ≤ 31 → UInt8.ofNat (64 * t.cls + (if k then 32 else 0) + m) = UInt8.ofNat (64 * t'.cls + (if k' then 32 else 0) + m') →
      t.cls = t'.cls ∧ m = m' ∧ k = k' := by
    intro m m' h1 h2 h3
    have := congrArg UInt8.toNat h3
    rw [UInt8.toNat_ofNat', UInt8.toNat_ofNat'] at this
    cases k <;> cases k' <;> simp only [if_true, if_false, Bool.false_eq_true] at this
    · exact ⟨by omega, by omega, rfl⟩
    · omega
    · omega
    · exact ⟨by omega, by omega, rfl⟩
  obtain ⟨c, n⟩ := t
  obtain ⟨c', n'⟩ := t'
  unfold Identifier at h h'
  simp only at h h' key
  by_cases h1 : n ≤ 30 <;> by_cases h2 : n' ≤ 30
  · rw [if_pos h1] at h
    rw [if_pos h2, h, List.cons.injEq] at h'
    obtain ⟨rfl, rfl, h5⟩ := key _ _ (by omega) (by omega) h'.1
    exact ⟨rfl, h5⟩
  · rw [if_pos h1] at h
    rw [if_neg h2] at h'
    obtain ⟨s, h', -⟩ := h'
    rw [h, List.cons.injEq] at h'
    have := (key _ _ (by omega) (by omega) h'.1).2.1
    omega
  · rw [if_neg h1] at h
    rw [if_pos h2] at h'
    obtain ⟨s, h, -⟩ := h
    rw [h', List.cons.injEq] at h
    have := (key _ _ (by omega) (by omega) h.1.symm).2.1
    omega
  · rw [if_neg h1] at h
    rw [if_neg h2] at h'
    obtain ⟨s, h, h3⟩ := h
    obtain ⟨s', h', h4⟩ := h'
    rw [h, List.cons.injEq] at h'
    obtain ⟨h5, rfl⟩ := h'
    obtain ⟨rfl, -, h6⟩ := key _ _ (by omega) (by omega) h5
    refine ⟨?_, h6⟩
    rw [AsnTag.mk.injEq]
    exact ⟨rfl, h3.value.symm.trans h4.value⟩

/-- Octets are an encoding with one tag only. -/
theorem encoding_inj {t t' : AsnTag} {k k' : Bool} {c c' bs : Bytes} (h : Encoding t k c bs) (h' : Encoding t' k' c' bs) (hc : t.cls < 4) (hc' : t'.cls < 4) :
    t = t' ∧ k = k' ∧ c = c' := by
  have h0 := encoding_contents h h'
  obtain ⟨i, n, h1, h2, rfl⟩ := h
  obtain ⟨j, m, h3, h4, h5⟩ := h'
  simp only [List.append_assoc] at h5
  obtain ⟨rfl, -⟩ := Deco.identifier_prefix h1 h3 h5
  obtain ⟨h6, h7⟩ := identifier_inj h1 h3 hc hc'
  exact ⟨h6, h7, h0⟩

/-- What is written for a field, unless it is left out. -/
theorem written_field {v : GoVal} {p : FieldParams} {bs : Bytes} (h : makeField u v p = some bs) (hr : NotRaw v) (hn : leftOut p v.unboxed = false) :
    ∃ n k tag' body, universalType v.unboxed = some (n, k) ∧ chooseTag p v.unboxed n = some tag' ∧
      makeBody { p with set := p.set || tag' == 17 } (childrenOf u v.unboxed) v.unboxed = some body ∧ bs = addTags p tag' k body := by
  rw [← makeField_unboxed] at h
  have hi := unboxed_bare v
  have hr' : ∀ cls tag k b full, v.unboxed ≠ .raw cls tag k b full := hr
  generalize v.unboxed = w at h hi hn hr'
  have key : makeValue p w (childrenOf u w) = some bs → ∃ n k tag' body, universalType w = some (n, k) ∧ chooseTag p w n = some tag' ∧
      makeBody { p with set := p.set || tag' == 17 } (childrenOf u w) w = some body ∧ bs = addTags p tag' k body := by
    intro h
    cases hu : universalType w with
    | none =>
      cases w with
      | raw cls tag k b full => exact absurd rfl (hr' _ _ _ _ _)
      | _ => simp [makeValue, hn, universalType] at h hu
    | some q =>
      obtain ⟨n, k⟩ := q
      cases hc : chooseTag p w n with
      | none => cases w <;> simp_all [makeValue, universalType]
      | some tag' =>
        cases hb : makeBody { p with set := p.set || tag' == 17 } (childrenOf u w) w with
        | none => cases w <;> simp_all [makeValue, universalType]
        | some body =>
          rw [makeValue_eq hu hc hb, hn, if_neg (by simp)] at h
          cases h
          exact ⟨n, k, tag', body, rfl, hc, hb, rfl⟩
  cases w with
  | iface w => exact absurd rfl (hi w)
  | nilIface => rw [makeField] at h; cases h
  | _ => exact key h

/-- The tag of a tagged type, under other names and constraints. -/
theorem tagged_enc {g : Tag DefinedValue} {t : MTy} {kind : Int} {b : Bool} {x : AsnVal} {tag : AsnTag} {k : Bool} {c : Bytes}
    (h : Enc strict l d (.tagged g t kind b) x tag k c) : ∃ n : Nat, g.classNumber = .number n ∧ tag = ⟨classOf g.cls, n⟩ := by
  cases h with
  | explicit cls n => exact ⟨n, rfl, rfl⟩
  | implicit cls n => exact ⟨n, rfl, rfl⟩

/-- The class that the parameters of a field tell. -/
def fieldClass (p : FieldParams) : Nat := if p.application then 1 else if p.isPrivate then 3 else 2

theorem fieldClass_lt (p : FieldParams) : fieldClass p < 4 := by unfold fieldClass; split <;> (try split) <;> omega

theorem tagged_field {p : FieldParams} {tag : Nat} {k : Bool} {body : Bytes} {m : Int} (hp : p.tag = some m) (hm : 0 ≤ m)
    (hl : (addTags p tag k body).length ≤ maxLength) : ∃ k' c, Encoding ⟨fieldClass p, m.toNat⟩ k' c (addTags p tag k body) := by
  unfold addTags at hl ⊢
  simp only [hp] at hl ⊢
  obtain ⟨m, rfl⟩ := Int.eq_ofNat_of_zero_le hm
  have hc := fieldClass_lt p
  unfold fieldClass at hc ⊢
  split at hl
  · next he =>
    rw [if_pos he]
    rw [List.length_append] at hl
    exact ⟨_, _, header_spec _ m true _ hc (by omega)⟩
  · next he =>
    rw [if_neg he]
    rw [List.length_append] at hl
    exact ⟨_, _, header_spec _ m k _ hc (by omega)⟩

theorem untagged_field {p : FieldParams} {tag : Nat} {k : Bool} {body : Bytes} (hp : p.tag = none)
    (hl : (addTags p tag k body).length ≤ maxLength) : Encoding ⟨0, tag⟩ k body (addTags p tag k body) := by
  unfold addTags at hl ⊢
  simp only [hp] at hl ⊢
  rw [List.length_append] at hl
  exact header_spec 0 tag k body (by omega) (by omega)

end Asn1go.Enco
