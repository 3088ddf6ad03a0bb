import Verif.Proofs.Decoding.Octets2

/-! encoding/asn1 finds elements by their tags. -/

namespace Asn1go.Deco

open Asn1go Spec Enco

/-- With the parameters, a type with the universal tag `tag` is read as one with `ut`, be it from the tag or from the parameters. -/
structure WireOk (p : FieldParams) (tag ut : Nat) : Prop where
  universal : ∀ k n, wireTag p tag ⟨0, ut, k, n⟩ = ut
  other : ∀ h : Header, h.cls ≠ 0 → wireTag p tag h = ut

theorem take_contents (c rest : Bytes) : (c ++ rest).take c.length = c ∧ (c ++ rest).drop c.length = rest := by simp

theorem found_plain {p : FieldParams} {tag ut : Nat} {k : Bool} {c en : Bytes} (hw : WireOk p tag ut) (ht : p.tag = none) (he : p.explicit = false)
    (h : Encoding ⟨0, ut⟩ k c en) (hut : ut ≤ 2147483647) (hl : c.length < 2147483648) (rest : Bytes) :
    findElement p tag k (en ++ rest) = .element ut c rest := by
  rw [findElement, if_neg (by simp [encoding_ne h]), parse_header h (by simp) hut hl rest]
  simp only [he, Bool.false_eq_true, if_false]
  rw [findInner, hw.universal, ht]
  simp only
  rw [if_neg (by simp), if_neg (by simp), (take_contents c rest).1, (take_contents c rest).2]

theorem found_implicit {p : FieldParams} {tag ut n cls : Nat} {k : Bool} {c en : Bytes} (hw : WireOk p tag ut) (ht : p.tag = some (n : Int))
    (he : p.explicit = false) (hc : (if p.isPrivate then 3 else if p.application then 1 else 2) = cls)
    (h : Encoding ⟨cls, n⟩ k c en) (hn : n ≤ 2147483647) (hl : c.length < 2147483648) (rest : Bytes) :
    findElement p tag k (en ++ rest) = .element ut c rest := by
  have hc0 : cls ≠ 0 ∧ cls < 4 := by subst hc; split <;> [skip; split] <;> simp
  rw [findElement, if_neg (by simp [encoding_ne h]), parse_header h hc0.2 hn hl rest]
  simp only [he, Bool.false_eq_true, if_false]
  rw [findInner, hw.other _ hc0.1, ht]
  simp only [he, Bool.false_eq_true, if_false, hc]
  rw [if_neg (by simp), if_neg (by simp), (take_contents c rest).1, (take_contents c rest).2]

theorem found_explicit {p : FieldParams} {tag ut n cls : Nat} {k : Bool} {c inner en : Bytes} (hw : WireOk p tag ut) (ht : p.tag = some (n : Int))
    (he : p.explicit = true) (hc : (if p.application then 1 else 2) = cls) (h : Encoding ⟨0, ut⟩ k c inner) (h' : Encoding ⟨cls, n⟩ true inner en)
    (hn : n ≤ 2147483647) (hut : ut ≤ 2147483647) (hl : inner.length < 2147483648) (rest : Bytes) :
    findElement p tag k (en ++ rest) = .element ut c rest := by
  have hc0 : cls < 4 := by subst hc; split <;> simp
  have hi := encoding_ne h
  have hlen := encoding_length h
  rw [findElement, if_neg (by simp [encoding_ne h']), parse_header h' hc0 hn hl rest]
  simp only [he, if_true]
  rw [if_neg (by simp [hi]), if_pos ⟨hc.symm, ht, .inr trivial⟩, if_neg (by simp [hi]), parse_header h (by simp) hut (by omega) rest]
  simp only
  rw [findInner, hw.universal, ht]
  simp only [he, if_true]
  rw [if_neg (by simp), if_neg (by simp), (take_contents c rest).1, (take_contents c rest).2]

/-- Elements of raw values. -/
theorem found_raw {p : FieldParams} {g : AsnTag} {k : Bool} {c en : Bytes} (ht : p.tag = none) (he : p.explicit = false) (h : Encoding g k c en)
    (hg : g.cls < 4) (hn : g.number ≤ 2147483647) (hl : c.length < 2147483648) (rest : Bytes) :
    findRaw p (en ++ rest) = .element ⟨g.cls, g.number, k, c.length⟩ c rest := by
  rw [findRaw, if_neg (by simp [encoding_ne h]), parse_header h hg hn hl rest]
  simp only [he, Bool.false_eq_true, if_false, ht]
  rw [takeRaw, if_neg (by simp), (take_contents c rest).1, (take_contents c rest).2]

/-! ### No such element -/

theorem missing_raw_nil (p : FieldParams) : findRaw p [] = .missing := by rw [findRaw, if_pos rfl]

theorem missing_nil (p : FieldParams) (tag : Nat) (k : Bool) : findElement p tag k [] = .missing := by rw [findElement, if_pos rfl]

theorem missing_plain {p : FieldParams} {tag : Nat} {k k' : Bool} {g : AsnTag} {c en rest : Bytes} (ht : p.tag = none) (he : p.explicit = false)
    (h : Encoding g k' c en) (hg : g.cls < 4) (hn : g.number ≤ 2147483647) (hl : c.length < 2147483648)
    (hne : ∀ x : Header, x.cls = 0 → g.cls = 0 → x.tag = g.number → wireTag p tag x ≠ g.number) : findElement p tag k (en ++ rest) = .missing := by
  rw [findElement, if_neg (by simp [encoding_ne h]), parse_header h hg hn hl rest]
  simp only [he, Bool.false_eq_true, if_false]
  rw [findInner, ht]
  simp only
  rw [if_pos]
  by_contra hc
  simp only [ne_eq, not_or, not_not] at hc
  refine hne ⟨g.cls, g.number, k', c.length⟩ hc.1 hc.1 rfl ?_
  have := hc.2.1
  norm_cast at this
  exact this.symm

theorem missing_implicit {p : FieldParams} {tag n cls : Nat} {k k' : Bool} {g : AsnTag} {c en rest : Bytes} (ht : p.tag = some (n : Int))
    (he : p.explicit = false) (hc : (if p.isPrivate then 3 else if p.application then 1 else 2) = cls) (h : Encoding g k' c en) (hg : g.cls < 4)
    (hn : g.number ≤ 2147483647) (hl : c.length < 2147483648) (hne : g ≠ ⟨cls, n⟩) : findElement p tag k (en ++ rest) = .missing := by
  rw [findElement, if_neg (by simp [encoding_ne h]), parse_header h hg hn hl rest]
  simp only [he, Bool.false_eq_true, if_false]
  rw [findInner, ht]
  simp only [he, Bool.false_eq_true, if_false, hc]
  rw [if_pos]
  by_contra hcon
  simp only [ne_eq, not_or, not_not] at hcon
  refine hne ?_
  have h1 := hcon.1
  have h2 := hcon.2.1
  norm_cast at h2
  cases g
  simp only at h1 h2
  rw [h1, h2]

theorem missing_explicit {p : FieldParams} {tag n cls : Nat} {k k' : Bool} {g : AsnTag} {c en rest : Bytes} (ht : p.tag = some (n : Int))
    (he : p.explicit = true) (hc : (if p.application then 1 else 2) = cls) (h : Encoding g k' c en) (hg : g.cls < 4)
    (hn : g.number ≤ 2147483647) (hl : c.length < 2147483648) (hne : g ≠ ⟨cls, n⟩) (hrest : c ++ rest ≠ []) :
    findElement p tag k (en ++ rest) = .missing := by
  rw [findElement, if_neg (by simp [encoding_ne h]), parse_header h hg hn hl rest]
  simp only [he, if_true]
  rw [if_neg hrest, if_neg]
  rintro ⟨h1, h2, -⟩
  rw [ht] at h2
  simp only [Option.some.injEq] at h2
  norm_cast at h2
  cases g
  simp only at h1 h2
  exact hne (by rw [h1, h2, hc])

end Asn1go.Deco
