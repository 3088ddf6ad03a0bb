import Verif.Proofs.Decoding.Unique

/-! Go types and Go values for the alternatives of CHOICE types. -/

namespace Asn1go.Deco

open Asn1go Spec CG Enco

variable {u : Casing} {l : List MAssignment} {d : Int} {r : Str} {f : GoFile} {strict : Bool} {op : Open} {s : Str → Prop}

theorem boxed_not_zero {v : GoVal} (h : v ≠ .nilIface) : v.boxed.isZero = false := by
  cases v <;> simp_all [GoVal.boxed, GoVal.isZero]

/-- Assigned types have a Go type. -/
theorem assigned_type (cx : Ctx u l d r f strict op s) {a : Str} {t : MTy} (ha : Assigned l a t) : ∃ e, GoTypeOf u l d r t e := by
  obtain ⟨dl, hdl, hsub⟩ := cx.decls
  obtain ⟨dc, v', hm, -, hty, -⟩ := decls_type hdl (assigned_mem ha)
  cases hty with
  | struct fs _ h => exact ⟨_, h⟩
  | «alias» e _ h _ => exact ⟨_, h⟩
  | set e _ h => exact ⟨_, h⟩

theorem noStruct_inside {t t' : MTy} (h : NoStruct l t) (hi : ∀ t'', Inside l t' t'' → Inside l t t'') : NoStruct l t' := fun a b =>
  ⟨fun hs => (h a b).1 (hi _ hs), fun hs => (h a b).2 (hi _ hs)⟩

/-- Types that are encoded as they should, without SEQUENCE and SET types, have a Go type. -/
theorem type_exists (cx : Ctx u l d r f strict op s) (hr : r = c! "int64" ∨ r = c! "big.Int") :
    ∀ (t : MTy), EncOk strict op l d r s .element t → NoStruct l t → ∃ e, GoTypeOf u l d r t e
  | .boolean, _, _ => ⟨_, .boolean⟩
  | .integer _, _, _ => hr.elim (fun h => ⟨_, .int64 _ h⟩) fun h => ⟨_, .bigInt _ h⟩
  | .enumerated _ _, _, _ => ⟨_, .enumerated _ _⟩
  | .octetString, _, _ => ⟨_, .octetString⟩
  | .bitString _, _, _ => ⟨_, .bitString _⟩
  | .objectIdentifier, _, _ => ⟨_, .objectIdentifier⟩
  | .restrictedString _, _, _ => ⟨_, .restrictedString _⟩
  | .sequence a b, _, hn => absurd (.here _) (hn a b).1
  | .set a b, _, hn => absurd (.here _) (hn a b).2
  | .sequenceOf t, h, hn => by
    obtain ⟨e, he⟩ := type_exists cx hr t (by simpa [EncOk] using h) (noStruct_inside hn fun _ hi => .sequenceOf _ _ hi)
    exact ⟨_, .sequenceOf _ _ he⟩
  | .setOf t, h, hn => by simp [EncOk] at h
  | .constrained t _, h, hn => by
    obtain ⟨e, he⟩ := type_exists cx hr t (by simpa [EncOk] using h) (noStruct_inside hn fun _ hi => .constrained _ _ _ hi)
    exact ⟨_, .constrained _ _ _ he⟩
  | .ref a, h, _ => by
    rw [EncOk] at h
    have ha : s a := h.elim id fun h => by simp at h
    obtain ⟨t, h1, -⟩ := cx.closed a ha
    obtain ⟨e, h2⟩ := assigned_type cx h1
    exact ref_type h1 h2
  | .choice [.mk n t] _, h, hn => by
    by_cases hnt : AltTagged l t
    · exact ⟨_, .rawChoice _ _ ⟨n, t, by simp, hnt⟩⟩
    have h1 : EncOk strict op l d r s .element t := only_ok h hnt
    obtain ⟨e, he⟩ := type_exists cx hr t h1 (noStruct_inside hn fun _ hi => .choice _ _ _ _ hnt hi)
    exact ⟨_, .onlyChoice _ _ _ _ hnt he⟩
  | .choice [] _, h, _ => by simp [EncOk, EncOkOnly, SomeTagged] at h
  | .choice (a :: b :: c) _, _, _ => by
    by_cases hs : SomeTagged l (a :: b :: c)
    · exact ⟨_, .rawChoice _ _ hs⟩
    · exact ⟨_, .choice _ _ hs (by simp)⟩
  | .tagged .., h, _ => by simp [EncOk] at h
  | .real, h, _ => by simp [EncOk] at h
  | .null, h, _ => by simp [EncOk] at h
  | .nil, h, _ => by simp [EncOk] at h
  | .named _, h, _ => by simp [EncOk] at h
  | .any _, h, _ => by simp [EncOk] at h
  | .characterString, h, _ => by simp [EncOk] at h

end Asn1go.Deco
