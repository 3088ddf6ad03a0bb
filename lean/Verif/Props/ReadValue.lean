import Verif.Props.Versions
import Verif.Proofs.Decoding.Stand

/-! Whatever is read is a value of the type: C101. -/

namespace Asn1go.Props

open Spec CG Enco Deco

/-! ### C101: whatever is read is a value of the type -/

/-- Whatever encoding/asn1 reads into a generated type, from any octets, stands for a value of the type, if no known defect of writing applies
to the type and CHOICE types have one alternative. -/
def C101_statement : Prop := ∀ (u : Casing) (fuel : Nat) (p : GenParams) (m : Module) (f : GoFile), generateFile u fuel p m = some (.ok f) →
  NamesOk u m.moduleBody.assignmentList → ∀ a, Encodable true .none m.moduleBody.assignmentList m.tagDefault p.integerRepr a →
    ∀ b v rest, Unmarshals f u (.ident (goifyName u a)) b v rest → b.length < 1000000000000000000 →
    ∃ x, Stands true u m.moduleBody.assignmentList m.tagDefault p.integerRepr f (.ref a) v x

/-- It is so exactly if the strings that are read have only characters of their types, and bits with names no zeros at the end; encoding/asn1
checks neither. -/
theorem C101_exact (u : Casing) (fuel : Nat) (p : GenParams) (m : Module) (f : GoFile) (h : generateFile u fuel p m = some (.ok f))
    (hn : NamesOk u m.moduleBody.assignmentList) (a : Str) (ha : Encodable true .none m.moduleBody.assignmentList m.tagDefault p.integerRepr a) (b : Bytes)
    (v : GoVal) (rest : Bytes) (hr : Unmarshals f u (.ident (goifyName u a)) b v rest) (hl : b.length < 1000000000000000000) :
    (∃ x, Stands true u m.moduleBody.assignmentList m.tagDefault p.integerRepr f (.ref a) v x) ↔ Proper m.moduleBody.assignmentList (.ref a) v := by
  refine ⟨fun ⟨x, hx⟩ => means_proper hx, fun hp => ?_⟩
  obtain ⟨s, h1, h2⟩ := ha
  have cx := context h hn h2
  have hty := C82_typed u f (generated_predeclared h hn) _ _ _ _ hr hl
  have hs : Sound v := (reads_sound hr).resolve_right fun h => by simp at h
  obtain ⟨t, h3, h4⟩ := h2 a h1
  obtain ⟨e, h5, h6, h7⟩ := typed_assigned cx h3 hty
  have hp := proper_ref h3 hp
  by_cases hm : MarksSet m.moduleBody.assignmentList t
  · obtain ⟨v0, n, h8, rfl⟩ := h6 ⟨rfl, hm⟩
    obtain ⟨x, hx⟩ := (stood cx h8 (sound_named hs)).1 _ _ h4 (proper_named hp) h5
    exact ⟨x, .ref _ _ _ _ h3 (means_named hx _)⟩
  · obtain ⟨x, hx⟩ := (stood cx (h7 fun h => hm h.2) hs).1 _ _ h4 hp h5
    exact ⟨x, .ref _ _ _ _ h3 hx⟩

/-- So it is if all strings are UTF8Strings and bits have no names. -/
theorem C101_value_partial (u : Casing) (fuel : Nat) (p : GenParams) (m : Module) (f : GoFile) (h : generateFile u fuel p m = some (.ok f))
    (hn : NamesOk u m.moduleBody.assignmentList) (hcert : ∀ a t, .type a t ∈ m.moduleBody.assignmentList → AllCertain m.moduleBody.assignmentList t) (a : Str)
    (ha : Encodable true .none m.moduleBody.assignmentList m.tagDefault p.integerRepr a) (b : Bytes) (v : GoVal) (rest : Bytes)
    (hr : Unmarshals f u (.ident (goifyName u a)) b v rest) (hl : b.length < 1000000000000000000) :
    ∃ x, Stands true u m.moduleBody.assignmentList m.tagDefault p.integerRepr f (.ref a) v x :=
  (C101_exact u fuel p m f h hn a ha b v rest hr hl).2 (certain_proper hcert fun t' hi => by cases hi; trivial)

/-- Then what is read, from any octets, is written as DER demands; and if components that can be absent can be told from those that follow, that
is read again, as the same value. -/
theorem C101_again_partial (u : Casing) (fuel : Nat) (p : GenParams) (m : Module) (f : GoFile) (h : generateFile u fuel p m = some (.ok f))
    (hn : NamesOk u m.moduleBody.assignmentList)
    (hzero : ∀ a t, .type a t ∈ m.moduleBody.assignmentList → OptionalsZero m.moduleBody.assignmentList t)
    (hread : ∀ a t, .type a t ∈ m.moduleBody.assignmentList → Readable m.moduleBody.assignmentList m.tagDefault t) (a : Str)
    (ha : Encodable true .none m.moduleBody.assignmentList m.tagDefault p.integerRepr a) (b : Bytes) (v : GoVal) (rest : Bytes)
    (hr : Unmarshals f u (.ident (goifyName u a)) b v rest) (hl : b.length < 1000000000000000000) (hp : Proper m.moduleBody.assignmentList (.ref a) v) :
    ∃ x bs, Stands true u m.moduleBody.assignmentList m.tagDefault p.integerRepr f (.ref a) v x ∧ marshal u v = some bs ∧
      (bs.length ≤ 9223372036854775807 → Encodes true m.moduleBody.assignmentList m.tagDefault (.ref a) x bs) ∧
      (bs.length < 2147483648 → ∀ rest', ∃ v' x', Unmarshals f u (.ident (goifyName u a)) (bs ++ rest') v' rest' ∧
        Stands true u m.moduleBody.assignmentList m.tagDefault p.integerRepr f (.ref a) v' x' ∧ Same m.moduleBody.assignmentList (.ref a) x x') := by
  obtain ⟨x, hx⟩ := (C101_exact u fuel p m f h hn a ha b v rest hr hl).2 hp
  have hty := C82_typed u f (generated_predeclared h hn) _ _ _ _ hr hl
  have hsm : ReadSmall m.moduleBody.assignmentList (.ref a) x := by
    obtain ⟨s, h1, h2⟩ := ha
    exact (told_assigned (context h hn h2) h1 hty hx).2.2.2 ((reads_narrow hr).resolve_right fun h => h.1 rfl)
  obtain ⟨bs, h1, h2⟩ := C76_der_partial u fuel p m f h hn .none a ha v x hty hx
  obtain ⟨bs', h3, h4⟩ := C83_round_partial u fuel p m f h hn hzero hread .none none_limited a ha v x (by simp [Open.none]) hty hx hsm
  cases h1.symm.trans h3
  exact ⟨x, bs, hx, h1, h2, h4⟩

/-! ### A case -/

/-- Octets for the type `B` of `twoVersions` with a component that it does not have. -/
def unknownOctets : Bytes := [48, 9, 1, 1, 255, 4, 1, 7, 2, 1, 5]

def knownValue : GoVal := .struct [.mk (c! "A") none (.bool true), .mk (c! "B") (some (c! "`asn1:\"optional\"`")) (.bytes (some [7]))]

theorem unknown_reads : Unmarshals twoFile asciiCasing (.ident (c! "B")) unknownOctets knownValue [] := by
  have hB : Declares twoFile ⟨c! "B", false, .struct [.mk (c! "A") (.ident (c! "bool")) none, .mk (c! "B") (.array (.ident (c! "byte"))) (some (c! "`asn1:\"optional\"`"))]⟩ :=
    ⟨_, by simp [twoFile], List.mem_singleton.2 rfl⟩
  refine .element _ _ _ _ _ 16 true 16 [1, 1, 255, 4, 1, 7, 2, 1, 5] [] _ (.defined _ _ _ _ hB (.struct _) trivial) rfl (by decide) (.struct _ _ _ _ [2, 1, 5] _ ?_)
  refine .cons _ _ _ _ _ [4, 1, 7, 2, 1, 5] _ _ _ (by decide)
    (.element _ _ _ _ _ 1 false 1 [255] _ _ (.bool (by decide)) rfl (by decide) (.simple _ _ _ _ _ (.bool _ _ _ (by decide)))) ?_
  exact .cons _ _ _ _ _ [2, 1, 5] _ _ _ (by decide)
    (.element _ _ _ _ _ 4 false 4 [7] _ _ (.bytes (by decide)) rfl (by decide) (.simple _ _ _ _ _ (.bytes _ _))) (.nil _)

theorem two_certain : ∀ a t, .type a t ∈ twoVersions → AllCertain twoVersions t := by
  intro n t hm t' hi
  have key : ∀ x, x ∈ members (flagMembers ++ []) ∨ x ∈ members (flagMembers ++ addedMembers) → x.type = .boolean ∨ x.type = .octetString := by
    intro x hx
    have : x ∈ [(⟨c! "a", .boolean, false, none⟩ : Member)] ∨ x ∈ [(⟨c! "a", .boolean, false, none⟩ : Member), ⟨c! "b", .octetString, true, none⟩] := hx
    simp only [List.mem_cons, List.not_mem_nil, or_false] at this
    rcases this with rfl | rfl | rfl <;> simp
  simp only [twoVersions, List.mem_cons, Assignment.type.injEq, List.not_mem_nil, or_false] at hm
  rcases hm with ⟨rfl, rfl⟩ | ⟨rfl, rfl⟩ <;> cases hi
  · trivial
  · rename_i x hx hi
    rcases key x (.inl hx) with h | h <;> rw [h] at hi <;> cases hi <;> trivial
  · trivial
  · rename_i x hx hi
    rcases key x (.inr hx) with h | h <;> rw [h] at hi <;> cases hi <;> trivial

/-- What is read from them is written as DER demands for what is known of them, which are other octets. -/
theorem C101_unknown : ∃ x, Stands true asciiCasing twoVersions TAGS_IMPLICIT (c! "int64") twoFile (.ref (c! "B")) knownValue x ∧
    marshal asciiCasing knownValue = some [48, 6, 1, 1, 255, 4, 1, 7] ∧ Encodes true twoVersions TAGS_IMPLICIT (.ref (c! "B")) x [48, 6, 1, 1, 255, 4, 1, 7] := by
  obtain ⟨x, bs, h1, h2, h3, -⟩ := C101_again_partial asciiCasing 20 int64Params (moduleOf TAGS_IMPLICIT twoVersions) twoFile two_file two_names two_zero
    two_readable (c! "B") (two_encodable true .none) unknownOctets knownValue [] unknown_reads (by decide)
    (certain_proper two_certain fun t' hi => by cases hi; trivial)
  have h4 : marshal asciiCasing knownValue = some [48, 6, 1, 1, 255, 4, 1, 7] := by decide +kernel
  cases h2.symm.trans h4
  exact ⟨x, h1, h4, h3 (by decide)⟩

/-! ### Read values that are none of the type -/

/-- For the module `A ::= t` something is read from the octets that stands for no value of the type, and is written as other octets. -/
def ForeignFor (t : MTy) (b b' : Bytes) : Prop :=
  ∃ f v, generateFile asciiCasing 20 int64Params (moduleOf TAGS_IMPLICIT [.type (c! "A") t]) = some (.ok f) ∧ NamesOk asciiCasing [.type (c! "A") t] ∧
    Encodable true .none [.type (c! "A") t] TAGS_IMPLICIT (c! "int64") (c! "A") ∧ Unmarshals f asciiCasing (.ident (c! "A")) b v [] ∧ marshal asciiCasing v = some b' ∧
    ∀ x, ¬ Stands true asciiCasing [.type (c! "A") t] TAGS_IMPLICIT (c! "int64") f (.ref (c! "A")) v x

theorem one_A (t : MTy) : Assigned [.type (c! "A") t] (c! "A") t := by simp [Assigned, Assignment.name]

/-- `A ::= PrintableString`: an IA5String with other characters is read, and written as a UTF8String. -/
theorem C101_string : ForeignFor (.restrictedString Tok.PrintableString) [22, 1, 64] [12, 1, 64] := by
  refine ⟨fileA (.ident (c! "string")) true, .str (c! "@"), rfl, one_names ?_ ?_, ⟨fun a => a = c! "A", rfl, ?_⟩, ?_, by decide, fun x h => ?_⟩
  · intro nums h; simp [core_iff, removeWrapperTypes] at h
  · rintro a b (h | h) <;> cases h
  · rintro b rfl
    exact ⟨_, one_A _, by simp [EncOk]⟩
  · exact .element _ _ _ _ _ 19 false 22 [64] [] _ (.alias _ _ _ _ declares_one (.string (by decide))) rfl (by decide)
      (.simple _ _ _ _ _ (.string _ _ _ (.ia5 (c! "@") (by decide))))
  · cases h with
    | ref _ t _ _ h1 h2 =>
      cases assigned_unique h1 (one_A _)
      generalize hk : Tok.PrintableString = kind at h2
      cases h2 with
      | string _ tag ok enc _ hs hok =>
        cases hs with
        | printable => exact absurd (hok '@' (by simp)) (by decide)
        | _ => exact absurd hk (by decide)

/-- One with characters of the type is read as a value, and written as a PrintableString. -/
theorem C101_proper : Unmarshals (fileA (.ident (c! "string")) true) asciiCasing (.ident (c! "A")) [22, 1, 65] (.str (c! "A")) [] ∧
    (∃ x, Stands true asciiCasing [.type (c! "A") (.restrictedString Tok.PrintableString)] TAGS_IMPLICIT (c! "int64") (fileA (.ident (c! "string")) true) (.ref (c! "A"))
      (.str (c! "A")) x) ∧ marshal asciiCasing (.str (c! "A")) = some [19, 1, 65] := by
  have hr : Unmarshals (fileA (.ident (c! "string")) true) asciiCasing (.ident (c! "A")) [22, 1, 65] (.str (c! "A")) [] :=
    .element _ _ _ _ _ 19 false 22 [65] [] _ (.alias _ _ _ _ declares_one (.string (by decide))) rfl (by decide) (.simple _ _ _ _ _ (.string _ _ _ (.ia5 (c! "A") (by decide))))
  refine ⟨hr, ?_, by decide⟩
  refine (C101_exact asciiCasing 20 int64Params (moduleOf TAGS_IMPLICIT [.type (c! "A") (.restrictedString Tok.PrintableString)]) (fileA (.ident (c! "string")) true) rfl
    (one_names ?_ ?_) (c! "A") ⟨fun a => a = c! "A", rfl, ?_⟩ [22, 1, 65] (.str (c! "A")) [] hr (by decide)).2 fun t' v' hp => ?_
  · intro nums h; simp [core_iff, removeWrapperTypes] at h
  · rintro a b (h | h) <;> cases h
  · rintro b rfl
    exact ⟨_, one_A _, by simp [EncOk]⟩
  · cases hp with
    | here => exact ⟨fun _ _ _ _ _ h => (by cases h), fun _ _ _ _ h => (by cases h)⟩
    | ref _ t _ _ _ h1 h2 =>
      cases assigned_unique h1 (one_A _)
      cases h2
      refine ⟨fun k tag ok enc q h3 h4 h5 => ?_, fun _ _ _ _ h => (by cases h)⟩
      cases h4
      simp only [Ty.restrictedString.injEq] at h3
      cases h5 with
      | printable => decide
      | _ => exact absurd h3 (by decide)

/-- `A ::= BIT STRING { b(0) }`: bits with zeros at the end are read, and written so. -/
theorem C101_bits : ForeignFor (.bitString [⟨c! "b", .number 0⟩]) [3, 2, 7, 0] [3, 2, 7, 0] := by
  refine ⟨⟨c! "My_Mod", [.imp (c! "encoding/asn1"), .type [⟨c! "A", true, .ident (c! "asn1.BitString")⟩]]⟩, .bits (some [0]) 1, rfl, one_names ?_ ?_, ⟨fun a => a = c! "A", rfl, ?_⟩, ?_, by decide, fun x h => ?_⟩
  · intro nums h; simp [core_iff, removeWrapperTypes] at h
  · rintro a b (h | h) <;> cases h
  · rintro b rfl
    exact ⟨_, one_A _, by simp [EncOk]⟩
  · exact .element _ _ _ _ _ 3 false 3 [7, 0] [] _ (.alias _ _ _ _ ⟨_, by simp, List.mem_singleton.2 rfl⟩ .bits) rfl (by decide) (.simple _ _ _ _ _ (.bits _ _ _ _ (by decide)))
  · cases h with
    | ref _ t _ _ h1 h2 =>
      cases assigned_unique h1 (one_A _)
      generalize hn : (1 : Int) = n at h2
      cases h2 with
      | bitString _ _ bits k h3 h4 h5 =>
        have hb : bits.length = 1 := by omega
        match bits, hb with
        | [y], _ =>
          have h6 : (some [(0 : UInt8)]).getD [] = [0] := rfl
          rw [h6] at h4
          have h7 : [(0 : UInt8)].flatMap octetBits = false :: List.replicate 7 false := by decide
          rw [h7] at h4
          simp only [List.singleton_append, List.cons.injEq] at h4
          exact h5 (by simp) (by simp [← h4.1])

theorem C101_false : ¬ C101_statement := by
  intro hst
  obtain ⟨f, v, h1, h2, h3, h4, -, h5⟩ := C101_string
  obtain ⟨x, hx⟩ := hst asciiCasing 20 int64Params _ f h1 h2 (c! "A") h3 _ v [] h4 (by decide)
  exact h5 x hx

end Asn1go.Props
