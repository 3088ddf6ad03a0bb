import Verif.Props.Decoding
import Verif.Proofs.Decoding.Canon2

/-! Properties of what encoding/asn1 writes for what it has read: C84. -/

namespace Asn1go.Props

open Spec CG Enco Deco

/-! ### C84: what is read is written as it was -/

/-- For what encoding/asn1 reads from the encoding by DER of a value, it writes that encoding again. -/
def C84_statement : Prop := ∀ (u : Casing) (fuel : Nat) (p : GenParams) (m : Module) (f : GoFile), generateFile u fuel p m = some (.ok f) →
  NamesOk u m.moduleBody.assignmentList → ∀ a x bs v, Encodes true m.moduleBody.assignmentList m.tagDefault (.ref a) x bs →
    bs.length < 2147483648 → Unmarshals f u (.ident (goifyName u a)) bs v [] → marshal u v = some bs

/-- DER has one encoding for each value: values that differ at most in the order of elements of SET OF and in components that have
their DEFAULT value have the same encoding. The alternatives of CHOICE types must have names of their own. -/
theorem C84_der_unique (l : List MAssignment) (d : Int) (t : MTy) (x x' : AsnVal) (bs bs' : Bytes) (hc : ChoicesNamed l t x) (hs : Same l t x x')
    (h : Encodes true l d t x bs) (h' : Encodes true l d t x' bs') : bs = bs' := by
  obtain ⟨tag, k, c, h1, h2⟩ := h
  obtain ⟨tag', k', c', h3, h4⟩ := h'
  obtain ⟨rfl, rfl, rfl⟩ := der_unique h1 _ _ _ _ hc hs h3
  exact encoding_unique h2 h4

/-- For types for which no known defect applies, if components that can be absent can be told from those that follow, numbers fit, and
no OPTIONAL component is present with the zero value, encoding/asn1 reads from the encoding by DER, whatever follows it, to its end, and
writes for the value read the same octets. The alternatives of CHOICE types held in `asn1.RawValue`s must have names of their own. The limit on the length is that of Go values. -/
theorem C84_again_partial (u : Casing) (fuel : Nat) (p : GenParams) (m : Module) (f : GoFile) (h : generateFile u fuel p m = some (.ok f))
    (hn : NamesOk u m.moduleBody.assignmentList) (hv : NoValName m.moduleBody.assignmentList)
    (hzero : ∀ a t, .type a t ∈ m.moduleBody.assignmentList → OptionalsZero m.moduleBody.assignmentList t)
    (hread : ∀ a t, .type a t ∈ m.moduleBody.assignmentList → Readable m.moduleBody.assignmentList m.tagDefault t)
    (op : Open) (hlim : op.Limited) (a : Str) (ha : Encodable true op m.moduleBody.assignmentList m.tagDefault p.integerRepr a) (x : AsnVal)
    (hif : op.iface = true → InterfacesRead m.moduleBody.assignmentList p.integerRepr (.ref a) x)
    (bs : Bytes)
    (hx : Encodes true m.moduleBody.assignmentList m.tagDefault (.ref a) x bs) (hf : ReadFits m.moduleBody.assignmentList p.integerRepr (.ref a) x)
    (ht : OptionalsTold m.moduleBody.assignmentList p.integerRepr (.ref a) x)
    (hc : op.raw = true → ChoicesNamed m.moduleBody.assignmentList (.ref a) x) (hl : bs.length < 2147483648) (rest : Bytes)
    (hr : (bs ++ rest).length < 1000000000000000000) :
    (∃ v, Unmarshals f u (.ident (goifyName u a)) (bs ++ rest) v rest) ∧
    ∀ v rest', Unmarshals f u (.ident (goifyName u a)) (bs ++ rest) v rest' →
      rest' = rest ∧ ∃ bs', marshal u v = some bs' ∧ (bs'.length ≤ 9223372036854775807 → bs' = bs) := by
  obtain ⟨v, x', h1, h2, h3⟩ := C82_read_partial u fuel p m f h hn hzero hread op hlim a ha x hif bs hx hf ht hl rest
  refine ⟨⟨v, h1⟩, fun v' rest' h4 => ?_⟩
  obtain ⟨rfl, rfl⟩ := C82_unique u fuel p m f h hn hv _ _ _ _ _ _ h1 h4
  obtain ⟨bs', h5, h6⟩ := C76_der_partial u fuel p m f h hn op a ha v x' (C82_typed u f (generated_predeclared h hn) _ _ v rest h1 hr) h2
  refine ⟨rfl, bs', h5, fun h7 => ?_⟩
  have hc' : ChoicesNamed m.moduleBody.assignmentList (.ref a) x := by
    cases hop : op.raw with
    | true => exact hc hop
    | false => exact encodable_named h hn hop ha x
  exact (C84_der_unique _ _ _ _ _ _ _ hc' h3 hx (h6 h7)).symm

theorem packet_valName : NoValName packet := by
  intro r hr
  have : r ∈ [c! "A", c! "B"] := hr
  simp only [List.mem_cons, List.not_mem_nil, or_false] at this
  rcases this with rfl | rfl <;> decide

/-- A module with a DEFAULT, an OPTIONAL and a SET OF meets the conditions. -/
theorem C84_packet (rest : Bytes) (hr : rest.length < 1000000000000) : ∀ v rest',
    Unmarshals packetFile asciiCasing (.ident (c! "A")) ([48, 19, 160, 3, 2, 1, 5, 22, 1, 120, 49, 6, 1, 1, 0, 1, 1, 255, 4, 1, 7] ++ rest) v rest' →
    rest' = rest ∧ v = packetRead ∧ marshal asciiCasing v = some [48, 19, 160, 3, 2, 1, 5, 22, 1, 120, 49, 6, 1, 1, 0, 1, 1, 255, 4, 1, 7] := by
  have h1 : Encodes true packet TAGS_IMPLICIT (.ref (c! "A")) packetAbstract [48, 19, 160, 3, 2, 1, 5, 22, 1, 120, 49, 6, 1, 1, 0, 1, 1, 255, 4, 1, 7] := by
    obtain ⟨bs, h2, h3⟩ := C76_der_partial asciiCasing 20 int64Params _ packetFile packet_file packet_names .none (c! "A") (packet_encodable true .none) packetValue
      packetAbstract packet_typed (packet_means true)
    cases h2.symm.trans C76_packet.1
    exact h3 (by decide)
  obtain ⟨s, h3, h4⟩ := packet_encodable true .none
  have ht : OptionalsTold packet (c! "int64") (.ref (c! "A")) packetAbstract :=
    (told_assigned (context packet_file packet_names h4) h3 packet_typed (packet_means true)).1
  intro v rest' h5
  obtain ⟨-, h6⟩ := C84_again_partial asciiCasing 20 int64Params _ packetFile packet_file packet_names packet_valName packet_zero packet_readable .none none_limited (c! "A")
    (packet_encodable true .none) packetAbstract (by simp [Open.none]) _ h1 packet_readFits ht (by simp [Open.none]) (by decide) rest (by simp; omega)
  obtain ⟨rfl, bs', h7, h8⟩ := h6 v rest' h5
  obtain ⟨rfl, -⟩ := C82_unique asciiCasing 20 int64Params _ packetFile packet_file packet_names packet_valName _ _ _ _ _ _ h5 (packet_reads rest')
  exact ⟨rfl, rfl, by decide +kernel⟩

/-- In `A ::= SEQUENCE { a BOOLEAN OPTIONAL }` the component is left out when the value FALSE that was read is written. -/
theorem C84_false : ¬ C84_statement := by
  intro hst
  have hu : ∀ e, Underlies (fileA (.struct e) false) (.ident (c! "A")) (c! "A") (.struct e) := fun e => .defined _ _ _ _ declares_one (.struct _) trivial
  have h := hst asciiCasing 20 int64Params (moduleOf TAGS_IMPLICIT [.type (c! "A") (.sequence [optionalBoolean] [])])
    (fileA (.struct [.mk (c! "A") (.ident (c! "bool")) (some (c! "`asn1:\"optional\"`"))]) false) rfl
    (one_names (by intro nums h; simp [core_iff, removeWrapperTypes] at h) (one_member (by rintro a b (h | h) <;> cases h))) (c! "A") (.record [some (.boolean false)]) [48, 3, 1, 1, 0]
    (.struct [.mk (c! "A") (some (c! "`asn1:\"optional\"`")) (.bool false)])
    ⟨⟨0, 16⟩, true, [1, 1, 0], .ref _ _ _ _ _ _ (one_assigned _) (.sequence _ _ _ [(⟨0, 1⟩, [1, 1, 0])]
      (.present ⟨c! "a", .boolean, true, none⟩ (.boolean false) ⟨0, 1⟩ false [0] [1, 1, 0] [] [] [] (.boolean _) ⟨[1], [1], rfl, rfl, rfl⟩ (by simp) .nil)),
      ⟨[48], [3], rfl, rfl, rfl⟩⟩ (by decide)
    (.element _ _ _ _ _ 16 true 16 [1, 1, 0] [] _ (hu _) rfl (by decide) (.struct _ _ _ _ [] _ (.cons _ _ _ _ _ [] _ _ _ (by decide)
      (.element _ _ _ _ _ 1 false 1 [0] [] (.bool false) (.bool (by decide)) rfl (by decide +kernel) (.simple _ _ _ _ _ (.bool _ _ _ (by decide)))) (.nil _))))
  have h2 : marshal asciiCasing (.struct [.mk (c! "A") (some (c! "`asn1:\"optional\"`")) (.bool false)]) = some [48, 0] := by decide +kernel
  cases h2.symm.trans h

end Asn1go.Props
