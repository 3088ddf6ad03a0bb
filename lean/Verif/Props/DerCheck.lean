import Verif.Props.ReadValue
import Verif.Props.Again

/-! Octets are DER exactly if they are written again as they were read: C102. -/

namespace Asn1go.Props

open Spec CG Enco Deco

/-! ### C102: what is written again as it was read -/

/-- Octets from which a value is read are those that are written for it exactly if they are the encoding by DER of what it stands for. -/
def C102_statement : Prop := ∀ (u : Casing) (fuel : Nat) (p : GenParams) (m : Module) (f : GoFile), generateFile u fuel p m = some (.ok f) →
  NamesOk u m.moduleBody.assignmentList → ∀ a, Encodable true .none m.moduleBody.assignmentList m.tagDefault p.integerRepr a →
    ∀ b v rest, Unmarshals f u (.ident (goifyName u a)) (b ++ rest) v rest → (b ++ rest).length < 1000000000000000000 → ∀ bs, marshal u v = some bs →
    bs.length ≤ 9223372036854775807 →
    (bs = b ↔ ∃ x, Stands true u m.moduleBody.assignmentList m.tagDefault p.integerRepr f (.ref a) v x ∧ Encodes true m.moduleBody.assignmentList m.tagDefault (.ref a) x b)

/-- It is so, and something is written, if strings have only characters of their types and bits with names no zeros at the end. -/
theorem C102_der_partial (u : Casing) (fuel : Nat) (p : GenParams) (m : Module) (f : GoFile) (h : generateFile u fuel p m = some (.ok f))
    (hn : NamesOk u m.moduleBody.assignmentList) (a : Str) (ha : Encodable true .none m.moduleBody.assignmentList m.tagDefault p.integerRepr a) (b : Bytes)
    (v : GoVal) (rest : Bytes) (hr : Unmarshals f u (.ident (goifyName u a)) (b ++ rest) v rest) (hl : (b ++ rest).length < 1000000000000000000)
    (hp : Proper m.moduleBody.assignmentList (.ref a) v) :
    ∃ bs, marshal u v = some bs ∧ (bs.length ≤ 9223372036854775807 → (bs = b ↔
      ∃ x, Stands true u m.moduleBody.assignmentList m.tagDefault p.integerRepr f (.ref a) v x ∧ Encodes true m.moduleBody.assignmentList m.tagDefault (.ref a) x b)) := by
  have hty := C82_typed u f (generated_predeclared h hn) _ _ _ _ hr hl
  obtain ⟨x, hx⟩ := (C101_exact u fuel p m f h hn a ha _ v rest hr hl).2 hp
  obtain ⟨bs, h1, h2⟩ := C76_der_partial u fuel p m f h hn .none a ha v x hty hx
  refine ⟨bs, h1, fun h3 => ⟨?_, ?_⟩⟩
  · rintro rfl
    exact ⟨x, hx, h2 h3⟩
  · rintro ⟨x', hx', he⟩
    obtain ⟨bs', h4, h5⟩ := C76_der_partial u fuel p m f h hn .none a ha v x' hty hx'
    cases h1.symm.trans h4
    exact C84_der_unique _ _ _ _ _ _ _ (encodable_named h hn rfl ha x') (.refl _ _) (h5 h3) he

/-- Without such a condition, octets that are DER are written again as they were read. -/
theorem C102_kept (u : Casing) (fuel : Nat) (p : GenParams) (m : Module) (f : GoFile) (h : generateFile u fuel p m = some (.ok f))
    (hn : NamesOk u m.moduleBody.assignmentList) (a : Str) (ha : Encodable true .none m.moduleBody.assignmentList m.tagDefault p.integerRepr a) (b : Bytes)
    (v : GoVal) (rest : Bytes) (hr : Unmarshals f u (.ident (goifyName u a)) (b ++ rest) v rest) (hl : (b ++ rest).length < 1000000000000000000) (x : AsnVal)
    (hx : Stands true u m.moduleBody.assignmentList m.tagDefault p.integerRepr f (.ref a) v x) (he : Encodes true m.moduleBody.assignmentList m.tagDefault (.ref a) x b) :
    ∃ bs, marshal u v = some bs ∧ (bs.length ≤ 9223372036854775807 → bs = b) := by
  obtain ⟨bs, h1, h2⟩ := C102_der_partial u fuel p m f h hn a ha b v rest hr hl ((C101_exact u fuel p m f h hn a ha _ v rest hr hl).1 ⟨x, hx⟩)
  exact ⟨bs, h1, fun h3 => (h2 h3).2 ⟨x, hx, he⟩⟩

/-- What is written for what was read, from any octets, is settled: it is read to its end, and for what is read from it the same is written. -/
theorem C102_settles_partial (u : Casing) (fuel : Nat) (p : GenParams) (m : Module) (f : GoFile) (h : generateFile u fuel p m = some (.ok f))
    (hn : NamesOk u m.moduleBody.assignmentList) (hv : NoValName m.moduleBody.assignmentList)
    (hzero : ∀ a t, .type a t ∈ m.moduleBody.assignmentList → OptionalsZero m.moduleBody.assignmentList t)
    (hread : ∀ a t, .type a t ∈ m.moduleBody.assignmentList → Readable m.moduleBody.assignmentList m.tagDefault t) (a : Str)
    (ha : Encodable true .none m.moduleBody.assignmentList m.tagDefault p.integerRepr a) (b : Bytes) (v : GoVal) (rest : Bytes)
    (hr : Unmarshals f u (.ident (goifyName u a)) b v rest) (hl : b.length < 1000000000000000000) (hp : Proper m.moduleBody.assignmentList (.ref a) v) :
    ∃ bs, marshal u v = some bs ∧ (bs.length < 2147483648 → ∀ rest', (bs ++ rest').length < 1000000000000000000 →
      (∃ v', Unmarshals f u (.ident (goifyName u a)) (bs ++ rest') v' rest') ∧
      ∀ v' rest'', Unmarshals f u (.ident (goifyName u a)) (bs ++ rest') v' rest'' →
        rest'' = rest' ∧ ∃ bs', marshal u v' = some bs' ∧ (bs'.length ≤ 9223372036854775807 → bs' = bs)) := by
  have hty := C82_typed u f (generated_predeclared h hn) _ _ _ _ hr hl
  obtain ⟨x, bs, h1, h2, h3, -⟩ := C101_again_partial u fuel p m f h hn hzero hread a ha b v rest hr hl hp
  refine ⟨bs, h2, fun h4 rest' h5 => ?_⟩
  obtain ⟨s, h6, h7⟩ := id ha
  obtain ⟨ht, -, hfit, hsm⟩ := told_assigned (context h hn h7) h6 hty h1
  exact C84_again_partial u fuel p m f h hn hv hzero hread .none none_limited a ha x (by simp [Open.none]) bs (h3 (by omega))
    ⟨hsm ((reads_narrow hr).resolve_right fun h => h.1 rfl), hfit⟩ ht (by simp [Open.none]) h4 rest' h5

/-! ### Cases -/

/-- Octets with a component that the type does not have are not DER; those written for what was read are settled. -/
theorem C102_unknown : (∀ x, Stands true asciiCasing twoVersions TAGS_IMPLICIT (c! "int64") twoFile (.ref (c! "B")) knownValue x →
      ¬ Encodes true twoVersions TAGS_IMPLICIT (.ref (c! "B")) x unknownOctets) ∧
    ∀ v rest, Unmarshals twoFile asciiCasing (.ident (c! "B")) [48, 6, 1, 1, 255, 4, 1, 7] v rest → rest = [] ∧
      ∃ bs, marshal asciiCasing v = some bs ∧ (bs.length ≤ 9223372036854775807 → bs = [48, 6, 1, 1, 255, 4, 1, 7]) := by
  have h4 : marshal asciiCasing knownValue = some [48, 6, 1, 1, 255, 4, 1, 7] := by decide +kernel
  have hp : Proper twoVersions (.ref (c! "B")) knownValue := certain_proper two_certain fun t' hi => by cases hi; trivial
  constructor
  · intro x hx he
    obtain ⟨bs, h1, h2⟩ := C102_kept asciiCasing 20 int64Params (moduleOf TAGS_IMPLICIT twoVersions) twoFile two_file two_names (c! "B") (two_encodable true .none) unknownOctets
      knownValue [] unknown_reads (by decide) x hx he
    cases h1.symm.trans h4
    exact absurd (h2 (by decide)) (by decide)
  · obtain ⟨bs, h1, h2⟩ := C102_settles_partial asciiCasing 20 int64Params (moduleOf TAGS_IMPLICIT twoVersions) twoFile two_file two_names two_valName two_zero two_readable (c! "B")
      (two_encodable true .none) unknownOctets knownValue [] unknown_reads (by decide) hp
    cases h1.symm.trans h4
    exact (h2 (by decide) [] (by decide)).2

/-- Bits with names and zeros at the end are not DER, but are written again as they were read. -/
theorem C102_false : ¬ C102_statement := by
  intro hst
  obtain ⟨f, v, h1, h2, h3, h4, h5, h6⟩ := C101_bits
  obtain ⟨x, hx, -⟩ := (hst asciiCasing 20 int64Params _ f h1 h2 (c! "A") h3 [3, 2, 7, 0] v [] h4 (by decide) _ h5 (by decide)).1 rfl
  exact h6 x hx

end Asn1go.Props
