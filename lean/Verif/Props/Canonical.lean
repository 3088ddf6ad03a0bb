import Verif.Props.Again
import Verif.Proofs.Decoding.Determined

/-! Which values are written with the same octets: C100. -/

namespace Asn1go.Props

open Spec CG Enco Deco

/-! ### C100: same octets, same values -/

/-- Of two Go values of a generated type the same octets are written if and only if they stand for the same value. -/
def C100_statement : Prop := ∀ (u : Casing) (fuel : Nat) (p : GenParams) (m : Module) (f : GoFile), generateFile u fuel p m = some (.ok f) →
  NamesOk u m.moduleBody.assignmentList → ∀ a v v' x x' bs bs', Typed f (.ident (goifyName u a)) v → Typed f (.ident (goifyName u a)) v' →
    Stands true u m.moduleBody.assignmentList m.tagDefault p.integerRepr f (.ref a) v x → Stands true u m.moduleBody.assignmentList m.tagDefault p.integerRepr f (.ref a) v' x' →
    marshal u v = some bs → marshal u v' = some bs' → bs.length < 2147483648 → (bs = bs' ↔ Same m.moduleBody.assignmentList (.ref a) x x')

/-- For values that are the same, the same octets are written, for types for which no known defect applies. -/
theorem C100_same_partial (u : Casing) (fuel : Nat) (p : GenParams) (m : Module) (f : GoFile) (h : generateFile u fuel p m = some (.ok f))
    (hn : NamesOk u m.moduleBody.assignmentList) (op : Open) (a : Str) (ha : Encodable true op m.moduleBody.assignmentList m.tagDefault p.integerRepr a)
    (v v' : GoVal) (x x' : AsnVal) (hc : op.raw = true → ChoicesNamed m.moduleBody.assignmentList (.ref a) x)
    (hty : Typed f (.ident (goifyName u a)) v) (hm : Stands true u m.moduleBody.assignmentList m.tagDefault p.integerRepr f (.ref a) v x)
    (hty' : Typed f (.ident (goifyName u a)) v') (hm' : Stands true u m.moduleBody.assignmentList m.tagDefault p.integerRepr f (.ref a) v' x')
    (hs : Same m.moduleBody.assignmentList (.ref a) x x') : ∃ bs bs', marshal u v = some bs ∧ marshal u v' = some bs' ∧
      (bs.length ≤ 9223372036854775807 → bs'.length ≤ 9223372036854775807 → bs = bs') := by
  obtain ⟨bs, h1, h2⟩ := C76_der_partial u fuel p m f h hn op a ha v x hty hm
  obtain ⟨bs', h3, h4⟩ := C76_der_partial u fuel p m f h hn op a ha v' x' hty' hm'
  refine ⟨bs, bs', h1, h3, fun h5 h6 => C84_der_unique _ _ _ _ _ _ _ ?_ hs (h2 h5) (h4 h6)⟩
  cases hop : op.raw with
  | true => exact hc hop
  | false => exact encodable_named h hn hop ha x

/-- Without interfaces and raw values, CHOICE types have one alternative. -/
theorem encodable_plain {u : Casing} {fuel : Nat} {p : GenParams} {m : Module} {f : GoFile} (h : generateFile u fuel p m = some (.ok f))
    (hn : NamesOk u m.moduleBody.assignmentList) {a : Str} (ha : Encodable true .none m.moduleBody.assignmentList m.tagDefault p.integerRepr a) (x : AsnVal) :
    PlainChoices m.moduleBody.assignmentList (.ref a) x := by
  obtain ⟨s, h1, h2⟩ := ha
  intro alts e y hy
  obtain ⟨pos, h3⟩ := choice_shape (context h hn h2) h1 hy
  have h4 : ¬ SomeTagged m.moduleBody.assignmentList alts := fun hst => no_raw (context h hn h2) rfl (.raw _ _ hst) h3
  have h5 := choice_ok h3 h4
  refine ⟨h4, ?_⟩
  match alts, h5 with
  | [], h5 => exact absurd h5 (by simp [EncOkOnly])
  | [_], _ => rfl
  | .mk n t :: y :: r, h5 =>
    rw [EncOkOnly] at h5
    exact absurd h5.1 (by simp [Open.none])

/-- And for no others: for such types without CHOICE types of several alternatives, if components that can be absent can be told from those that
follow, and numbers fit, the octets are the same if and only if the values are. -/
theorem C100_iff_partial (u : Casing) (fuel : Nat) (p : GenParams) (m : Module) (f : GoFile) (h : generateFile u fuel p m = some (.ok f))
    (hn : NamesOk u m.moduleBody.assignmentList) (hv : NoValName m.moduleBody.assignmentList)
    (hzero : ∀ a t, .type a t ∈ m.moduleBody.assignmentList → OptionalsZero m.moduleBody.assignmentList t)
    (hread : ∀ a t, .type a t ∈ m.moduleBody.assignmentList → Readable m.moduleBody.assignmentList m.tagDefault t)
    (a : Str) (ha : Encodable true .none m.moduleBody.assignmentList m.tagDefault p.integerRepr a) (v v' : GoVal) (x x' : AsnVal)
    (hty : Typed f (.ident (goifyName u a)) v) (hm : Stands true u m.moduleBody.assignmentList m.tagDefault p.integerRepr f (.ref a) v x)
    (hf : ReadSmall m.moduleBody.assignmentList (.ref a) x)
    (hty' : Typed f (.ident (goifyName u a)) v') (hm' : Stands true u m.moduleBody.assignmentList m.tagDefault p.integerRepr f (.ref a) v' x')
    (hf' : ReadSmall m.moduleBody.assignmentList (.ref a) x') : ∃ bs bs', marshal u v = some bs ∧ marshal u v' = some bs' ∧
      (bs.length < 2147483648 → bs'.length < 2147483648 → (bs = bs' ↔ Same m.moduleBody.assignmentList (.ref a) x x')) := by
  obtain ⟨bs, h1, h2⟩ := C83_round_partial u fuel p m f h hn hzero hread .none none_limited a ha v x (by simp [Open.none]) hty hm hf
  obtain ⟨bs', h3, h4⟩ := C83_round_partial u fuel p m f h hn hzero hread .none none_limited a ha v' x' (by simp [Open.none]) hty' hm' hf'
  refine ⟨bs, bs', h1, h3, fun h5 h6 => ⟨?_, fun hs => ?_⟩⟩
  · rintro rfl
    obtain ⟨w, y, r1, r2, r3⟩ := h2 h5 []
    obtain ⟨w', y', r1', r2', r3'⟩ := h4 h5 []
    obtain ⟨rfl, -⟩ := C82_unique u fuel p m f h hn hv _ _ _ _ _ _ r1 r1'
    obtain rfl := means_unique r2 r2' (encodable_plain h hn ha y)
    exact same_trans r3 (same_symm r3') (encodable_plain h hn ha x)
  · obtain ⟨b, b', h7, h8, h9⟩ := C100_same_partial u fuel p m f h hn .none a ha v v' x x' (by simp [Open.none]) hty hm hty' hm' hs
    cases h1.symm.trans h7
    cases h3.symm.trans h8
    exact h9 (by omega) (by omega)

/-- With CHOICE types held in interfaces or raw values: if the octets are the same, both values are, up to order, what one Go value stands for. -/
theorem C100_held_partial (u : Casing) (fuel : Nat) (p : GenParams) (m : Module) (f : GoFile) (h : generateFile u fuel p m = some (.ok f))
    (hn : NamesOk u m.moduleBody.assignmentList) (hv : NoValName m.moduleBody.assignmentList)
    (hzero : ∀ a t, .type a t ∈ m.moduleBody.assignmentList → OptionalsZero m.moduleBody.assignmentList t)
    (hread : ∀ a t, .type a t ∈ m.moduleBody.assignmentList → Readable m.moduleBody.assignmentList m.tagDefault t)
    (op : Open) (hlim : op.Limited) (a : Str) (ha : Encodable true op m.moduleBody.assignmentList m.tagDefault p.integerRepr a) (v v' : GoVal) (x x' : AsnVal)
    (hif : op.iface = true → InterfacesRead m.moduleBody.assignmentList p.integerRepr (.ref a) x)
    (hif' : op.iface = true → InterfacesRead m.moduleBody.assignmentList p.integerRepr (.ref a) x')
    (hty : Typed f (.ident (goifyName u a)) v) (hm : Stands true u m.moduleBody.assignmentList m.tagDefault p.integerRepr f (.ref a) v x)
    (hf : ReadSmall m.moduleBody.assignmentList (.ref a) x)
    (hty' : Typed f (.ident (goifyName u a)) v') (hm' : Stands true u m.moduleBody.assignmentList m.tagDefault p.integerRepr f (.ref a) v' x')
    (hf' : ReadSmall m.moduleBody.assignmentList (.ref a) x') (bs : Bytes) (hb : marshal u v = some bs) (hb' : marshal u v' = some bs) (hl : bs.length < 2147483648) :
    ∃ w y y', Stands true u m.moduleBody.assignmentList m.tagDefault p.integerRepr f (.ref a) w y ∧ Same m.moduleBody.assignmentList (.ref a) x y ∧
      Stands true u m.moduleBody.assignmentList m.tagDefault p.integerRepr f (.ref a) w y' ∧ Same m.moduleBody.assignmentList (.ref a) x' y' := by
  obtain ⟨b, h1, h2⟩ := C83_round_partial u fuel p m f h hn hzero hread op hlim a ha v x hif hty hm hf
  obtain ⟨b', h3, h4⟩ := C83_round_partial u fuel p m f h hn hzero hread op hlim a ha v' x' hif' hty' hm' hf'
  cases h1.symm.trans hb
  cases h3.symm.trans hb'
  obtain ⟨w, y, r1, r2, r3⟩ := h2 hl []
  obtain ⟨w', y', r1', r2', r3'⟩ := h4 hl []
  obtain ⟨rfl, -⟩ := C82_unique u fuel p m f h hn hv _ _ _ _ _ _ r1 r1'
  exact ⟨w, y, y', r2, r3, r2', r3'⟩

/-! ### A case -/

/-- What `packetRead` stands for: the elements of the SET OF are in another order than in `packetAbstract`. -/
def otherAbstract : AsnVal :=
  .record [some (.integer 5), some (.string (c! "x")), some (.list [.boolean false, .boolean true]), some (.octets [7])]

theorem other_same : Same packet (.ref (c! "A")) otherAbstract packetAbstract :=
  .ref _ _ _ _ packet_A (.sequence _ _ _ _ (.present _ _ _ _ _ _ (.refl _ _) (.present _ _ _ _ _ _ (.refl _ _)
    (.present _ _ _ _ _ _ (.setOf _ _ [.boolean false, .boolean true] _ (same_elems_refl _ _) (.swap ..)) (.present _ _ _ _ _ _ (.refl _ _) .nil)))))

theorem other_means : Stands true asciiCasing packet TAGS_IMPLICIT (c! "int64") packetFile (.ref (c! "A")) packetRead otherAbstract :=
  .ref _ _ _ _ packet_A (.sequence _ _ _ _ (.present _ _ _ _ _ _ _ _ (by simp) (.tagged _ _ _ _ _ _ (.integer _ _))
    (.present _ _ _ _ _ _ _ _ (by simp) (.string _ _ _ _ _ .ia5 (by decide))
      (.present _ _ _ _ _ _ _ _ (by simp) (.setOf _ _ _ _ _ (.cons _ _ _ _ _ (.boolean _) (.cons _ _ _ _ _ (.boolean _) (.nil _))))
        (.present _ _ _ _ _ _ _ _ (by simp [GoVal.isZero]) (.ref _ _ _ _ packet_B (.octetString _)) .nil)))))

/-- The two Go values differ, stand for the same value, and are written with the same octets. -/
theorem C100_packet : packetValue ≠ packetRead ∧ marshal asciiCasing packetValue = marshal asciiCasing packetRead := by
  refine ⟨by simp [packetValue, packetRead], ?_⟩
  obtain ⟨bs, bs', h1, h2, h3⟩ := C100_iff_partial asciiCasing 20 int64Params (moduleOf TAGS_IMPLICIT packet) packetFile packet_file packet_names packet_valName packet_zero
    packet_readable (c! "A") (packet_encodable true .none) packetValue packetRead packetAbstract otherAbstract packet_typed (packet_means true) packet_readFits.small
    (C82_typed asciiCasing packetFile (generated_predeclared packet_file packet_names) _ _ _ _ (packet_reads []) (by decide)) other_means
    (same_small (encodable_seen packet_file packet_names (packet_encodable true .none) _) other_same packet_readFits.small)
  have h4 : bs.length < 2147483648 := by
    cases h1.symm.trans C76_packet.1
    decide
  have h5 : bs'.length < 2147483648 := by
    have : (marshal asciiCasing packetRead).map List.length = some 21 := by decide +kernel
    rw [h2] at this
    simp only [Option.map_some, Option.some.injEq] at this
    omega
  rw [h1, h2, (h3 h4 h5).2 (same_symm other_same)]

/-! ### Different values with the same octets -/

/-- `A ::= SEQUENCE { a T OPTIONAL, b U OPTIONAL }  T ::= [0] INTEGER  U ::= [1] INTEGER` -/
def lostTags : List MAssignment := [
  .type (c! "A") (.sequence [.named (.mk (c! "a") (.ref (c! "T"))) true none, .named (.mk (c! "b") (.ref (c! "U"))) true none] []),
  .type (c! "T") (.tagged ⟨CLASS_CONTEXT_SPECIFIC, .number 0⟩ (.integer []) 0 false),
  .type (c! "U") (.tagged ⟨CLASS_CONTEXT_SPECIFIC, .number 1⟩ (.integer []) 0 false)]

def lostFields : List GoField := [.mk (c! "A") (.ident (c! "T")) (some (c! "`asn1:\"optional\"`")), .mk (c! "B") (.ident (c! "U")) (some (c! "`asn1:\"optional\"`"))]

def lostFile : GoFile := ⟨c! "My_Mod", [.type [⟨c! "A", false, .struct lostFields⟩], .type [⟨c! "T", true, .ident (c! "int64")⟩], .type [⟨c! "U", true, .ident (c! "int64")⟩]]⟩

theorem lost_file : generateFile asciiCasing 20 int64Params (moduleOf TAGS_IMPLICIT lostTags) = some (.ok lostFile) := rfl

def lostValue (a b : Int) : GoVal := .struct [.mk (c! "A") (some (c! "`asn1:\"optional\"`")) (.int a), .mk (c! "B") (some (c! "`asn1:\"optional\"`")) (.int b)]

theorem lost_types {r : Str} {t : MTy} (h : .type r t ∈ lostTags) :
    (r = c! "A" ∧ t = .sequence [.named (.mk (c! "a") (.ref (c! "T"))) true none, .named (.mk (c! "b") (.ref (c! "U"))) true none] []) ∨
      (r = c! "T" ∧ t = .tagged ⟨CLASS_CONTEXT_SPECIFIC, .number 0⟩ (.integer []) 0 false) ∨
      (r = c! "U" ∧ t = .tagged ⟨CLASS_CONTEXT_SPECIFIC, .number 1⟩ (.integer []) 0 false) := by
  simpa [lostTags] using h

theorem lost_members : members ([.named (.mk (c! "a") (.ref (c! "T"))) true none, .named (.mk (c! "b") (.ref (c! "U"))) true none] ++ []) =
    [⟨c! "a", .ref (c! "T"), true, none⟩, ⟨c! "b", .ref (c! "U"), true, none⟩] := rfl

theorem lost_typeNames {r : Str} (h : r ∈ typeNames lostTags) : r = c! "A" ∨ r = c! "T" ∨ r = c! "U" := by
  have : r ∈ [c! "A", c! "T", c! "U"] := h
  simpa using this

theorem lost_names : NamesOk asciiCasing lostTags where
  named :=
    { types := by decide
      values := by decide
      typeName := by
        intro r hr
        rcases lost_typeNames hr with rfl | rfl | rfl <;>
          exact upperName_of ⟨_, _, rfl, by decide⟩ (by decide) (by decide) (by decide) (by decide) (by decide)
      valueName := by simp [valueNames, lostTags]
      numbers := by
        intro r t nums hm hc
        rcases lost_types hm with ⟨rfl, rfl⟩ | ⟨rfl, rfl⟩ | ⟨rfl, rfl⟩ <;> simp_all [core_iff, removeWrapperTypes]
      number := by
        intro r t nums hm hc
        rcases lost_types hm with ⟨rfl, rfl⟩ | ⟨rfl, rfl⟩ | ⟨rfl, rfl⟩ <;> simp_all [core_iff, removeWrapperTypes] }
  noSetClash := by
    intro r t hm _
    rcases lost_types hm with ⟨rfl, rfl⟩ | ⟨rfl, rfl⟩ | ⟨rfl, rfl⟩ <;> decide
  noTime := by
    intro a ha
    rcases lost_typeNames ha with rfl | rfl | rfl <;> simp [TimeName]
  members := by
    intro n t hm a b hi
    rcases lost_types hm with ⟨rfl, rfl⟩ | ⟨rfl, rfl⟩ | ⟨rfl, rfl⟩
    · have hno : ∀ t', (t' = .sequence a b ∨ t' = .set a b) → ∀ x ∈ members ([.named (.mk (c! "a") (.ref (c! "T"))) true none, .named (.mk (c! "b") (.ref (c! "U"))) true none] ++ []),
          ¬ Inside lostTags x.type t' := by
        intro t' ht x hx hi
        rw [lost_members] at hx
        simp only [List.mem_cons, List.not_mem_nil, or_false] at hx
        rcases hx with rfl | rfl <;> rcases ht with rfl | rfl <;> cases hi
      rcases hi with hi | hi
      · cases hi with
        | here =>
          refine ⟨by decide, fun x hx => ?_⟩
          rw [lost_members] at hx
          simp only [List.mem_cons, List.not_mem_nil, or_false] at hx
          rcases hx with rfl | rfl <;>
            exact lowerName_of ⟨_, _, rfl, by decide⟩ (by decide) (by decide) (by decide) (by decide) (by decide)
        | sequence _ _ x _ hx hi => exact absurd hi (hno _ (.inl rfl) x hx)
      · cases hi with
        | sequence _ _ x _ hx hi => exact absurd hi (hno _ (.inr rfl) x hx)
    all_goals rcases hi with hi | hi <;> cases hi <;> rename_i hi <;> cases hi

theorem lost_typed (a b : Int) (ha : GoInt a) (hb : GoInt b) : Typed lostFile (.ident (c! "A")) (lostValue a b) :=
  .defined (c! "A") (.struct lostFields) (lostValue a b) ⟨_, by simp [lostFile], List.mem_singleton.2 rfl⟩ (.struct _ _
    (.cons _ _ _ _ _ _ (.alias (c! "T") (.ident (c! "int64")) _ ⟨_, by simp [lostFile], List.mem_singleton.2 rfl⟩ (.int64 _ (by decide) ha))
      (.cons _ _ _ _ _ _ (.alias (c! "U") (.ident (c! "int64")) _ ⟨_, by simp [lostFile], List.mem_singleton.2 rfl⟩ (.int64 _ (by decide) hb)) .nil)))

theorem lost_A : Assigned lostTags (c! "A") (.sequence [.named (.mk (c! "a") (.ref (c! "T"))) true none, .named (.mk (c! "b") (.ref (c! "U"))) true none] []) := by
  simp [Assigned, lostTags, Assignment.name]

theorem lost_T : Assigned lostTags (c! "T") (.tagged ⟨CLASS_CONTEXT_SPECIFIC, .number 0⟩ (.integer []) 0 false) := by simp [Assigned, lostTags, Assignment.name]
theorem lost_U : Assigned lostTags (c! "U") (.tagged ⟨CLASS_CONTEXT_SPECIFIC, .number 1⟩ (.integer []) 0 false) := by simp [Assigned, lostTags, Assignment.name]

/-- For `{ a 5 }` and `{ b 5 }` the same octets are written: the tags of assigned types are lost. -/
theorem C100_false : ¬ C100_statement := by
  intro hst
  have h5 : GoInt 5 := by unfold GoInt; decide
  have h0 : GoInt 0 := by unfold GoInt; decide
  have h := (hst asciiCasing 20 int64Params (moduleOf TAGS_IMPLICIT lostTags) lostFile lost_file lost_names (c! "A") (lostValue 5 0) (lostValue 0 5)
    (.record [some (.integer 5), none]) (.record [none, some (.integer 5)]) [48, 3, 2, 1, 5] [48, 3, 2, 1, 5] (lost_typed 5 0 h5 h0) (lost_typed 0 5 h0 h5)
    (.ref _ _ _ _ lost_A (.sequence _ _ _ _ (.present _ _ _ _ _ _ _ _ (by simp [GoVal.isZero]) (.ref _ _ _ _ lost_T (.tagged _ _ _ _ _ _ (.integer _ _)))
      (.absent _ _ _ _ _ _ _ rfl rfl .nil))))
    (.ref _ _ _ _ lost_A (.sequence _ _ _ _ (.absent _ _ _ _ _ _ _ rfl rfl (.present _ _ _ _ _ _ _ _ (by simp [GoVal.isZero])
      (.ref _ _ _ _ lost_U (.tagged _ _ _ _ _ _ (.integer _ _))) .nil))))
    (by decide +kernel) (by decide +kernel) (by decide)).1 rfl
  have h1 := same_ref lost_A h
  cases h1 with
  | sequence _ _ _ _ h2 => cases h2

end Asn1go.Props
