import Verif.Proofs.Decoding.Read3
import Verif.Proofs.Decoding.Told
import Verif.Proofs.Decoding.Unique
import Verif.Proofs.Decoding.Exact
import Verif.Proofs.Decoding.Back
import Verif.Props.Writing

/-! Properties of generated types as encoding/asn1 decodes their values: C82, C83. -/

namespace Asn1go.Props

open Spec CG Enco Deco

/-! ### C82: encodings are read -/

/-- From each encoding by DER of a value of an assigned type, encoding/asn1 reads a Go value that stands for it. -/
def C82_statement : Prop := ∀ (u : Casing) (fuel : Nat) (p : GenParams) (m : Module) (f : GoFile), generateFile u fuel p m = some (.ok f) →
  NamesOk u m.moduleBody.assignmentList → ∀ a x bs, Encodes true m.moduleBody.assignmentList m.tagDefault (.ref a) x bs →
    ∃ v x', Unmarshals f u (.ident (goifyName u a)) bs v [] ∧ Stands true u m.moduleBody.assignmentList m.tagDefault p.integerRepr f (.ref a) v x' ∧
      Same m.moduleBody.assignmentList (.ref a) x x'

/-- For types for which no known defect applies, from the encoding by DER of a value with numbers that fit, whatever follows it,
encoding/asn1 reads a Go value that stands for the same value, if components that can be absent can be told from those that
follow, no OPTIONAL component is present with the zero value, and values held in interfaces have no tags and are of alternatives
that are given back. -/
theorem C82_read_partial (u : Casing) (fuel : Nat) (p : GenParams) (m : Module) (f : GoFile) (h : generateFile u fuel p m = some (.ok f))
    (hn : NamesOk u m.moduleBody.assignmentList)
    (hzero : ∀ a t, .type a t ∈ m.moduleBody.assignmentList → OptionalsZero m.moduleBody.assignmentList t)
    (hread : ∀ a t, .type a t ∈ m.moduleBody.assignmentList → Readable m.moduleBody.assignmentList m.tagDefault t)
    (op : Open) (hlim : op.Limited) (a : Str) (ha : Encodable true op m.moduleBody.assignmentList m.tagDefault p.integerRepr a) (x : AsnVal)
    (hif : op.iface = true → InterfacesRead m.moduleBody.assignmentList p.integerRepr (.ref a) x)
    (bs : Bytes)
    (hx : Encodes true m.moduleBody.assignmentList m.tagDefault (.ref a) x bs) (hf : ReadFits m.moduleBody.assignmentList p.integerRepr (.ref a) x)
    (ht : OptionalsTold m.moduleBody.assignmentList p.integerRepr (.ref a) x) (hl : bs.length < 2147483648) (rest : Bytes) :
    ∃ v x', Unmarshals f u (.ident (goifyName u a)) (bs ++ rest) v rest ∧ Stands true u m.moduleBody.assignmentList m.tagDefault p.integerRepr f (.ref a) v x' ∧
      Same m.moduleBody.assignmentList (.ref a) x x' := by
  obtain ⟨s, h1, h2⟩ := ha
  obtain ⟨ds, -, h4, -, -, -, h5⟩ := file_parts h
  exact read_assigned (context h hn h2) hlim (fun n hp => by rw [h4]; exact predeclared_not hn.named h5 hp) hzero hread h1 hx hf hif ht hl rest

theorem generated_predeclared {u : Casing} {fuel : Nat} {p : GenParams} {m : Module} {f : GoFile} (h : generateFile u fuel p m = some (.ok f))
    (hn : NamesOk u m.moduleBody.assignmentList) : ∀ n ∈ predeclared, n ∉ declared f.decls := by
  obtain ⟨ds, -, h4, -, -, -, h5⟩ := file_parts h
  intro n hp
  rw [h4]
  exact predeclared_not hn.named h5 hp

/-- What is read is a value of the type, in files in which predeclared names are not declared. -/
theorem C82_typed (u : Casing) (f : GoFile) (hp : ∀ n ∈ predeclared, n ∉ declared f.decls) (e : GoExpr) (b : Bytes) (v : GoVal) (rest : Bytes) (h : Unmarshals f u e b v rest)
    (hl : b.length < 1000000000000000000) : Typed f e v :=
  reads_typed hp h (by intro n hn; cases hn) hl

/-- One value at most is read. -/
theorem C82_unique (u : Casing) (fuel : Nat) (p : GenParams) (m : Module) (f : GoFile) (h : generateFile u fuel p m = some (.ok f))
    (hn : NamesOk u m.moduleBody.assignmentList) (hv : NoValName m.moduleBody.assignmentList) (e : GoExpr) (b : Bytes) (v v' : GoVal)
    (rest rest' : Bytes) (h1 : Unmarshals f u e b v rest) (h2 : Unmarshals f u e b v' rest') : v = v' ∧ rest = rest' := by
  have cx := context (strict := false) (op := .none) (s := fun _ => False) h hn (fun _ hb => hb.elim)
  exact reads_unique (C67_distinct_partial u fuel p m f h hn.named hn.noSetClash hv) (fun sp hs => (not_declared cx (n := sp.name) hs).2) h1 h2

/-- The alternatives of CHOICE types that are not held in raw values have names of their own. -/
theorem encodable_seen {u : Casing} {fuel : Nat} {p : GenParams} {m : Module} {f : GoFile} (h : generateFile u fuel p m = some (.ok f))
    (hn : NamesOk u m.moduleBody.assignmentList) {strict : Bool} {op : Open} {a : Str}
    (ha : Encodable strict op m.moduleBody.assignmentList m.tagDefault p.integerRepr a) (x : AsnVal) : SeenNamed m.moduleBody.assignmentList (.ref a) x := by
  obtain ⟨s, h8, h9⟩ := ha
  intro alts e y hp hst
  exact shape_choices (context h hn h9) (.inl ⟨.assignment, by rw [EncOk]; exact .inl h8⟩) hp hst

/-- Without raw values, all have. -/
theorem encodable_named {u : Casing} {fuel : Nat} {p : GenParams} {m : Module} {f : GoFile} (h : generateFile u fuel p m = some (.ok f))
    (hn : NamesOk u m.moduleBody.assignmentList) {strict : Bool} {op : Open} (hop : op.raw = false) {a : Str}
    (ha : Encodable strict op m.moduleBody.assignmentList m.tagDefault p.integerRepr a) (x : AsnVal) : ChoicesNamed m.moduleBody.assignmentList (.ref a) x := by
  have hs := encodable_seen h hn ha x
  obtain ⟨s, h8, h9⟩ := ha
  have key : ∀ alts e z, Seen m.moduleBody.assignmentList (.ref a) x (.choice alts e) z → ¬ SomeTagged m.moduleBody.assignmentList alts := by
    intro alts e z hz
    have h1 := (shape_part (context h hn h9) (Q := fun _ => True) (fun _ _ _ => trivial) (fun _ _ _ _ => trivial) (fun _ _ => trivial) hz
      (.inl ⟨.assignment, by rw [EncOk]; exact .inl h8⟩) trivial).1
    intro hst
    rcases h1 with ⟨pos, h1⟩ | h1
    · exact no_raw (context h hn h9) hop (.raw _ _ hst) h1
    · exact no_raw (context h hn h9) hop (.raw _ _ hst) (tagged_core (.done _ (by simp) (by simp)) h1)
  intro alts e y hp
  exact hs alts e y (part_seen hp key) (key _ _ _ (part_seen hp key))

/-- CHOICE types of parts are encoded as they should. -/
theorem choice_shape {u : Casing} {l : List MAssignment} {d : Int} {r : Str} {f : GoFile} {strict : Bool} {op : Open} {s : Str → Prop} (cx : Ctx u l d r f strict op s)
    {a : Str} (ha : s a) {x y : AsnVal} {alts : List MNamed} {e : List MTy} (hy : Seen l (.ref a) x (.choice alts e) y) : ∃ pos, EncOk strict op l d r s pos (.choice alts e) := by
  rcases (shape_part cx (Q := fun _ => True) (fun _ _ _ => trivial) (fun _ _ _ _ => trivial) (fun _ _ => trivial) hy
    (.inl ⟨.assignment, by rw [EncOk]; exact .inl ha⟩) trivial).1 with h | h
  · exact h
  · exact ⟨_, tagged_core (.done _ (by simp) (by simp)) h⟩

/-- The conditions on the value are exact: for these types, a Go value that stands for the same value is read from its encoding if and
only if its numbers fit, no OPTIONAL component is present with the zero value, and values held in interfaces are given back. Of truth
values held in interfaces nothing is said. -/
theorem C82_exact_partial (u : Casing) (fuel : Nat) (p : GenParams) (m : Module) (f : GoFile) (h : generateFile u fuel p m = some (.ok f))
    (hn : NamesOk u m.moduleBody.assignmentList)
    (hzero : ∀ a t, .type a t ∈ m.moduleBody.assignmentList → OptionalsZero m.moduleBody.assignmentList t)
    (hread : ∀ a t, .type a t ∈ m.moduleBody.assignmentList → Readable m.moduleBody.assignmentList m.tagDefault t)
    (op : Open) (hlim : op.Limited) (a : Str) (ha : Encodable true op m.moduleBody.assignmentList m.tagDefault p.integerRepr a) (x : AsnVal)
    (hut : op.iface = true → InterfacesUntagged m.moduleBody.assignmentList (.ref a) x) (_htruth : op.iface = true → NoTruthHeld m.moduleBody.assignmentList (.ref a) x)
    (bs : Bytes)
    (hx : Encodes true m.moduleBody.assignmentList m.tagDefault (.ref a) x bs) (hl : bs.length < 2147483648) :
    (∃ v x', Unmarshals f u (.ident (goifyName u a)) bs v [] ∧ Stands true u m.moduleBody.assignmentList m.tagDefault p.integerRepr f (.ref a) v x' ∧
        Same m.moduleBody.assignmentList (.ref a) x x') ↔
      ReadFits m.moduleBody.assignmentList p.integerRepr (.ref a) x ∧ OptionalsTold m.moduleBody.assignmentList p.integerRepr (.ref a) x ∧
        InterfacesBack m.moduleBody.assignmentList p.integerRepr (.ref a) x := by
  constructor
  · rintro ⟨v, x', h1, h2, h3⟩
    have hc := encodable_seen h hn ha x
    have hc' := encodable_seen h hn ha x'
    obtain ⟨s, h4, h5⟩ := ha
    obtain ⟨h6, -, h7, h8⟩ := told_assigned (context h hn h5) h4 (C82_typed u f (generated_predeclared h hn) _ _ v [] h1 (by omega)) h2
    refine ⟨⟨same_small hc h3 (h8 ((reads_narrow h1).resolve_right fun h => h.1 rfl)), same_fits hc h3 h7⟩, same_told hc h3 h6,
      back_assigned (context h hn h5) h4 (reads_plain h1) (fun t' y hy alts e ht => ?_) h2 hc hc' h3⟩
    subst ht
    exact choice_shape (context h hn h5) h4 hy
  · rintro ⟨h1, h2, h3⟩
    have := C82_read_partial u fuel p m f h hn hzero hread op hlim a ha x (fun ho => ⟨hut ho, h3⟩) bs hx h1 h2 hl []
    rwa [List.append_nil] at this

/-! ### C83: values are read as they were written -/

/-- From what encoding/asn1 writes for a Go value, it reads a Go value that stands for the same value. -/
def C83_statement : Prop := ∀ (u : Casing) (fuel : Nat) (p : GenParams) (m : Module) (f : GoFile), generateFile u fuel p m = some (.ok f) →
  NamesOk u m.moduleBody.assignmentList → ∀ a v x bs, Typed f (.ident (goifyName u a)) v → Stands true u m.moduleBody.assignmentList m.tagDefault p.integerRepr f (.ref a) v x →
    marshal u v = some bs → ∃ v' x', Unmarshals f u (.ident (goifyName u a)) bs v' [] ∧ Stands true u m.moduleBody.assignmentList m.tagDefault p.integerRepr f (.ref a) v' x' ∧
      Same m.moduleBody.assignmentList (.ref a) x x'

/-- So it is for types for which no known defect applies, if components that can be absent can be told from those that follow, and
numbers fit: of OPTIONAL components nothing is demanded. -/
theorem C83_round_partial (u : Casing) (fuel : Nat) (p : GenParams) (m : Module) (f : GoFile) (h : generateFile u fuel p m = some (.ok f))
    (hn : NamesOk u m.moduleBody.assignmentList)
    (hzero : ∀ a t, .type a t ∈ m.moduleBody.assignmentList → OptionalsZero m.moduleBody.assignmentList t)
    (hread : ∀ a t, .type a t ∈ m.moduleBody.assignmentList → Readable m.moduleBody.assignmentList m.tagDefault t)
    (op : Open) (hlim : op.Limited) (a : Str) (ha : Encodable true op m.moduleBody.assignmentList m.tagDefault p.integerRepr a) (v : GoVal) (x : AsnVal)
    (hif : op.iface = true → InterfacesRead m.moduleBody.assignmentList p.integerRepr (.ref a) x)
    (hty : Typed f (.ident (goifyName u a)) v) (hm : Stands true u m.moduleBody.assignmentList m.tagDefault p.integerRepr f (.ref a) v x) (hf : ReadSmall m.moduleBody.assignmentList (.ref a) x) :
    ∃ bs, marshal u v = some bs ∧ (bs.length < 2147483648 → ∀ rest,
      ∃ v' x', Unmarshals f u (.ident (goifyName u a)) (bs ++ rest) v' rest ∧ Stands true u m.moduleBody.assignmentList m.tagDefault p.integerRepr f (.ref a) v' x' ∧
        Same m.moduleBody.assignmentList (.ref a) x x') := by
  obtain ⟨bs, h1, h2⟩ := C76_der_partial u fuel p m f h hn op a ha v x hty hm
  refine ⟨bs, h1, fun hl rest => ?_⟩
  obtain ⟨ht, -, hfit, -⟩ : OptionalsTold m.moduleBody.assignmentList p.integerRepr (.ref a) x ∧ _ := by
    obtain ⟨s, h3, h4⟩ := ha
    exact told_assigned (context h hn h4) h3 hty hm
  exact C82_read_partial u fuel p m f h hn hzero hread op hlim a ha x hif bs (h2 (by omega)) ⟨hf, hfit⟩ ht hl rest

/-- The conditions on numbers and on values held in interfaces are exact. -/
theorem C83_exact_partial (u : Casing) (fuel : Nat) (p : GenParams) (m : Module) (f : GoFile) (h : generateFile u fuel p m = some (.ok f))
    (hn : NamesOk u m.moduleBody.assignmentList)
    (hzero : ∀ a t, .type a t ∈ m.moduleBody.assignmentList → OptionalsZero m.moduleBody.assignmentList t)
    (hread : ∀ a t, .type a t ∈ m.moduleBody.assignmentList → Readable m.moduleBody.assignmentList m.tagDefault t)
    (op : Open) (hlim : op.Limited) (a : Str) (ha : Encodable true op m.moduleBody.assignmentList m.tagDefault p.integerRepr a) (v : GoVal) (x : AsnVal)
    (hut : op.iface = true → InterfacesUntagged m.moduleBody.assignmentList (.ref a) x) (htruth : op.iface = true → NoTruthHeld m.moduleBody.assignmentList (.ref a) x)
    (hty : Typed f (.ident (goifyName u a)) v) (hm : Stands true u m.moduleBody.assignmentList m.tagDefault p.integerRepr f (.ref a) v x) :
    ∃ bs, marshal u v = some bs ∧ (bs.length < 2147483648 →
      ((∃ v' x', Unmarshals f u (.ident (goifyName u a)) bs v' [] ∧ Stands true u m.moduleBody.assignmentList m.tagDefault p.integerRepr f (.ref a) v' x' ∧
        Same m.moduleBody.assignmentList (.ref a) x x') ↔
          ReadSmall m.moduleBody.assignmentList (.ref a) x ∧ InterfacesBack m.moduleBody.assignmentList p.integerRepr (.ref a) x)) := by
  obtain ⟨bs, h1, h2⟩ := C76_der_partial u fuel p m f h hn op a ha v x hty hm
  refine ⟨bs, h1, fun hl => ?_⟩
  rw [C82_exact_partial u fuel p m f h hn hzero hread op hlim a ha x hut htruth bs (h2 (by omega)) hl]
  obtain ⟨ht, -, hfit, -⟩ : OptionalsTold m.moduleBody.assignmentList p.integerRepr (.ref a) x ∧ _ := by
    obtain ⟨s, h3, h4⟩ := ha
    exact told_assigned (context h hn h4) h3 hty hm
  exact ⟨fun h => ⟨h.1.small, h.2.2⟩, fun h => ⟨⟨h.1, hfit⟩, ht, h.2⟩⟩

/-- What `Blank` says: the only Go value is the zero value. -/
theorem C83_blank (u : Casing) (fuel : Nat) (p : GenParams) (m : Module) (f : GoFile) (h : generateFile u fuel p m = some (.ok f))
    (hn : NamesOk u m.moduleBody.assignmentList) (strict : Bool) (op : Open) (a : Str)
    (ha : Encodable strict op m.moduleBody.assignmentList m.tagDefault p.integerRepr a) (v : GoVal) (x : AsnVal)
    (hty : Typed f (.ident (goifyName u a)) v) (hm : Stands strict u m.moduleBody.assignmentList m.tagDefault p.integerRepr f (.ref a) v x)
    (hb : Blank m.moduleBody.assignmentList p.integerRepr (.ref a) x) : v.isZero = true := by
  obtain ⟨s, h3, h4⟩ := ha
  exact (told_assigned (context h hn h4) h3 hty hm).2.1 hb

/-! ### The module that meets all conditions -/

theorem packet_inside {n : Str} {t : MTy} {a b : List MComponent} (hm : .type n t ∈ packet) (hi : Inside packet t (.sequence a b) ∨ Inside packet t (.set a b)) :
    a = packetMembers ∧ b = [] := by
  simp only [packet, List.mem_cons, Assignment.type.injEq, List.not_mem_nil, or_false] at hm
  rcases hm with ⟨rfl, rfl⟩ | ⟨rfl, rfl⟩
  · have hno : ∀ t', (t' = .sequence a b ∨ t' = .set a b) → ∀ x ∈ members (packetMembers ++ []), ¬ Inside packet x.type t' := by
      intro t' ht x hx hi
      rw [packet_members] at hx
      simp only [List.mem_cons, List.not_mem_nil, or_false] at hx
      rcases hx with rfl | rfl | rfl | rfl <;> rcases ht with rfl | rfl <;> cases hi <;> rename_i hi <;> cases hi
    rcases hi with hi | hi
    · cases hi with
      | here => exact ⟨rfl, rfl⟩
      | sequence _ _ x _ hx hi => exact absurd hi (hno _ (.inl rfl) x hx)
    · cases hi with
      | sequence _ _ x _ hx hi => exact absurd hi (hno _ (.inr rfl) x hx)
  · rcases hi with hi | hi <;> cases hi

theorem packet_zero : ∀ a t, .type a t ∈ packet → OptionalsZero packet t := by
  intro n t hm a b hi x hx ho
  obtain ⟨rfl, rfl⟩ := packet_inside hm hi
  rw [packet_members] at hx
  simp only [List.mem_cons, List.not_mem_nil, or_false] at hx
  rcases hx with rfl | rfl | rfl | rfl
  · cases ho
  · cases ho
  · cases ho
  · exact .ref _ _ packet_B .octetString

/-- The types of elements. -/
theorem packet_lists {n : Str} {t t' : MTy} (hm : .type n t ∈ packet) (hi : Inside packet t (.sequenceOf t') ∨ Inside packet t (.setOf t')) : t' = .boolean := by
  simp only [packet, List.mem_cons, Assignment.type.injEq, List.not_mem_nil, or_false] at hm
  rcases hm with ⟨rfl, rfl⟩ | ⟨rfl, rfl⟩
  · have hno : ∀ y, (y = .sequenceOf t' ∨ y = .setOf t') → ∀ x ∈ members (packetMembers ++ []), Inside packet x.type y → t' = .boolean := by
      intro y ht x hx hi
      rw [packet_members] at hx
      simp only [List.mem_cons, List.not_mem_nil, or_false] at hx
      rcases hx with rfl | rfl | rfl | rfl <;> rcases ht with rfl | rfl <;> cases hi <;> first | rfl | (rename_i hi; cases hi)
    rcases hi with hi | hi
    · cases hi with
      | sequence _ _ x _ hx hi => exact hno _ (.inl rfl) x hx hi
    · cases hi with
      | sequence _ _ x _ hx hi => exact hno _ (.inr rfl) x hx hi
  · rcases hi with hi | hi <;> cases hi

theorem packet_readable : ∀ a t, .type a t ∈ packet → Readable packet TAGS_IMPLICIT t := by
  intro n t hm
  refine ⟨fun a b hi => ?_, fun t' hi => by rw [packet_lists hm hi]; exact .boolean⟩
  obtain ⟨rfl, rfl⟩ := packet_inside hm hi
  rw [packet_members]
  refine ⟨?_, ?_, ?_⟩
  · intro x hx g hg n hn
    simp only [List.mem_cons, List.not_mem_nil, or_false] at hx
    rcases hx with rfl | rfl | rfl | rfl <;> simp [tagsAround] at hg
    subst hg
    cases hn
    decide
  · intro x hx g hg hk
    simp only [List.mem_cons, List.not_mem_nil, or_false] at hx
    rcases hx with rfl | rfl | rfl | rfl <;> simp [tagsAround] at hg
    subst hg
    decide
  · refine ⟨fun _ pre y post he hpre v tag k c henc => ?_, fun hc => ?_, fun hc => ?_, fun _ pre y post he => ?_, trivial⟩
    · cases pre with
      | nil =>
        simp only [List.nil_append, List.cons.injEq] at he
        obtain ⟨rfl, rfl⟩ := he
        cases henc with
        | string _ tag ok enc s hk hok =>
          refine ⟨fun ht => ?_, fun _ => .inr ⟨_, List.mem_cons_self .., ?_⟩⟩
          · generalize hg : AsnTag.mk 0 tag = g at ht
            cases ht
            exact absurd (AsnTag.mk.inj hg).1 (by decide)
          · simp [CanMiss]
      | cons z pre =>
        simp only [List.cons_append, List.cons.injEq] at he
        have := hpre z (by simp)
        rw [← he.1] at this
        simp [CanMiss] at this
    · simp [CanMiss] at hc
    · simp [CanMiss] at hc
    · cases pre <;> cases he

theorem packet_readFits : ReadFits packet (c! "int64") (.ref (c! "A")) packetAbstract := by
  have key : ∀ y, Part packetAbstract y → (∀ n, y ≠ .enumerated n) ∧ ∀ o, y ≠ .oid o := by
    intro y h
    cases h with
    | here => exact ⟨by simp [packetAbstract], by simp [packetAbstract]⟩
    | record _ x _ hx hp =>
      simp only [List.mem_cons, Option.some.injEq, List.not_mem_nil, or_false] at hx
      rcases hx with rfl | rfl | rfl | rfl
      · cases hp; simp
      · cases hp; simp
      · cases hp with
        | here => simp
        | list _ x _ hx hp =>
          simp only [List.mem_cons, List.not_mem_nil, or_false] at hx
          rcases hx with rfl | rfl <;> cases hp <;> simp
      · cases hp; simp
  refine ⟨fun t' y h => ?_, packet_fits⟩
  obtain ⟨h1, h2⟩ := key y (seen_part h)
  exact ⟨fun n h => absurd h (h1 n), fun o h => absurd h (h2 o), fun _ _ _ h => absurd h (h2 _)⟩

/-- `A{V: 5, N: "x", S: []bool{false, true}, B: []byte{7}}`: the elements in the order of their encodings. -/
def packetRead : GoVal := .struct [
  .mk (c! "V") (some (c! "`asn1:\"default:1,optional,explicit,tag:0\"`")) (.int 5), .mk (c! "N") (some (c! "`asn1:\"ia5\"`")) (.str (c! "x")),
  .mk (c! "S") (some (c! "`asn1:\"set\"`")) (.slice [] false [.bool false, .bool true]), .mk (c! "B") (some (c! "`asn1:\"optional\"`")) (.bytes (some [7]))]

theorem packet_reads (rest : Bytes) : Unmarshals packetFile asciiCasing (.ident (c! "A"))
    ([48, 19, 160, 3, 2, 1, 5, 22, 1, 120, 49, 6, 1, 1, 0, 1, 1, 255, 4, 1, 7] ++ rest) packetRead rest := by
  have hA : Declares packetFile ⟨c! "A", false, .struct packetFields⟩ := ⟨_, by simp [packetFile], List.mem_singleton.2 rfl⟩
  have hB : Declares packetFile ⟨c! "B", true, .array (.ident (c! "byte"))⟩ := ⟨_, by simp [packetFile], List.mem_singleton.2 rfl⟩
  have hu : Underlies packetFile (.ident (c! "A")) (c! "A") (.struct packetFields) := .defined _ _ _ _ hA (.struct _) trivial
  refine .element _ _ _ _ _ 16 true 16 [160, 3, 2, 1, 5, 22, 1, 120, 49, 6, 1, 1, 0, 1, 1, 255, 4, 1, 7] rest _ hu rfl ?_
    (.struct _ _ _ _ [] _ ?_)
  · rfl
  · have hbool : Underlies packetFile (.ident (c! "bool")) [] .bool := .bool (by decide)
    refine .cons _ _ _ _ _ [22, 1, 120, 49, 6, 1, 1, 0, 1, 1, 255, 4, 1, 7] _ _ _ (by decide)
      (.element _ _ _ _ _ 2 false 2 [5] _ _ (.int64 (by decide)) rfl (by decide) (.simple _ _ _ _ _ (.int _ _ _ (by decide)))) ?_
    refine .cons _ _ _ _ _ [49, 6, 1, 1, 0, 1, 1, 255, 4, 1, 7] _ _ _ (by decide)
      (.element _ _ _ _ _ 19 false 22 [120] _ _ (.string (by decide)) rfl (by decide) (.simple _ _ _ _ _ (.string _ _ _ (.ia5 (c! "x") (by decide))))) ?_
    refine .cons _ _ _ _ _ [4, 1, 7] _ _ _ (by decide)
      (.element _ _ _ _ _ 16 true 17 [1, 1, 0, 1, 1, 255] _ _ (.slice _ (by simp)) (by decide) (by decide) (.slice _ _ _ _ _ _ _ hbool (.inr (by simp [kindTag])) ?_)) ?_
    · refine .cons _ _ [1, 1, 255] _ _ (by simp) (.element _ _ _ _ _ 1 false 1 [0] _ _ hbool rfl (by decide) (.simple _ _ _ _ _ (.bool _ _ _ (by decide)))) ?_
      exact .cons _ _ [] _ _ (by simp) (.element _ _ _ _ _ 1 false 1 [255] _ _ hbool rfl (by decide) (.simple _ _ _ _ _ (.bool _ _ _ (by decide)))) (.nil _)
    · exact .cons _ _ _ _ _ [] _ _ _ (by decide)
        (.element _ _ _ _ _ 4 false 4 [7] _ _ (.alias _ _ _ _ hB (.bytes (by decide))) rfl (by decide) (.simple _ _ _ _ _ (.bytes _ _))) (.nil _)

/-- It is read from what is written for the value above, and stands for the same value. -/
theorem C83_packet : ∃ bs, marshal asciiCasing packetValue = some bs ∧ (∀ rest, Unmarshals packetFile asciiCasing (.ident (c! "A")) (bs ++ rest) packetRead rest) ∧
    ∃ x', Stands true asciiCasing packet TAGS_IMPLICIT (c! "int64") packetFile (.ref (c! "A")) packetRead x' ∧ Same packet (.ref (c! "A")) packetAbstract x' := by
  obtain ⟨bs, h1, h2⟩ := C83_round_partial asciiCasing 20 int64Params _ packetFile packet_file packet_names packet_zero packet_readable .none none_limited (c! "A")
    (packet_encodable true .none) packetValue packetAbstract (by simp [Open.none]) packet_typed (packet_means true) packet_readFits.small
  cases h1.symm.trans C76_packet.1
  refine ⟨_, C76_packet.1, packet_reads, ?_⟩
  obtain ⟨v, x', h3, h4, h5⟩ := h2 (by decide) []
  have hv : NoValName packet := by
    intro r hr
    have : r ∈ [c! "A", c! "B"] := hr
    simp only [List.mem_cons, List.not_mem_nil, or_false] at this
    rcases this with rfl | rfl <;> decide
  cases (C82_unique asciiCasing 20 int64Params _ packetFile packet_file packet_names hv _ _ _ _ _ _ h3 (packet_reads [])).1
  exact ⟨x', h4, h5⟩

/-! ### Values that are lost -/

/-- For the module `A ::= t` there is a value of the Go type `A` that encoding/asn1 writes as DER demands, and then cannot read. -/
def LostFor (p : GenParams) (t : MTy) : Prop :=
  ∃ f v x bs, generateFile asciiCasing 20 p (moduleOf TAGS_IMPLICIT [.type (c! "A") t]) = some (.ok f) ∧
    NamesOk asciiCasing [.type (c! "A") t] ∧ Typed f (.ident (c! "A")) v ∧ Stands true asciiCasing [.type (c! "A") t] TAGS_IMPLICIT p.integerRepr f (.ref (c! "A")) v x ∧
    marshal asciiCasing v = some bs ∧ Encodes true [.type (c! "A") t] TAGS_IMPLICIT (.ref (c! "A")) x bs ∧
    ∀ v' rest, ¬ Unmarshals f asciiCasing (.ident (c! "A")) bs v' rest

theorem reads_element {f : GoFile} {u : Casing} (hd : (declared f.decls).Nodup) (hdot : ∀ sp, Declares f sp → '.' ∉ sp.name) {e : GoExpr} {n : Str} {k : GoKind}
    {tag : Nat} {cp : Bool} {p : FieldParams} {b c rest0 : Bytes} {t : Nat} (hu : Underlies f e n k) (hk : kindTag n k = some (tag, cp))
    (hf : findElement p tag cp b = .element t c rest0) {v : GoVal} {rest : Bytes} (h : Decodes f u e p b v rest) : ReadsBody f u n k t c v ∧ rest = rest0 := by
  cases h with
  | missing _ _ _ _ _ z h1 h2 =>
    obtain ⟨rfl, rfl⟩ := under_unique hd hdot hu h1
    exact (lacks_element h2 hk hf).elim
  | raw _ _ _ _ _ _ _ h1 =>
    obtain ⟨rfl, rfl⟩ := under_unique hd hdot hu h1
    cases hk
  | iface _ _ _ _ _ _ _ h1 =>
    obtain ⟨rfl, rfl⟩ := under_unique hd hdot hu h1
    cases hk
  | element _ _ _ _ _ _ _ _ _ _ _ h1 h2 h3 h4 =>
    obtain ⟨rfl, rfl⟩ := under_unique hd hdot hu h1
    cases hk.symm.trans h2
    rw [hf] at h3
    cases h3
    exact ⟨h4, rfl⟩

theorem reads_fails {f : GoFile} {u : Casing} (hd : (declared f.decls).Nodup) (hdot : ∀ sp, Declares f sp → '.' ∉ sp.name) {e : GoExpr} {n : Str} {k : GoKind}
    {tag : Nat} {cp : Bool} {p : FieldParams} {b : Bytes} (hu : Underlies f e n k) (hk : kindTag n k = some (tag, cp))
    (hf : findElement p tag cp b = .error ∨ (findElement p tag cp b = .missing ∧ p.optional = false)) {v : GoVal} {rest : Bytes} : ¬ Decodes f u e p b v rest := by
  intro h
  cases h with
  | missing _ _ _ _ _ z h1 h2 h4 =>
    obtain ⟨rfl, rfl⟩ := under_unique hd hdot hu h1
    rcases hf with h | ⟨-, h'⟩
    · cases h2 with
      | tag _ _ _ _ h2 h3 =>
        cases hk.symm.trans h2
        rw [h3] at h; cases h
      | raw _ h3 => cases hk
      | iface => cases hk
    · rw [h4] at h'; cases h'
  | raw _ _ _ _ _ _ _ h1 =>
    obtain ⟨rfl, rfl⟩ := under_unique hd hdot hu h1
    cases hk
  | iface _ _ _ _ _ _ _ h1 =>
    obtain ⟨rfl, rfl⟩ := under_unique hd hdot hu h1
    cases hk
  | element _ _ _ _ _ _ _ _ _ _ _ h1 h2 h3 _ =>
    obtain ⟨rfl, rfl⟩ := under_unique hd hdot hu h1
    cases hk.symm.trans h2
    rcases hf with h | ⟨h, -⟩ <;> rw [h3] at h <;> cases h

theorem fileA_declares {e : GoExpr} {b : Bool} {sp : GoTypeSpec} (h : Declares (fileA e b) sp) : '.' ∉ sp.name := by
  obtain ⟨l, hl, hs⟩ := h
  simp only [fileA, List.mem_singleton, GoDecl.type.injEq] at hl
  subst hl
  rw [List.mem_singleton] at hs
  subst hs
  simp

theorem fileA_nodup (e : GoExpr) (b : Bool) : (declared (fileA e b).decls).Nodup := by
  have : declared (fileA e b).decls = [c! "A"] := rfl
  rw [this]; decide

/-- A SEQUENCE with two components that have none themselves has ASN.1 names. -/
theorem two_members {t t' : MTy} {o o' : Bool} {l : List MAssignment} (h : ∀ t'', Inside l t t'' ∨ Inside l t' t'' → (∀ a b, t'' ≠ .sequence a b) ∧ ∀ a b, t'' ≠ .set a b) :
    MembersNamed asciiCasing l (.sequence [.named (.mk (c! "a") t) o none, .named (.mk (c! "b") t') o' none] []) := by
  have hm : members ([ComponentType.named (.mk (c! "a") t) o none, .named (.mk (c! "b") t') o' none] ++ []) =
      [⟨c! "a", t, o, none⟩, ⟨c! "b", t', o', none⟩] := rfl
  have hno : ∀ x ∈ members ([ComponentType.named (.mk (c! "a") t) o none, .named (.mk (c! "b") t') o' none] ++ []), ∀ t'', Inside l x.type t'' →
      (∀ a b, t'' ≠ .sequence a b) ∧ ∀ a b, t'' ≠ .set a b := by
    intro x hx t'' hi
    rw [hm] at hx
    simp only [List.mem_cons, List.not_mem_nil, or_false] at hx
    rcases hx with rfl | rfl
    · exact h t'' (.inl hi)
    · exact h t'' (.inr hi)
  rintro a b (hi | hi) <;> cases hi
  · refine ⟨by rw [hm]; simp, fun x hx => ?_⟩
    rw [hm] at hx
    simp only [List.mem_cons, List.not_mem_nil, or_false] at hx
    rcases hx with rfl | rfl
    · exact lower_a
    · exact lower_b
  · rename_i y hy hi; exact absurd rfl ((hno y hy _ hi).1 a b)
  · rename_i y hy hi; exact absurd rfl ((hno y hy _ hi).2 a b)

/-- An IA5String is taken for an absent PrintableString: `A ::= SEQUENCE { a PrintableString OPTIONAL, b IA5String }`. -/
theorem C82_string_kind : LostFor int64Params (.sequence [.named (.mk (c! "a") (.restrictedString Tok.PrintableString)) true none,
    comp (c! "b") (.restrictedString Tok.IA5String)] []) := by
  refine ⟨fileA (.struct [.mk (c! "A") (.ident (c! "string")) (some (c! "`asn1:\"optional\"`")),
      .mk (c! "B") (.ident (c! "string")) (some (c! "`asn1:\"ia5\"`"))]) false,
    .struct [.mk (c! "A") (some (c! "`asn1:\"optional\"`")) (.str []), .mk (c! "B") (some (c! "`asn1:\"ia5\"`")) (.str (c! "x"))],
    .record [none, some (.string (c! "x"))], [48, 3, 22, 1, 120], rfl, one_names ?_ (two_members ?_),
    struct_typed (.cons _ _ _ _ _ _ (.string _ (by decide)) (.cons _ _ _ _ _ _ (.string _ (by decide)) .nil)),
    one_means (.sequence _ _ _ _ (.absent _ _ _ _ _ _ _ rfl rfl (.present _ _ _ _ _ _ _ _ (by simp) (.string _ _ _ _ _ .ia5 (by decide)) .nil))),
    by decide, ?_, fun v rest h => ?_⟩
  · intro nums h; simp [core_iff, removeWrapperTypes] at h
  · rintro t (h | h) <;> cases h <;> simp
  · refine ⟨⟨0, 16⟩, true, [22, 1, 120], .ref _ _ _ _ _ _ (one_assigned _) (.sequence _ _ _ [(⟨0, 22⟩, [22, 1, 120])] ?_), ⟨[48], [3], rfl, rfl, rfl⟩⟩
    exact .absent ⟨c! "a", .restrictedString Tok.PrintableString, true, none⟩ _ _ _ rfl (.present ⟨c! "b", .restrictedString Tok.IA5String, false, none⟩
      (.string (c! "x")) ⟨0, 22⟩ false [120] [22, 1, 120] [] [] [] (.string _ _ _ _ _ .ia5 (by decide)) ⟨[22], [1], rfl, rfl, rfl⟩ (by simp) .nil)
  · have hb := (reads_element (fileA_nodup _ _) (fun _ => fileA_declares) (.defined _ _ _ _ declares_one (.struct _) trivial) (tag := 16) (cp := true)
      (t := 16) (c := [22, 1, 120]) (rest0 := []) rfl (by decide) h).1
    cases hb with
    | simple _ _ _ _ _ hs => cases hs
    | struct _ _ _ _ rest _ hf =>
      cases hf with
      | cons _ _ _ _ _ b' _ _ _ _ h1 h2 =>
        obtain ⟨-, rfl⟩ := reads_element (fileA_nodup _ _) (fun _ => fileA_declares) (.string (by decide)) (tag := 19) (cp := false) (t := 22) (c := [120])
          (rest0 := []) rfl (by decide +kernel) h1
        cases h2 with
        | cons _ _ _ _ _ b' _ _ _ _ h3 h4 =>
          exact reads_fails (fileA_nodup _ _) (fun _ => fileA_declares) (.string (by decide)) (tag := 19) (cp := false) rfl (.inr (by decide +kernel)) h3

/-- After an absent component with an explicit tag, an empty element at the end cannot be read:
`A ::= SEQUENCE { a [0] EXPLICIT INTEGER OPTIONAL, b OCTET STRING }`. -/
theorem C82_explicit_empty : LostFor int64Params (.sequence [.named (.mk (c! "a") (.tagged ⟨CLASS_CONTEXT_SPECIFIC, .number 0⟩ (.integer []) TAGS_EXPLICIT true)) true none,
    comp (c! "b") .octetString] []) := by
  refine ⟨fileA (.struct [.mk (c! "A") (.ident (c! "int64")) (some (c! "`asn1:\"optional,explicit,tag:0\"`")),
      .mk (c! "B") (.array (.ident (c! "byte"))) none]) false,
    .struct [.mk (c! "A") (some (c! "`asn1:\"optional,explicit,tag:0\"`")) (.int 0), .mk (c! "B") none (.bytes none)],
    .record [none, some (.octets [])], [48, 2, 4, 0], rfl, one_names ?_ (two_members ?_),
    struct_typed (.cons _ _ _ _ _ _ (.int64 _ (by decide) (by unfold GoInt; decide)) (.cons _ _ _ _ _ _ (.bytes _ (by decide)) .nil)),
    one_means (.sequence _ _ _ _ (.absent _ _ _ _ _ _ _ rfl rfl (.present _ _ _ _ _ _ _ _ (by simp) (.octetString _) .nil))),
    by decide +kernel, ?_, fun v rest h => ?_⟩
  · intro nums h; simp [core_iff, removeWrapperTypes] at h
  · rintro t (h | h) <;> cases h
    · simp
    · rename_i h; cases h; simp
    · simp
  · refine ⟨⟨0, 16⟩, true, [4, 0], .ref _ _ _ _ _ _ (one_assigned _) (.sequence _ _ _ [(⟨0, 4⟩, [4, 0])] ?_), ⟨[48], [2], rfl, rfl, rfl⟩⟩
    exact .absent ⟨c! "a", .tagged ⟨CLASS_CONTEXT_SPECIFIC, .number 0⟩ (.integer []) TAGS_EXPLICIT true, true, none⟩ _ _ _ rfl
      (.present ⟨c! "b", .octetString, false, none⟩ (.octets []) ⟨0, 4⟩ false [] [4, 0] [] [] [] (.octetString _) ⟨[4], [0], rfl, rfl, rfl⟩ (by simp) .nil)
  · have hb := (reads_element (fileA_nodup _ _) (fun _ => fileA_declares) (.defined _ _ _ _ declares_one (.struct _) trivial) (tag := 16) (cp := true)
      (t := 16) (c := [4, 0]) (rest0 := []) rfl (by decide) h).1
    cases hb with
    | simple _ _ _ _ _ hs => cases hs
    | struct _ _ _ _ rest _ hf =>
      cases hf with
      | cons _ _ _ _ _ b' _ _ _ _ h1 h2 =>
        exact reads_fails (fileA_nodup _ _) (fun _ => fileA_declares) (.int64 (by decide)) (tag := 2) (cp := false) rfl (.inl (by decide +kernel)) h1

/-- Numbers of enumerations are written with 64 bits and read with 32: `A ::= ENUMERATED { a(2147483648) }`. -/
theorem C82_enumerated : LostFor int64Params (.enumerated [.namedNumber ⟨c! "a", .number 2147483648⟩] []) := by
  have hd : ∀ sp, Declares ⟨c! "My_Mod", [.imp (c! "encoding/asn1"), .type [⟨c! "A", true, .ident (c! "asn1.Enumerated")⟩]]⟩ sp → '.' ∉ sp.name := by
    rintro sp ⟨l, hl, hs⟩
    simp only [List.mem_cons, reduceCtorEq, GoDecl.type.injEq, List.not_mem_nil, or_false, false_or] at hl
    subst hl
    rw [List.mem_singleton] at hs
    subst hs
    simp
  have hA : Declares ⟨c! "My_Mod", [.imp (c! "encoding/asn1"), .type [⟨c! "A", true, .ident (c! "asn1.Enumerated")⟩]]⟩
      ⟨c! "A", true, .ident (c! "asn1.Enumerated")⟩ := ⟨_, by simp, List.mem_singleton.2 rfl⟩
  refine ⟨⟨c! "My_Mod", [.imp (c! "encoding/asn1"), .type [⟨c! "A", true, .ident (c! "asn1.Enumerated")⟩]]⟩, .enum 2147483648, .enumerated 2147483648, [10, 5, 0, 128, 0, 0, 0], rfl, one_names ?_ ?_,
    .alias _ _ _ hA (.enumerated _ (by unfold GoInt; decide)), one_means (.enumerated _ _ _), by decide +kernel, ?_, fun v rest h => ?_⟩
  · intro nums h; simp [core_iff, removeWrapperTypes] at h
  · exact no_members fun t hi => by cases hi; simp
  · refine ⟨⟨0, 10⟩, false, [0, 128, 0, 0, 0], .ref _ _ _ _ _ _ (one_assigned _) (.enumerated _ _ _ _ ⟨by simp, by decide +kernel, ?_, ?_⟩),
      ⟨[10], [5], rfl, rfl, rfl⟩⟩
    · intro o r h; cases h; decide
    · intro o r h; cases h
  · have hb := (reads_element (by decide) hd (.alias _ _ _ _ hA .enumerated) (tag := 10) (cp := false)
      (t := 10) (c := [0, 128, 0, 0, 0]) (rest0 := []) rfl (by decide) h).1
    cases hb with
    | simple _ _ _ _ _ hs =>
      cases hs with
      | enum _ _ _ hr =>
        have hn : readInt32 [0, 128, 0, 0, 0] = none := by decide +kernel
        rw [hn] at hr
        cases hr

/-- The condition on OPTIONAL components is needed: in `A ::= SEQUENCE { a BOOLEAN OPTIONAL }` the encoding of FALSE is read as that of
an absent component. -/
theorem C82_optional_needed : ∃ f x bs, generateFile asciiCasing 20 int64Params (moduleOf TAGS_IMPLICIT [.type (c! "A") (.sequence [optionalBoolean] [])]) =
      some (.ok f) ∧ Encodes true [.type (c! "A") (.sequence [optionalBoolean] [])] TAGS_IMPLICIT (.ref (c! "A")) x bs ∧
    (∃ v, Unmarshals f asciiCasing (.ident (c! "A")) bs v []) ∧ ∀ v rest x', Unmarshals f asciiCasing (.ident (c! "A")) bs v rest →
      Stands true asciiCasing [.type (c! "A") (.sequence [optionalBoolean] [])] TAGS_IMPLICIT (c! "int64") f (.ref (c! "A")) v x' →
      ¬ Same [.type (c! "A") (.sequence [optionalBoolean] [])] (.ref (c! "A")) x x' := by
  have hm : members ([optionalBoolean] ++ []) = [⟨c! "a", .boolean, true, none⟩] := rfl
  have hu : ∀ e, Underlies (fileA (.struct e) false) (.ident (c! "A")) (c! "A") (.struct e) := fun e => .defined _ _ _ _ declares_one (.struct _) trivial
  refine ⟨fileA (.struct [.mk (c! "A") (.ident (c! "bool")) (some (c! "`asn1:\"optional\"`"))]) false, .record [some (.boolean false)], [48, 3, 1, 1, 0], rfl,
    ⟨⟨0, 16⟩, true, [1, 1, 0], .ref _ _ _ _ _ _ (one_assigned _) (.sequence _ _ _ [(⟨0, 1⟩, [1, 1, 0])] ?_), ⟨[48], [3], rfl, rfl, rfl⟩⟩,
    ⟨_, .element _ _ _ _ _ 16 true 16 [1, 1, 0] [] _ (hu _) rfl (by decide) (.struct _ _ _ _ [] _ (.cons _ _ _ _ _ [] _ _ _ (by decide)
      (.element _ _ _ _ _ 1 false 1 [0] [] (.bool false) (.bool (by decide)) rfl (by decide +kernel) (.simple _ _ _ _ _ (.bool _ _ _ (by decide)))) (.nil _)))⟩,
    fun v rest x' h hme hs => ?_⟩
  · exact .present ⟨c! "a", .boolean, true, none⟩ (.boolean false) ⟨0, 1⟩ false [0] [1, 1, 0] [] [] [] (.boolean _) ⟨[1], [1], rfl, rfl, rfl⟩ (by simp) .nil
  · have hb := (reads_element (fileA_nodup _ _) (fun _ => fileA_declares) (hu _) (tag := 16) (cp := true) (t := 16) (c := [1, 1, 0]) (rest0 := []) rfl
      (by decide) h).1
    have hv : v = .struct [.mk (c! "A") (some (c! "`asn1:\"optional\"`")) (.bool false)] := by
      cases hb with
      | simple _ _ _ _ _ hs => cases hs
      | struct _ _ _ _ rest _ hf =>
        cases hf with
        | cons _ _ _ _ _ b' _ _ _ _ h1 h2 =>
          obtain ⟨h3, rfl⟩ := reads_element (fileA_nodup _ _) (fun _ => fileA_declares) (.bool (by decide)) (tag := 1) (cp := false) (t := 1) (c := [0])
            (rest0 := []) rfl (by decide +kernel) h1
          cases h2
          cases h3 with
          | simple _ _ _ _ _ hs =>
            cases hs with
            | bool _ _ b hr =>
              have hn : readBool [0] = some false := by decide
              cases hn.symm.trans hr
              rfl
    subst hv
    have hx : x' = .record [none] := by
      cases hme with
      | ref _ t' _ _ h3 h4 =>
        cases assigned_unique h3 (one_assigned _)
        cases h4 with
        | sequence _ _ _ _ h5 =>
          rw [hm] at h5
          cases h5 with
          | present _ _ _ _ _ _ _ _ h6 => exact absurd (h6 rfl) (by decide)
          | absent _ _ _ _ _ _ _ _ _ h7 => cases h7; rfl
    subst hx
    cases hs with
    | ref _ t' _ _ h3 h4 =>
      cases assigned_unique h3 (one_assigned _)
      cases h4 with
      | sequence _ _ _ _ h5 => rw [hm] at h5; cases h5

/-- There are modules for which encodings cannot be read. -/
theorem C82_false : ¬ C82_statement := fun h => by
  obtain ⟨f, v, x, bs, h1, h2, -, -, -, h3, h4⟩ := C82_string_kind
  obtain ⟨v', -, h5, -⟩ := h asciiCasing 20 int64Params _ f h1 h2 (c! "A") x bs h3
  exact h4 v' [] h5

/-- There are modules for which values are lost. -/
theorem C83_false : ¬ C83_statement := fun h => by
  obtain ⟨f, v, x, bs, h1, h2, h3, h4, h5, -, h6⟩ := C82_explicit_empty
  obtain ⟨v', -, h7, -⟩ := h asciiCasing 20 int64Params _ f h1 h2 (c! "A") v x bs h3 h4 h5
  exact h6 v' [] h7

end Asn1go.Props
