import Verif.Props.Again
import Verif.Props.Choice

/-! CHOICE types held in interfaces, as encoding/asn1 reads them: C82, C83, C84. -/

namespace Asn1go.Props

open Spec CG Enco Deco

/-! ### What is lost -/

/-- The Go type of a CHOICE with several alternatives, none of them tagged, is `interface{}`. -/
theorem choice_iface {u : Casing} {fuel : Nat} {p : GenParams} {m : Module} {f : GoFile} (h : generateFile u fuel p m = some (.ok f))
    (hn : NamesOk u m.moduleBody.assignmentList) {a : Str} {alts : List MNamed} {ext : List MTy}
    (ha : Assigned m.moduleBody.assignmentList a (.choice alts ext)) (hst : ¬ SomeTagged m.moduleBody.assignmentList alts) (hl : alts.length ≠ 1) {e : GoExpr}
    (he : GoTypeOf u m.moduleBody.assignmentList m.tagDefault p.integerRepr (.ref a) e ∨ e = .ident (goifyName u a)) : ∃ n, Underlies f e n .iface := by
  have cx := context (strict := false) (op := .none) (s := fun _ => False) h hn (fun _ hb => hb.elim)
  obtain ⟨n, k, h1, h2⟩ := under_ref cx ha (pos := .assignment) (.inl rfl) (P := fun _ k => k = .iface) (by intro n m fs h; cases h)
    (fun e he => by
      cases he with
      | rawChoice _ _ h => exact absurd h hst
      | onlyChoice _ _ _ _ _ _ => exact absurd rfl hl
      | choice _ _ _ _ => exact ⟨[], .iface, .iface, fun hm => by cases hm with | choice _ _ _ _ _ => exact absurd rfl hl, fun _ _ => rfl⟩) he
  cases h2 n (.inl rfl)
  exact ⟨n, h1⟩

/-- From a constructed element, or one with a tag of another class than UNIVERSAL, nothing is read into an interface: it is left nil, without
an error, whatever the parameters of the field. -/
theorem C82_interface_nil (u : Casing) (fuel : Nat) (p : GenParams) (m : Module) (f : GoFile) (h : generateFile u fuel p m = some (.ok f))
    (hn : NamesOk u m.moduleBody.assignmentList) (hv : NoValName m.moduleBody.assignmentList) (a : Str) (alts : List MNamed) (ext : List MTy)
    (ha : Assigned m.moduleBody.assignmentList a (.choice alts ext)) (hst : ¬ SomeTagged m.moduleBody.assignmentList alts) (hal : alts.length ≠ 1)
    (q : FieldParams) (tag : AsnTag) (k : Bool) (c en : Bytes) (hen : Encoding tag k c en) (hc : tag.cls < 4) (hnum : tag.number ≤ 2147483647)
    (hl : c.length < 2147483648) (hk : k = true ∨ tag.cls ≠ 0) (rest : Bytes) (v : GoVal) (rest' : Bytes) :
    Decodes f u (.ident (goifyName u a)) q (en ++ rest) v rest' ↔ v = .nilIface ∧ rest' = rest := by
  obtain ⟨n, hu⟩ := choice_iface h hn ha hst hal (.inr rfl)
  have hh := parse_header hen hc hnum hl rest
  have hd : Decodes f u (.ident (goifyName u a)) q (en ++ rest) .nilIface rest := by
    have := Decodes.iface (u := u) (.ident (goifyName u a)) q (en ++ rest) n _ _ .nilIface hu hh (by simp) (.nothing (hk.imp_right .inl))
    simpa using this
  have cx := context (strict := false) (op := .none) (s := fun _ => False) h hn (fun _ hb => hb.elim)
  refine ⟨fun h' => ?_, fun h' => by rw [h'.1, h'.2]; exact hd⟩
  exact reads_unique (C67_distinct_partial u fuel p m f h hn.named hn.noSetClash hv) (fun sp hs => (not_declared cx (n := sp.name) hs).2) h' hd

/-- Nil stands for no value. -/
theorem nil_means {l : List MAssignment} {B : Held} {t : MTy} {v : GoVal} {x : AsnVal} (h : Means l B t v x) : v ≠ .nilIface := by
  refine Means.rec (motive_1 := fun _ v _ _ => v ≠ .nilIface) (motive_2 := fun _ _ _ _ => True) (motive_3 := fun _ _ _ _ => True)
    ?boolean ?integer ?bigInteger ?enumerated ?octetString ?bitString ?oid ?string ?time ?ref ?constrained ?tagged ?choice ?alternative ?raw ?sequence ?set ?sequenceOf ?setOf
    ?mnil ?mpresent ?mabsent ?enil ?econs h
  case ref => exact fun _ _ _ _ _ _ ih => ih
  case constrained => exact fun _ _ _ _ _ ih => ih
  case tagged => exact fun _ _ _ _ _ _ _ ih => ih
  case choice => exact fun _ _ _ _ _ _ _ ih => ih
  case alternative =>
    intro alts e n t v w x _ _ _ _ hw _ ih hv
    subst hw
    cases v <;> simp_all [GoVal.boxed]
  all_goals intros; first | trivial | simp

/-- So values of alternatives with such encodings are lost: what is written is read without an error, and stands for no value. -/
theorem C82_interface_lost (u : Casing) (fuel : Nat) (p : GenParams) (m : Module) (f : GoFile) (h : generateFile u fuel p m = some (.ok f))
    (hn : NamesOk u m.moduleBody.assignmentList) (hv : NoValName m.moduleBody.assignmentList) (a : Str) (alts : List MNamed) (ext : List MTy)
    (ha : Assigned m.moduleBody.assignmentList a (.choice alts ext)) (hst : ¬ SomeTagged m.moduleBody.assignmentList alts) (hal : alts.length ≠ 1)
    (x : AsnVal) (tag : AsnTag) (c bs : Bytes) (henc : Enc true m.moduleBody.assignmentList m.tagDefault (.choice alts ext) x tag true c)
    (hbs : Encoding tag true c bs) (hnum : tag.number ≤ 2147483647) (hl : c.length < 2147483648) :
    Encodes true m.moduleBody.assignmentList m.tagDefault (.ref a) x bs ∧ (∃ v, Unmarshals f u (.ident (goifyName u a)) bs v []) ∧
      ∀ v rest x', Unmarshals f u (.ident (goifyName u a)) bs v rest →
        ¬ Stands true u m.moduleBody.assignmentList m.tagDefault p.integerRepr f (.ref a) v x' := by
  have key := fun v rest => C82_interface_nil u fuel p m f h hn hv a alts ext ha hst hal {} tag true c bs hbs (enc_class henc) hnum hl (.inl rfl) [] v rest
  rw [List.append_nil] at key
  exact ⟨⟨tag, true, c, .ref _ _ _ _ _ _ ha henc, hbs⟩, ⟨_, (key _ _).2 ⟨rfl, rfl⟩⟩, fun v rest x' h1 h2 => nil_means h2 ((key _ _).1 h1).1⟩

/-- Lists of such values are never read, not even empty ones. -/
theorem C82_interface_list (u : Casing) (fuel : Nat) (p : GenParams) (m : Module) (f : GoFile) (h : generateFile u fuel p m = some (.ok f))
    (hn : NamesOk u m.moduleBody.assignmentList) (hv : NoValName m.moduleBody.assignmentList) (a c : Str) (t : MTy) (alts : List MNamed) (ext : List MTy)
    (ha : Assigned m.moduleBody.assignmentList a t) (ht : t = .sequenceOf (.ref c) ∨ t = .setOf (.ref c))
    (hc : Assigned m.moduleBody.assignmentList c (.choice alts ext)) (hst : ¬ SomeTagged m.moduleBody.assignmentList alts) (hal : alts.length ≠ 1)
    (bs : Bytes) (v : GoVal) (rest : Bytes) : ¬ Unmarshals f u (.ident (goifyName u a)) bs v rest := by
  have cx := context (strict := false) (op := .none) (s := fun _ => False) h hn (fun _ hb => hb.elim)
  have hd := C67_distinct_partial u fuel p m f h hn.named hn.noSetClash hv
  have hdot : ∀ sp, Declares f sp → '.' ∉ sp.name := fun sp hs => (not_declared cx (n := sp.name) hs).2
  obtain ⟨n, k, h1, h2⟩ := under_ref cx ha (pos := .assignment) (.inl rfl)
    (P := fun _ k => ∃ e, k = .slice e ∧ GoTypeOf u m.moduleBody.assignmentList m.tagDefault p.integerRepr (.ref c) e) (by intro n m fs h; simp at h)
    (fun e he => by
      rcases ht with rfl | rfl
      · cases he with
        | sequenceOf _ e he => exact ⟨_, _, .slice _ (not_byte cx.named he), fun _ => trivial, fun _ _ => ⟨e, rfl, he⟩⟩
      · cases he with
        | setOf _ e he => exact ⟨_, _, .slice _ (not_byte cx.named he), fun _ => trivial, fun _ _ => ⟨e, rfl, he⟩⟩) (.inr rfl)
  obtain ⟨e, rfl, he⟩ := h2 n (.inl rfl)
  obtain ⟨n', hi⟩ := choice_iface h hn hc hst hal (.inl he)
  intro hr
  cases hr with
  | missing _ _ _ _ _ _ _ _ ho _ => cases ho
  | raw _ _ _ _ _ _ _ h3 _ => exact absurd (under_unique hd hdot h1 h3).2 (by simp)
  | iface _ _ _ _ _ _ _ h3 _ _ _ => exact absurd (under_unique hd hdot h1 h3).2 (by simp)
  | element _ _ _ _ _ _ _ _ _ _ _ h3 _ _ h4 =>
    obtain ⟨rfl, rfl⟩ := under_unique hd hdot h1 h3
    cases h4 with
    | simple _ _ _ _ _ h5 => cases h5
    | slice _ _ _ _ _ _ _ h5 h6 _ =>
      obtain ⟨rfl, rfl⟩ := under_unique hd hdot hi h5
      simp [kindTag] at h6

theorem options_valName : NoValName options := by
  intro r hr
  have : r ∈ [c! "A", c! "B", c! "C"] := hr
  simp only [List.mem_cons, List.not_mem_nil, or_false] at this
  rcases this with rfl | rfl | rfl <;> decide

/-- `A{C: int64(5), D: nil}` -/
def optionsRead : GoVal := .struct [.mk (c! "C") none (.iface (.int 5)), .mk (c! "D") (some (c! "`asn1:\"explicit,tag:1\"`")) .nilIface]

/-- In the module above a component is lost: `A{C: int64(5), D: B{X: true}}` is written as DER demands, and read as
`A{C: int64(5), D: nil}`, which stands for no value. -/
theorem C83_options_lost : marshal asciiCasing optionsValue = some [48, 10, 2, 1, 5, 161, 5, 48, 3, 1, 1, 255] ∧
    (∀ v rest, Unmarshals optionsFile asciiCasing (.ident (c! "A")) [48, 10, 2, 1, 5, 161, 5, 48, 3, 1, 1, 255] v rest ↔ v = optionsRead ∧ rest = []) ∧
    ∀ x, ¬ Stands true asciiCasing options TAGS_IMPLICIT (c! "int64") optionsFile (.ref (c! "A")) optionsRead x := by
  have hA : Underlies optionsFile (.ident (c! "A")) (c! "A") (.struct optionFields) := .defined _ _ _ _ ⟨_, by simp [optionsFile], List.mem_singleton.2 rfl⟩ (.struct _) trivial
  have hC : Underlies optionsFile (.ident (c! "C")) [] .iface := .alias _ _ _ _ ⟨_, by simp [optionsFile], List.mem_singleton.2 rfl⟩ .iface
  have hr : Unmarshals optionsFile asciiCasing (.ident (c! "A")) [48, 10, 2, 1, 5, 161, 5, 48, 3, 1, 1, 255] optionsRead [] :=
    .element _ _ _ _ _ 16 true 16 [2, 1, 5, 161, 5, 48, 3, 1, 1, 255] [] _ hA rfl (by decide) (.struct _ _ _ _ [] _
      (.cons _ _ _ _ _ [161, 5, 48, 3, 1, 1, 255] _ _ _ (by decide)
        (.iface _ _ _ _ ⟨0, 2, false, 1⟩ [5, 161, 5, 48, 3, 1, 1, 255] _ hC (by decide) (by decide) (.value .int _ rfl rfl rfl (.int _ _ _ (by decide))))
        (.cons _ _ _ _ _ [] _ _ _ (by decide)
          (.iface _ _ _ _ ⟨2, 1, true, 5⟩ [48, 3, 1, 1, 255] _ hC (by decide) (by decide) (.nothing (.inl rfl))) (.nil _))))
  refine ⟨C76_options.1, fun v rest => ⟨fun h => ?_, fun h => by rw [h.1, h.2]; exact hr⟩, fun x hx => ?_⟩
  · exact C82_unique asciiCasing 20 int64Params _ optionsFile options_file options_names options_valName _ _ _ _ _ _ h hr
  · cases hx with
    | ref _ _ _ _ h1 h2 =>
      cases assigned_unique options_A h1
      cases h2 with
      | sequence _ _ _ _ h3 =>
        rw [options_members] at h3
        cases h3 with
        | present _ _ _ _ _ _ _ _ _ _ h4 =>
          cases h4 with
          | present _ _ _ _ _ _ _ _ _ h5 => exact nil_means h5 rfl
          | absent _ _ _ _ _ _ _ h5 => cases h5
        | absent _ _ _ _ _ _ _ h5 => cases h5

/-! ### What is given back -/

/-- `n INTEGER, o B, f BOOLEAN` -/
def answerAlts : List MNamed := [.mk (c! "n") (.integer []), .mk (c! "o") (.ref (c! "B")), .mk (c! "f") .boolean]

/-- `v C, w C` -/
def answerMembers : List MComponent := [comp (c! "v") (.ref (c! "C")), comp (c! "w") (.ref (c! "C"))]

/-- `A ::= SEQUENCE { v C, w C }  C ::= CHOICE { n INTEGER, o B, f BOOLEAN }  B ::= OCTET STRING` -/
def answers : List MAssignment := [.type (c! "A") (.sequence answerMembers []), .type (c! "C") (.choice answerAlts []), .type (c! "B") .octetString]

/-- The fields of the struct for `A`. -/
def answerFields : List GoField := [.mk (c! "V") (.ident (c! "C")) none, .mk (c! "W") (.ident (c! "C")) none]

/-- The file for it: `C` is `interface{}`. -/
def answersFile : GoFile := ⟨c! "My_Mod", [.type [⟨c! "A", false, .struct answerFields⟩], .type [⟨c! "C", true, .iface⟩], .type [⟨c! "B", true, .array (.ident (c! "byte"))⟩]]⟩

theorem answers_file : generateFile asciiCasing 20 int64Params (moduleOf TAGS_IMPLICIT answers) = some (.ok answersFile) := rfl

theorem answers_members : members (answerMembers ++ []) = [⟨c! "v", .ref (c! "C"), false, none⟩, ⟨c! "w", .ref (c! "C"), false, none⟩] := rfl

theorem answers_A : Assigned answers (c! "A") (.sequence answerMembers []) := by simp [Assigned, answers, Assignment.name]
theorem answers_B : Assigned answers (c! "B") .octetString := by simp [Assigned, answers, Assignment.name]
theorem answers_C : Assigned answers (c! "C") (.choice answerAlts []) := by simp [Assigned, answers, Assignment.name]

/-- The types inside the assigned types. -/
theorem answers_parts {n : Str} {t t' : MTy} (hm : .type n t ∈ answers) (hi : Inside answers t t') :
    t' = .sequence answerMembers [] ∨ t' = .ref (c! "C") ∨ t' = .choice answerAlts [] ∨ t' = .octetString := by
  simp only [answers, List.mem_cons, Assignment.type.injEq, List.not_mem_nil, or_false] at hm
  rcases hm with ⟨rfl, rfl⟩ | ⟨rfl, rfl⟩ | ⟨rfl, rfl⟩
  · cases hi with
    | here => exact .inl rfl
    | sequence _ _ x _ hx hi =>
      rw [answers_members] at hx
      simp only [List.mem_cons, List.not_mem_nil, or_false] at hx
      rcases hx with rfl | rfl <;> cases hi <;> exact .inr (.inl rfl)
  · cases hi; exact .inr (.inr (.inl rfl))
  · cases hi; exact .inr (.inr (.inr rfl))

theorem answers_inside {n : Str} {t : MTy} {a b : List MComponent} (hm : .type n t ∈ answers) (hi : Inside answers t (.sequence a b) ∨ Inside answers t (.set a b)) :
    a = answerMembers ∧ b = [] := by
  rcases hi with hi | hi <;> rcases answers_parts hm hi with h | h | h | h <;> cases h
  exact ⟨rfl, rfl⟩

theorem answers_names : NamesOk asciiCasing answers where
  named :=
    { types := by decide
      values := by decide
      typeName := by
        intro r hr
        have : r ∈ [c! "A", c! "C", c! "B"] := hr
        simp only [List.mem_cons, List.not_mem_nil, or_false] at this
        rcases this with rfl | rfl | rfl <;>
          exact upperName_of ⟨_, _, rfl, by decide⟩ (by decide) (by decide) (by decide) (by decide) (by decide)
      valueName := by simp [valueNames, answers]
      numbers := by
        intro r t nums hm hc
        simp only [answers, List.mem_cons, Assignment.type.injEq, List.not_mem_nil, or_false] at hm
        rcases hm with ⟨rfl, rfl⟩ | ⟨rfl, rfl⟩ | ⟨rfl, rfl⟩ <;> cases hc
      number := by
        intro r t nums hm hc
        simp only [answers, List.mem_cons, Assignment.type.injEq, List.not_mem_nil, or_false] at hm
        rcases hm with ⟨rfl, rfl⟩ | ⟨rfl, rfl⟩ | ⟨rfl, rfl⟩ <;> cases hc }
  noSetClash := by
    intro r t hm _
    simp only [answers, List.mem_cons, Assignment.type.injEq, List.not_mem_nil, or_false] at hm
    rcases hm with ⟨rfl, rfl⟩ | ⟨rfl, rfl⟩ | ⟨rfl, rfl⟩ <;> decide
  noTime := by
    intro a ha
    have : a ∈ [c! "A", c! "C", c! "B"] := ha
    simp only [List.mem_cons, List.not_mem_nil, or_false] at this
    rcases this with rfl | rfl | rfl <;> simp [TimeName]
  members := by
    intro n t hm a b hi
    obtain ⟨rfl, rfl⟩ := answers_inside hm hi
    refine ⟨by decide, fun x hx => ?_⟩
    rw [answers_members] at hx
    simp only [List.mem_cons, List.not_mem_nil, or_false] at hx
    rcases hx with rfl | rfl <;>
      exact lowerName_of ⟨_, _, rfl, by decide⟩ (by decide) (by decide) (by decide) (by decide) (by decide)

theorem answers_resolves : Resolves answers (c! "B") (c! "B") .octetString :=
  .assigned _ _ _ (.assigned _ _ _ answers_B (.done _ (by simp) (by simp)) (by simp)) (by simp)

theorem answers_untagged : ¬ SomeTagged answers answerAlts := by
  rintro ⟨n, t, hm, ht⟩
  simp only [answerAlts, List.mem_cons, NamedType.mk.injEq, List.not_mem_nil, or_false] at hm
  rcases hm with ⟨rfl, rfl⟩ | ⟨rfl, rfl⟩ | ⟨rfl, rfl⟩
  · cases ht
  · cases ht with
    | ref _ b t _ h1 h2 =>
      obtain ⟨rfl, rfl⟩ := resolves_unique h1 answers_resolves
      cases h2
  · cases ht

theorem answers_encodable (strict : Bool) : Encodable strict .ifaces answers TAGS_IMPLICIT (c! "int64") (c! "A") := by
  refine ⟨fun a => a = c! "A" ∨ a = c! "C" ∨ a = c! "B", .inl rfl, ?_⟩
  have hnone : ∀ n t o, DefaultOk strict answers (c! "int64") ⟨n, t, o, none⟩ := by
    intro n t o d hd; cases hd
  rintro b (rfl | rfl | rfl)
  · refine ⟨_, answers_A, ?_⟩
    simp only [answerMembers, comp, EncOk, EncOkMembers, EncOkTagged]
    exact ⟨⟨.inl (by simp), hnone _ _ _, by simp, .inl (by simp), hnone _ _ _, by simp, trivial⟩, trivial⟩
  · refine ⟨_, answers_C, ?_⟩
    simp only [answerAlts, EncOk, EncOkOnly, EncOkEach]
    refine .inr ⟨rfl, ?_, .inl trivial, ?_, trivial, ?_, .inl (by simp), ?_, trivial, trivial⟩
    · intro n t t' h1 h2
      simp only [List.mem_cons, NamedType.mk.injEq, List.not_mem_nil, or_false] at h1 h2
      rcases h1 with ⟨rfl, rfl⟩ | ⟨rfl, rfl⟩ | ⟨rfl, rfl⟩ <;> rcases h2 with ⟨h, rfl⟩ | ⟨h, rfl⟩ | ⟨h, rfl⟩ <;> first | rfl | simp at h
    · intro a b
      constructor <;> intro h <;> cases h
    · intro a b
      constructor <;> intro h <;> cases h
    · intro a b
      constructor <;> intro h <;> cases h
  · exact ⟨_, answers_B, by simp [EncOk]⟩

theorem answers_zero : ∀ a t, .type a t ∈ answers → OptionalsZero answers t := by
  intro n t hm a b hi x hx ho
  obtain ⟨rfl, rfl⟩ := answers_inside hm hi
  rw [answers_members] at hx
  simp only [List.mem_cons, List.not_mem_nil, or_false] at hx
  rcases hx with rfl | rfl <;> cases ho

theorem answers_readable : ∀ a t, .type a t ∈ answers → Readable answers TAGS_IMPLICIT t := by
  intro n t hm
  refine ⟨fun a b hi => ?_, fun t' hi => by rcases hi with hi | hi <;> rcases answers_parts hm hi with h | h | h | h <;> cases h⟩
  obtain ⟨rfl, rfl⟩ := answers_inside hm hi
  rw [answers_members]
  refine ⟨?_, ?_, fun hc => ?_, fun hc => ?_, trivial⟩
  · intro x hx g hg n hn
    simp only [List.mem_cons, List.not_mem_nil, or_false] at hx
    rcases hx with rfl | rfl <;> simp [tagsAround] at hg
  · intro x hx g hg hk
    simp only [List.mem_cons, List.not_mem_nil, or_false] at hx
    rcases hx with rfl | rfl <;> simp [tagsAround] at hg
  · simp [CanMiss] at hc
  · simp [CanMiss] at hc

/-- `A{V: int64(5), W: []byte{7}}` -/
def answersValue : GoVal := .struct [.mk (c! "V") none (.iface (.int 5)), .mk (c! "W") none (.iface (.bytes (some [7])))]

/-- What it stands for. -/
def answersAbstract : AsnVal :=
  .record [some (.choice (c! "n") (.integer 5)), some (.choice (c! "o") (.octets [7]))]

theorem answers_typed : Typed answersFile (.ident (c! "A")) answersValue :=
  have hc : Declares answersFile ⟨c! "C", true, .iface⟩ := ⟨_, by simp [answersFile], List.mem_singleton.2 rfl⟩
  .defined (c! "A") (.struct answerFields) answersValue ⟨_, by simp [answersFile], List.mem_singleton.2 rfl⟩ (.struct _ _
    (.cons _ _ _ _ _ _ (.alias _ _ _ hc (.iface _ _ (.int64 _ (by decide) (by unfold GoInt; decide)) (by simp) (by simp)))
      (.cons _ _ _ _ _ _ (.alias _ _ _ hc (.iface _ _ (.bytes _ (by decide)) (by simp) (by simp))) .nil)))

theorem answers_means : Stands true asciiCasing answers TAGS_IMPLICIT (c! "int64") answersFile (.ref (c! "A")) answersValue answersAbstract := by
  have hi : ∀ n, GoInt n → Stands true asciiCasing answers TAGS_IMPLICIT (c! "int64") answersFile (.ref (c! "C")) (.iface (.int n)) (.choice (c! "n") (.integer n)) := fun n hn =>
    .ref _ _ _ _ answers_C (.alternative _ _ _ _ (.int n) _ _ answers_untagged (by simp [answerAlts]) (by simp [answerAlts])
      ⟨_, .int64 [] rfl, .int64 _ (by decide) hn⟩ rfl (.integer _ _))
  have hb : Declares answersFile ⟨c! "B", true, .array (.ident (c! "byte"))⟩ := ⟨_, by simp [answersFile], List.mem_singleton.2 rfl⟩
  have ho : Stands true asciiCasing answers TAGS_IMPLICIT (c! "int64") answersFile (.ref (c! "C")) (.iface (.bytes (some [7]))) (.choice (c! "o") (.octets [7])) :=
    .ref _ _ _ _ answers_C (.alternative _ _ _ (.ref (c! "B")) (.bytes (some [7])) _ _ answers_untagged (by simp [answerAlts]) (by simp [answerAlts])
      ⟨.ident (c! "B"), .ref _ _ _ answers_resolves (by simp [TimeName]) (by intro nb h; cases h), .alias _ _ _ hb (.bytes _ (by decide))⟩ rfl
      (.ref _ _ _ _ answers_B (.octetString (some [7]))))
  exact .ref _ _ _ _ answers_A (.sequence _ _ _ _ (.present _ _ _ _ _ _ _ _ (by simp) (hi 5 (by unfold GoInt; decide))
    (.present _ _ _ _ _ _ _ _ (by simp) ho .nil)))

theorem answers_small : ReadSmall answers (.ref (c! "A")) answersAbstract := by
  intro t y h
  have key : (∀ n, y ≠ .enumerated n) ∧ ∀ o, y ≠ .oid o := by
    cases seen_part h with
    | here => exact ⟨by simp [answersAbstract], by simp [answersAbstract]⟩
    | record _ x _ hx hp =>
      simp only [List.mem_cons, Option.some.injEq, List.not_mem_nil, or_false] at hx
      rcases hx with rfl | rfl <;> cases hp with
      | here => simp
      | choice _ _ _ hp => cases hp; simp
  exact ⟨fun n h => absurd h (key.1 n), fun o h => absurd h (key.2 o), fun _ _ _ h => absurd h (key.2 _)⟩

/-- The parts of this value: no truth value is held. -/
theorem answers_seen {t : MTy} {y : AsnVal} (h : Seen answers (.ref (c! "A")) answersAbstract t y) :
    (t = .ref (c! "A") ∨ t = .sequence answerMembers [] ∨ t = .ref (c! "C") ∨ t = .integer [] ∨ t = .ref (c! "B") ∨ t = .octetString) ∨
      t = .choice answerAlts [] ∧ ∀ z, y ≠ .choice (c! "f") z := by
  have alt : ∀ {n : Str} {x : AsnVal}, n = c! "n" ∨ n = c! "o" → Seen answers (.ref (c! "C")) (.choice n x) t y →
      (t = .ref (c! "C") ∨ t = .integer [] ∨ t = .ref (c! "B") ∨ t = .octetString) ∨ t = .choice answerAlts [] ∧ ∀ z, y ≠ .choice (c! "f") z := by
    intro n x hn h
    cases h with
    | here => exact .inl (.inl rfl)
    | ref _ t _ _ _ h1 h2 =>
      cases assigned_unique h1 answers_C
      cases h2 with
      | here => exact .inr ⟨rfl, by rcases hn with rfl | rfl <;> simp⟩
      | choice _ _ _ _ _ _ _ _ hm h3 =>
        simp only [answerAlts, List.mem_cons, NamedType.mk.injEq, List.not_mem_nil, or_false] at hm
        rcases hm with ⟨rfl, rfl⟩ | ⟨rfl, rfl⟩ | ⟨rfl, rfl⟩
        · cases h3; exact .inl (.inr (.inl rfl))
        · cases h3 with
          | here => exact .inl (.inr (.inr (.inl rfl)))
          | ref _ t _ _ _ h4 h5 =>
            cases assigned_unique h4 answers_B
            cases h5; exact .inl (.inr (.inr (.inr rfl)))
        · simp at hn
  cases h with
  | here => exact .inl (.inl rfl)
  | ref _ t _ _ _ h1 h2 =>
    cases assigned_unique h1 answers_A
    cases h2 with
    | here => exact .inl (.inr (.inl rfl))
    | sequence _ _ _ m _ _ _ hm h3 =>
      rw [answers_members] at hm
      simp only [List.zip_cons_cons, List.zip_nil_left, List.mem_cons, Prod.mk.injEq, Option.some.injEq, List.not_mem_nil, or_false] at hm
      rcases hm with ⟨rfl, rfl⟩ | ⟨rfl, rfl⟩
      · exact (alt (.inl rfl) h3).imp_left fun h => .inr (.inr h)
      · exact (alt (.inr rfl) h3).imp_left fun h => .inr (.inr h)

theorem answers_read : InterfacesRead answers (c! "int64") (.ref (c! "A")) answersAbstract := by
  constructor
  · intro g t' k h y hs
    rcases answers_seen hs with (h | h | h | h | h | h) | ⟨h, -⟩ <;> cases h
  · intro alts e n y hs _ _ t' ht
    rcases answers_seen hs with (h | h | h | h | h | h) | ⟨h, hne⟩ <;> cases h
    simp only [answerAlts, List.mem_cons, NamedType.mk.injEq, List.not_mem_nil, or_false] at ht
    rcases ht with ⟨rfl, rfl⟩ | ⟨rfl, rfl⟩ | ⟨rfl, rfl⟩
    · exact .integer _ _ rfl
    · exact .ref _ _ _ answers_B (.octetString _)
    · exact absurd rfl (hne _)

/-- Values of untagged CHOICE types meet the conditions, if their alternatives are of these types. -/
theorem C83_answers : marshal asciiCasing answersValue = some [48, 6, 2, 1, 5, 4, 1, 7] ∧
    ∀ rest, ∃ v x, Unmarshals answersFile asciiCasing (.ident (c! "A")) ([48, 6, 2, 1, 5, 4, 1, 7] ++ rest) v rest ∧
      Stands true asciiCasing answers TAGS_IMPLICIT (c! "int64") answersFile (.ref (c! "A")) v x ∧ Same answers (.ref (c! "A")) answersAbstract x := by
  have he : marshal asciiCasing answersValue = some [48, 6, 2, 1, 5, 4, 1, 7] := by decide +kernel
  obtain ⟨bs, h1, h2⟩ := C83_round_partial asciiCasing 20 int64Params _ answersFile answers_file answers_names answers_zero answers_readable .ifaces ifaces_limited
    (c! "A") (answers_encodable true) answersValue answersAbstract (fun _ => answers_read) answers_typed answers_means answers_small
  cases h1.symm.trans he
  exact ⟨he, h2 (by decide)⟩

/-! ### Lists -/

/-- `n INTEGER, o OCTET STRING` -/
def replyAlts : List MNamed := [.mk (c! "n") (.integer []), .mk (c! "o") .octetString]

/-- `A ::= SEQUENCE OF C  C ::= CHOICE { n INTEGER, o OCTET STRING }` -/
def replies : List MAssignment := [.type (c! "A") (.sequenceOf (.ref (c! "C"))), .type (c! "C") (.choice replyAlts [])]

/-- The file for it. -/
def repliesFile : GoFile := ⟨c! "My_Mod", [.type [⟨c! "A", true, .array (.ident (c! "C"))⟩], .type [⟨c! "C", true, .iface⟩]]⟩

theorem replies_file : generateFile asciiCasing 20 int64Params (moduleOf TAGS_IMPLICIT replies) = some (.ok repliesFile) := rfl

theorem replies_A : Assigned replies (c! "A") (.sequenceOf (.ref (c! "C"))) := by simp [Assigned, replies, Assignment.name]
theorem replies_C : Assigned replies (c! "C") (.choice replyAlts []) := by simp [Assigned, replies, Assignment.name]

theorem replies_names : NamesOk asciiCasing replies where
  named :=
    { types := by decide
      values := by decide
      typeName := by
        intro r hr
        have : r ∈ [c! "A", c! "C"] := hr
        simp only [List.mem_cons, List.not_mem_nil, or_false] at this
        rcases this with rfl | rfl <;>
          exact upperName_of ⟨_, _, rfl, by decide⟩ (by decide) (by decide) (by decide) (by decide) (by decide)
      valueName := by simp [valueNames, replies]
      numbers := by
        intro r t nums hm hc
        simp only [replies, List.mem_cons, Assignment.type.injEq, List.not_mem_nil, or_false] at hm
        rcases hm with ⟨rfl, rfl⟩ | ⟨rfl, rfl⟩ <;> cases hc
      number := by
        intro r t nums hm hc
        simp only [replies, List.mem_cons, Assignment.type.injEq, List.not_mem_nil, or_false] at hm
        rcases hm with ⟨rfl, rfl⟩ | ⟨rfl, rfl⟩ <;> cases hc }
  noSetClash := by
    intro r t hm _
    simp only [replies, List.mem_cons, Assignment.type.injEq, List.not_mem_nil, or_false] at hm
    rcases hm with ⟨rfl, rfl⟩ | ⟨rfl, rfl⟩ <;> decide
  noTime := by
    intro a ha
    have : a ∈ [c! "A", c! "C"] := ha
    simp only [List.mem_cons, List.not_mem_nil, or_false] at this
    rcases this with rfl | rfl <;> simp [TimeName]
  members := by
    intro n t hm a b hi
    simp only [replies, List.mem_cons, Assignment.type.injEq, List.not_mem_nil, or_false] at hm
    rcases hm with ⟨rfl, rfl⟩ | ⟨rfl, rfl⟩ <;> rcases hi with hi | hi <;> cases hi
    all_goals rename_i hi; cases hi

theorem replies_valName : NoValName replies := by
  intro r hr
  have : r ∈ [c! "A", c! "C"] := hr
  simp only [List.mem_cons, List.not_mem_nil, or_false] at this
  rcases this with rfl | rfl <;> decide

theorem replies_encodable (strict : Bool) : Encodable strict .ifaces replies TAGS_IMPLICIT (c! "int64") (c! "A") := by
  refine ⟨fun a => a = c! "A" ∨ a = c! "C", .inl rfl, ?_⟩
  rintro b (rfl | rfl)
  · exact ⟨_, replies_A, by simp [EncOk]⟩
  · refine ⟨_, replies_C, ?_⟩
    simp only [replyAlts, EncOk, EncOkOnly, EncOkEach]
    refine .inr ⟨rfl, ?_, .inl trivial, ?_, trivial, ?_, trivial, trivial⟩
    · intro n t t' h1 h2
      simp only [List.mem_cons, NamedType.mk.injEq, List.not_mem_nil, or_false] at h1 h2
      rcases h1 with ⟨rfl, rfl⟩ | ⟨rfl, rfl⟩ <;> rcases h2 with ⟨h, rfl⟩ | ⟨h, rfl⟩ <;> first | rfl | simp at h
    · intro a b
      constructor <;> intro h <;> cases h
    · intro a b
      constructor <;> intro h <;> cases h

/-- `A{int64(5)}` -/
def repliesValue : GoVal := .slice [] false [.iface (.int 5)]

theorem replies_typed : Typed repliesFile (.ident (c! "A")) repliesValue :=
  have hc : Declares repliesFile ⟨c! "C", true, .iface⟩ := ⟨_, by simp [repliesFile], List.mem_singleton.2 rfl⟩
  .alias (c! "A") (.array (.ident (c! "C"))) repliesValue ⟨_, by simp [repliesFile], List.mem_singleton.2 rfl⟩
    (.slice _ _ _ (by simp) (by simp) (.cons _ _ _ (.alias _ _ _ hc (.iface _ _ (.int64 _ (by decide) (by unfold GoInt; decide)) (by simp) (by simp))) (.nil _)))

theorem replies_untagged : ¬ SomeTagged replies replyAlts := by
  rintro ⟨n, t, hm, ht⟩
  simp only [replyAlts, List.mem_cons, NamedType.mk.injEq, List.not_mem_nil, or_false] at hm
  rcases hm with ⟨rfl, rfl⟩ | ⟨rfl, rfl⟩ <;> cases ht

/-- A list is written as DER demands, and never read. -/
theorem C83_replies_unread : Encodable true .ifaces replies TAGS_IMPLICIT (c! "int64") (c! "A") ∧ Typed repliesFile (.ident (c! "A")) repliesValue ∧
    marshal asciiCasing repliesValue = some [48, 3, 2, 1, 5] ∧
    Encodes true replies TAGS_IMPLICIT (.ref (c! "A")) (.list [.choice (c! "n") (.integer 5)]) [48, 3, 2, 1, 5] ∧
    ∀ bs v rest, ¬ Unmarshals repliesFile asciiCasing (.ident (c! "A")) bs v rest := by
  refine ⟨replies_encodable true, replies_typed, by decide +kernel, ?_, ?_⟩
  · have hm : Stands true asciiCasing replies TAGS_IMPLICIT (c! "int64") repliesFile (.ref (c! "A")) repliesValue (.list [.choice (c! "n") (.integer 5)]) :=
      .ref _ _ _ _ replies_A (.sequenceOf _ _ _ _ _ (.cons _ _ _ _ _ (.ref _ _ _ _ replies_C (.alternative _ _ _ _ (.int 5) _ _ replies_untagged (by simp [replyAlts])
        (by simp [replyAlts]) ⟨_, .int64 [] rfl, .int64 _ (by decide) (by unfold GoInt; decide)⟩ rfl (.integer _ _))) (.nil _)))
    obtain ⟨bs, h1, h2⟩ := C76_der_partial asciiCasing 20 int64Params _ repliesFile replies_file replies_names .ifaces (c! "A") (replies_encodable true) _ _ replies_typed hm
    cases h1.symm.trans (show marshal asciiCasing repliesValue = some [48, 3, 2, 1, 5] by decide +kernel)
    exact h2 (by decide)
  · exact C82_interface_list asciiCasing 20 int64Params _ repliesFile replies_file replies_names replies_valName (c! "A") (c! "C") _ replyAlts [] replies_A (.inl rfl) replies_C
      replies_untagged (by simp [replyAlts])

end Asn1go.Props
