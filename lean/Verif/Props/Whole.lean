import Verif.Props.Names
import Verif.Props.Again
import Verif.Props.Order
import Verif.Tests.Basic

/-! From texts to octets and back: names that parsed modules have (C72), and what is proved about encodings (C74, C83) and about added
assignments (C86), for texts. -/

namespace Asn1go.Props

open Spec CG Enco Deco

/-! ### Assigned names -/

theorem upper_unreserved {u : Unicode} {adj : Bool} {text : Str} {toks : List Token} (h : Tokens u adj text toks) :
    ∀ s, Notation.upper s ∈ toks → ∀ code, (s, code) ∉ reservedWords := by
  induction h with
  | nil => simp
  | cons adj t sp rest code p toks _ hl _ ih =>
    intro s hs
    rcases List.mem_cons.1 hs with hs | hs
    · simp only [Notation.upper, Prod.mk.injEq] at hs
      obtain ⟨rfl, rfl⟩ := hs
      generalize hc : Tok.TYPEORMODULEREFERENCE = code at hl
      generalize hp : Payload.name s = p at hl
      cases hl with
      | typeReference c w _ _ _ _ _ hr =>
        cases hp
        exact hr
      | identifier => cases hc
      | _ => cases hp
    · exact ih s hs

theorem assignments_upper {R D : Type} {L : Links R D} {simple : Bool} {toks : List Token} {l : List (Assignment R D)}
    (h : Notation.AssignmentsText L simple toks l) : ∀ n t, .type n t ∈ l → Notation.upper n ∈ toks := by
  induction h with
  | one _ z hz =>
    intro n t hy
    rw [List.mem_singleton] at hy
    subst hy
    cases hz with
    | type _ _ _ ht => simp
  | snoc _ _ l z _ hz ih =>
    intro n t hy
    rcases List.mem_append.1 hy with hy | hy
    · exact List.mem_append_left _ (ih n t hy)
    · rw [List.mem_singleton] at hy
      subst hy
      cases hz with
      | type _ _ _ ht => simp

/-- No assigned type of a parsed module has a reserved word for its name. -/
theorem C72_unreserved (u : Unicode) (text : Str) (m : Module) (h : parseString u text = .ok m) :
    ∀ n t, .type n t ∈ m.moduleBody.assignmentList → ∀ code, (n, code) ∉ reservedWords := by
  obtain ⟨toks, n, m0, htok, hn, rfl, hs⟩ := C63_returned u text m h
  intro a t ha
  simp only [ModuleDefinition.map, ModuleBody.map, List.mem_map] at ha
  obtain ⟨x, hx, ha⟩ := ha
  have hb : m0.moduleBody.assignmentList.map (Assignment.map Ref.known fun _ => ()) =
      n.moduleBody.assignmentList.map (Assignment.map Ref.known fun _ => ()) := by
    have := congrArg (fun q => q.moduleBody.assignmentList) hs
    simpa only [ModuleDefinition.map, ModuleBody.map] using this
  cases x with
  | type r s =>
    simp only [Assignment.map, Assignment.type.injEq] at ha
    obtain ⟨rfl, rfl⟩ := ha
    have hx' := List.mem_map_of_mem (f := Assignment.map Ref.known fun _ => ()) hx
    rw [hb] at hx'
    obtain ⟨y, hy, hyx⟩ := List.mem_map.1 hx'
    cases y with
    | type r' s' =>
      simp only [Assignment.map, Assignment.type.injEq] at hyx
      obtain ⟨rfl, _⟩ := hyx
      refine upper_unreserved htok _ ?_
      cases hn with
      | mk _ _ _ _ _ _ _ _ _ _ _ _ hbody =>
        cases hbody with
        | empty => cases hy
        | some _ _ _ _ l _ _ hl =>
          have := assignments_upper hl _ _ hy
          simp [this]
    | value r' s' v' => simp [Assignment.map] at hyx
    | nil => simp [Assignment.map] at hyx
  | value r s v => simp [Assignment.map] at ha
  | nil => simp [Assignment.map] at ha

/-- So none has the name of a time type. -/
theorem parsed_noTime {u : Unicode} {text : Str} {m : Module} (h : parseString u text = .ok m) :
    ∀ a ∈ typeNames m.moduleBody.assignmentList, ¬ TimeName a := by
  intro a ha
  obtain ⟨t, hm⟩ := of_typeNames ha
  have := C72_unreserved u text m h a t hm
  rintro (rfl | rfl)
  · exact this Tok.GeneralizedTime (by decide)
  · exact this Tok.UTCTime (by decide)

/-- For ASCII texts, different names are all that C75–C77 and C82–C84 ask of names, but for types named as a SET type with `SET` after it. -/
theorem C74_encoding (u : Casing) (text : Str) (m : Module) (ha : ∀ c ∈ text, c.toNat < 128) (hp : parseString u.toUnicode text = .ok m)
    (hd : NamesDistinct m.moduleBody.assignmentList) (hs : NoSetClash m.moduleBody.assignmentList) : NamesOk u m.moduleBody.assignmentList := by
  obtain ⟨h1, h2, _⟩ := parsed_named ha hp hd
  exact ⟨h1, hs, parsed_noTime hp, h2⟩

/-! ### C83: from a text to octets and back -/

/-- If an ASCII text is parsed, and a file is generated for the module, then values of the Go types are written, and what is written is read and
stands for the same values. Of names only what the standard demands is asked, but for types named as a SET type with `SET` after it. -/
theorem C83_text_partial (u : Casing) (fuel : Nat) (p : GenParams) (text : Str) (m : Module) (f : GoFile) (hascii : ∀ c ∈ text, c.toNat < 128)
    (hp : parseString u.toUnicode text = .ok m) (h : generateFile u fuel p m = some (.ok f))
    (hd : NamesDistinct m.moduleBody.assignmentList) (hs : NoSetClash m.moduleBody.assignmentList)
    (hzero : ∀ a t, .type a t ∈ m.moduleBody.assignmentList → OptionalsZero m.moduleBody.assignmentList t)
    (hread : ∀ a t, .type a t ∈ m.moduleBody.assignmentList → Readable m.moduleBody.assignmentList m.tagDefault t)
    (op : Open) (hlim : op.Limited) (a : Str) (ha : Encodable true op m.moduleBody.assignmentList m.tagDefault p.integerRepr a) (v : GoVal) (x : AsnVal)
    (hif : op.iface = true → InterfacesRead m.moduleBody.assignmentList p.integerRepr (.ref a) x)
    (hty : Typed f (.ident (goifyName u a)) v) (hm : Stands true u m.moduleBody.assignmentList m.tagDefault p.integerRepr f (.ref a) v x) (hf : ReadSmall m.moduleBody.assignmentList (.ref a) x) :
    ∃ bs, marshal u v = some bs ∧ (bs.length < 2147483648 → Encodes true m.moduleBody.assignmentList m.tagDefault (.ref a) x bs ∧ ∀ rest,
      ∃ v' x', Unmarshals f u (.ident (goifyName u a)) (bs ++ rest) v' rest ∧ Stands true u m.moduleBody.assignmentList m.tagDefault p.integerRepr f (.ref a) v' x' ∧
        Same m.moduleBody.assignmentList (.ref a) x x') := by
  have hn := C74_encoding u text m hascii hp hd hs
  obtain ⟨bs, h1, h2⟩ := C83_round_partial u fuel p m f h hn hzero hread op hlim a ha v x hif hty hm hf
  obtain ⟨bs', h3, h4⟩ := C76_der_partial u fuel p m f h hn op a ha v x hty hm
  cases h1.symm.trans h3
  exact ⟨bs, h1, fun hl => ⟨h4 (by omega), h2 hl⟩⟩

/-! #### A text that meets all conditions -/

def noteText : Str := c! "My-Mod DEFINITIONS IMPLICIT TAGS ::= BEGIN A ::= SEQUENCE { n IA5String, v [0] INTEGER, b B OPTIONAL } B ::= OCTET STRING END"

def noteMembers : List MComponent :=
  [comp (c! "n") (.restrictedString Tok.IA5String), comp (c! "v") (.tagged ⟨CLASS_CONTEXT_SPECIFIC, .number 0⟩ (.integer []) 0 false),
   .named (.mk (c! "b") (.ref (c! "B"))) true none]

def note : List MAssignment := [.type (c! "A") (.sequence noteMembers []), .type (c! "B") .octetString]

def noteModule : Module := { moduleOf TAGS_IMPLICIT note with moduleIdentifier := ⟨c! "My-Mod", []⟩ }

def noteFields : List GoField :=
  [.mk (c! "N") (.ident (c! "string")) (some (c! "`asn1:\"ia5\"`")), .mk (c! "V") (.ident (c! "int64")) (some (c! "`asn1:\"tag:0\"`")),
   .mk (c! "B") (.ident (c! "B")) (some (c! "`asn1:\"optional\"`"))]

def noteFile : GoFile := ⟨c! "My_Mod", [.type [⟨c! "A", false, .struct noteFields⟩], .type [⟨c! "B", true, .array (.ident (c! "byte"))⟩]]⟩

theorem note_parsed : parseString asciiUnicode noteText = .ok noteModule := by kernel_rfl

theorem note_file : generateFile asciiCasing 20 int64Params noteModule = some (.ok noteFile) := rfl

theorem note_members : members (noteMembers ++ []) =
    [⟨c! "n", .restrictedString Tok.IA5String, false, none⟩, ⟨c! "v", .tagged ⟨CLASS_CONTEXT_SPECIFIC, .number 0⟩ (.integer []) 0 false, false, none⟩,
      ⟨c! "b", .ref (c! "B"), true, none⟩] := rfl

theorem note_inside {n : Str} {t : MTy} {a b : List MComponent} (hm : .type n t ∈ note) (hi : Inside note t (.sequence a b) ∨ Inside note t (.set a b)) :
    a = noteMembers ∧ b = [] := by
  simp only [note, List.mem_cons, Assignment.type.injEq, List.not_mem_nil, or_false] at hm
  rcases hm with ⟨rfl, rfl⟩ | ⟨rfl, rfl⟩
  · have hno : ∀ t', (t' = .sequence a b ∨ t' = .set a b) → ∀ x ∈ members (noteMembers ++ []), ¬ Inside note x.type t' := by
      intro t' ht x hx hi
      rw [note_members] at hx
      simp only [List.mem_cons, List.not_mem_nil, or_false] at hx
      rcases hx with rfl | rfl | rfl <;> rcases ht with rfl | rfl <;> cases hi <;> rename_i hi <;> cases hi
    rcases hi with hi | hi
    · cases hi with
      | here => exact ⟨rfl, rfl⟩
      | sequence _ _ x _ hx hi => exact absurd hi (hno _ (.inl rfl) x hx)
    · cases hi with
      | sequence _ _ x _ hx hi => exact absurd hi (hno _ (.inr rfl) x hx)
  · rcases hi with hi | hi <;> cases hi

theorem note_A : Assigned note (c! "A") (.sequence noteMembers []) := by simp [Assigned, note, Assignment.name]
theorem note_B : Assigned note (c! "B") .octetString := by simp [Assigned, note, Assignment.name]

theorem note_distinct : NamesDistinct note where
  types := by decide
  values := by decide
  numbers := by
    intro r t nums hm hc
    simp only [note, List.mem_cons, Assignment.type.injEq, List.not_mem_nil, or_false] at hm
    rcases hm with ⟨rfl, rfl⟩ | ⟨rfl, rfl⟩ <;> cases hc
  typeMembers := by
    intro n t hm a b hi
    obtain ⟨rfl, rfl⟩ := note_inside hm hi
    decide
  valueMembers := by
    intro n t v hm
    simp [note] at hm

theorem note_noSet : NoSetClash note := by
  intro r t hm _
  simp only [note, List.mem_cons, Assignment.type.injEq, List.not_mem_nil, or_false] at hm
  rcases hm with ⟨rfl, rfl⟩ | ⟨rfl, rfl⟩ <;> decide

theorem note_zero : ∀ a t, .type a t ∈ note → OptionalsZero note t := by
  intro n t hm a b hi x hx ho
  obtain ⟨rfl, rfl⟩ := note_inside hm hi
  rw [note_members] at hx
  simp only [List.mem_cons, List.not_mem_nil, or_false] at hx
  rcases hx with rfl | rfl | rfl
  · cases ho
  · cases ho
  · exact .ref _ _ note_B .octetString

/-- The types of elements. -/
theorem note_lists {n : Str} {t t' : MTy} (hm : .type n t ∈ note) (hi : Inside note t (.sequenceOf t') ∨ Inside note t (.setOf t')) : t' = .boolean := by
  simp only [note, List.mem_cons, Assignment.type.injEq, List.not_mem_nil, or_false] at hm
  rcases hm with ⟨rfl, rfl⟩ | ⟨rfl, rfl⟩
  · have hno : ∀ y, (y = .sequenceOf t' ∨ y = .setOf t') → ∀ x ∈ members (noteMembers ++ []), Inside note x.type y → t' = .boolean := by
      intro y ht x hx hi
      rw [note_members] at hx
      simp only [List.mem_cons, List.not_mem_nil, or_false] at hx
      rcases hx with rfl | rfl | rfl <;> rcases ht with rfl | rfl <;> cases hi <;> first | rfl | (rename_i hi; cases hi)
    rcases hi with hi | hi
    · cases hi with
      | sequence _ _ x _ hx hi => exact hno _ (.inl rfl) x hx hi
    · cases hi with
      | sequence _ _ x _ hx hi => exact hno _ (.inr rfl) x hx hi
  · rcases hi with hi | hi <;> cases hi

theorem note_readable : ∀ a t, .type a t ∈ note → Readable note TAGS_IMPLICIT t := by
  intro n t hm
  refine ⟨fun a b hi => ?_, fun t' hi => by rw [note_lists hm hi]; exact .boolean⟩
  obtain ⟨rfl, rfl⟩ := note_inside hm hi
  rw [note_members]
  refine ⟨?_, ?_, ?_⟩
  · intro x hx g hg n hn
    simp only [List.mem_cons, List.not_mem_nil, or_false] at hx
    rcases hx with rfl | rfl | rfl <;> simp [tagsAround] at hg
    subst hg
    cases hn
    decide
  · intro x hx g hg hk
    simp only [List.mem_cons, List.not_mem_nil, or_false] at hx
    rcases hx with rfl | rfl | rfl <;> simp [tagsAround] at hg
    subst hg
    decide
  · refine ⟨fun hc => ?_, fun hc => ?_, fun _ pre y post he => ?_, trivial⟩
    · simp [CanMiss] at hc
    · simp [CanMiss] at hc
    · cases pre <;> cases he

theorem note_encodable (strict : Bool) (op : Open) : Encodable strict op note TAGS_IMPLICIT (c! "int64") (c! "A") := by
  refine ⟨fun a => a = c! "A" ∨ a = c! "B", .inl rfl, ?_⟩
  have hnone : ∀ n t o, DefaultOk strict note (c! "int64") ⟨n, t, o, none⟩ := by
    intro n t o d hd; cases hd
  rintro b (rfl | rfl)
  · refine ⟨_, note_A, ?_⟩
    simp only [noteMembers, comp, EncOk, EncOkMembers, EncOkTagged]
    refine ⟨⟨.inr ⟨trivial, by decide⟩, hnone _ _ _, by simp, ⟨by decide, ⟨0, rfl, by unfold GoInt; decide⟩, .inr ⟨rfl, by intro h; cases h⟩, (by intro h; cases h), trivial⟩,
      hnone _ _ _, by simp, .inl (.inr trivial), hnone _ _ _, fun _ _ hi => ?_, trivial⟩, trivial⟩
    cases hi with | ref _ _ h1 h2 => cases assigned_unique note_B h1; cases h2
  · exact ⟨_, note_B, by simp [EncOk]⟩

/-- `A{N: "x", V: 5, B: []byte{7}}` -/
def noteValue : GoVal := .struct [
  .mk (c! "N") (some (c! "`asn1:\"ia5\"`")) (.str (c! "x")), .mk (c! "V") (some (c! "`asn1:\"tag:0\"`")) (.int 5),
  .mk (c! "B") (some (c! "`asn1:\"optional\"`")) (.bytes (some [7]))]

theorem note_typed : Typed noteFile (.ident (c! "A")) noteValue :=
  .defined (c! "A") (.struct noteFields) noteValue ⟨_, by simp [noteFile], List.mem_singleton.2 rfl⟩ (.struct _ _
    (.cons _ _ _ _ _ _ (.string _ (by decide)) (.cons _ _ _ _ _ _ (.int64 _ (by decide) (by unfold GoInt; decide))
      (.cons _ _ _ _ _ _ (.alias (c! "B") (.array (.ident (c! "byte"))) _ ⟨_, by simp [noteFile], List.mem_singleton.2 rfl⟩ (.bytes _ (by decide))) .nil))))

/-- What it stands for. -/
def noteAbstract : AsnVal := .record [some (.string (c! "x")), some (.integer 5), some (.octets [7])]

theorem note_means (strict : Bool) : Stands strict asciiCasing note TAGS_IMPLICIT (c! "int64") noteFile (.ref (c! "A")) noteValue noteAbstract :=
  .ref _ _ _ _ note_A (.sequence _ _ _ _ (.present _ _ _ _ _ _ _ _ (by simp) (.string _ _ _ _ _ .ia5 (by decide))
    (.present _ _ _ _ _ _ _ _ (by simp) (.tagged _ _ _ _ _ _ (.integer _ _))
      (.present _ _ _ _ _ _ _ _ (by simp [GoVal.isZero]) (.ref _ _ _ _ note_B (.octetString _)) .nil))))

theorem note_small : ReadSmall note (.ref (c! "A")) noteAbstract := by
  intro t' y h
  have key : (∀ n, y ≠ .enumerated n) ∧ ∀ o, y ≠ .oid o := by
    cases seen_part h with
    | here => exact ⟨by simp [noteAbstract], by simp [noteAbstract]⟩
    | record _ x _ hx hp =>
      simp only [List.mem_cons, Option.some.injEq, List.not_mem_nil, or_false] at hx
      rcases hx with rfl | rfl | rfl <;> cases hp <;> simp
  exact ⟨fun n h => absurd h (key.1 n), fun o h => absurd h (key.2 o), fun _ _ _ h => absurd h (key.2 _)⟩

/-- The text, the octets written for a value, and the value read. -/
theorem C83_note : marshal asciiCasing noteValue = some [48, 9, 22, 1, 120, 128, 1, 5, 4, 1, 7] ∧
    Encodes true note TAGS_IMPLICIT (.ref (c! "A")) noteAbstract [48, 9, 22, 1, 120, 128, 1, 5, 4, 1, 7] ∧
    ∃ v x, Unmarshals noteFile asciiCasing (.ident (c! "A")) [48, 9, 22, 1, 120, 128, 1, 5, 4, 1, 7] v [] ∧
      Stands true asciiCasing note TAGS_IMPLICIT (c! "int64") noteFile (.ref (c! "A")) v x ∧ Same note (.ref (c! "A")) noteAbstract x := by
  have he : marshal asciiCasing noteValue = some [48, 9, 22, 1, 120, 128, 1, 5, 4, 1, 7] := by decide +kernel
  obtain ⟨bs, h1, h2⟩ := C83_text_partial asciiCasing 20 int64Params noteText noteModule noteFile (by decide +kernel) note_parsed note_file note_distinct note_noSet
    note_zero note_readable .none none_limited (c! "A") (note_encodable true .none) noteValue noteAbstract (by simp [Open.none]) note_typed (note_means true) note_small
  cases h1.symm.trans he
  obtain ⟨h3, h4⟩ := h2 (by decide)
  exact ⟨he, h3, h4 []⟩

/-! ### C86: assignments added to a text -/

/-- No name assigned in a parsed module, to a type or a value, is the name of a time type. -/
theorem parsed_timeless {u : Unicode} {text : Str} {m : Module} (h : parseString u text = .ok m) :
    ∀ a ∈ m.moduleBody.assignmentList, ¬ TimeName a.name := by
  intro a ha ht
  match a, ha, ht with
  | .nil, _, ht => rcases ht with ht | ht <;> cases ht
  | .type n t, ha, ht => exact parsed_noTime h n (List.mem_filterMap.2 ⟨_, ha, rfl⟩) ht
  | .value n t v, ha, ht =>
    have hg : Atom.Good u (.lower n) := C72_names u text m h _ (assignment_atoms ha (by simp [assignmentAtoms]))
    have hl := hg.2
    rcases ht with ht | ht <;> simp only [Assignment.name] at ht <;> subst ht <;>
      simp [u.upper_ascii] at hl

/-- C86 for texts: the condition on names of time types is always met. -/
theorem C86_parsed (u : Casing) (w : Unicode) (k k' : Nat) (p : GenParams) (m m' : Module) (f f' : GoFile) (text' : Str) (hp : parseString w text' = .ok m')
    (htags : m.tagDefault = m'.tagDefault) (hlist : m.moduleBody.assignmentList.Sublist m'.moduleBody.assignmentList)
    (hone : OneEach m'.moduleBody.assignmentList) (h : generateFile u k p m = some (.ok f)) (h' : generateFile u k' p m' = some (.ok f')) :
    (ownDecls f).Sublist (ownDecls f') ∧ ∀ d ∈ f.decls, d ∈ f'.decls :=
  C86_added u k k' p m m' f f' ⟨htags, hlist, hone, fun a ha ht => absurd ht (parsed_timeless hp a ha)⟩ h h'

end Asn1go.Props
