import Verif.Props.Choice
import Verif.Props.Again

/-! CHOICE types with tagged alternatives, as encoding/asn1 writes and reads them: C75–C77, C82–C84. -/

namespace Asn1go.Props

open Spec CG Enco Deco

/-- `i [0] INTEGER, b [1] BOOLEAN` -/
def rawAlts : List MNamed := [.mk (c! "i") (tag CLASS_CONTEXT_SPECIFIC 0 (.integer [])), .mk (c! "b") (tag CLASS_CONTEXT_SPECIFIC 1 .boolean)]

/-- `A ::= SEQUENCE { a SEQUENCE OF CHOICE { i [0] INTEGER, b [1] BOOLEAN } }` -/
def rawList : MTy := .sequence [comp (c! "a") (.sequenceOf (.choice rawAlts []))] []

/-- The file for it: values of the CHOICE are held in `asn1.RawValue`. -/
def rawListFile : GoFile := fileA (.struct [.mk (c! "A") (.array (.ident (c! "asn1.RawValue"))) none]) false

theorem rawList_file : generateFile asciiCasing 20 int64Params (moduleOf TAGS_IMPLICIT [.type (c! "A") rawList]) = some (.ok rawListFile) := rfl

theorem rawAlts_tagged (l : List MAssignment) : SomeTagged l rawAlts := ⟨c! "i", _, List.mem_cons_self, .tagged _ _ _ _⟩

theorem rawList_names : NamesOk asciiCasing [.type (c! "A") rawList] := by
  refine one_names ?_ (one_member ?_)
  · intro nums h; simp [core_iff, removeWrapperTypes, rawList] at h
  · rintro a b (h | h) <;> cases h <;> rename_i h <;> cases h

theorem rawAlts_small {strict : Bool} {l : List MAssignment} {d : Int} {x : AsnVal} {g : AsnTag} {k : Bool} {c : Bytes}
    (h : Enc strict l d (.choice rawAlts []) x g k c) : g.number ≤ 2147483647 := by
  cases h with
  | choice _ _ n t _ _ _ _ hm h =>
    simp only [rawAlts, List.mem_cons, NamedType.mk.injEq, List.not_mem_nil, or_false] at hm
    rcases hm with ⟨-, rfl⟩ | ⟨-, rfl⟩
    · cases h <;> decide
    · cases h <;> decide

theorem rawList_encodable (strict : Bool) : Encodable strict .raws [.type (c! "A") rawList] TAGS_IMPLICIT (c! "int64") (c! "A") := by
  refine ⟨fun a => a = c! "A", rfl, ?_⟩
  rintro b rfl
  refine ⟨_, one_assigned _, ?_⟩
  simp only [rawList, comp, EncOk, EncOkMembers, EncOkTagged]
  exact ⟨⟨.inl ⟨rfl, rawAlts_tagged _, fun _ _ _ _ _ h => rawAlts_small h⟩, (by intro d hd; cases hd), by simp, trivial⟩, trivial⟩

/-- `A{A: []asn1.RawValue{{Class: 2, Tag: 0, Bytes: []byte{5}}, {Class: 2, Tag: 1, Bytes: []byte{255}, FullBytes: []byte{0x81, 1, 255}}}}` -/
def rawListValue : GoVal := .struct [.mk (c! "A") none (.slice [] false [.raw 2 0 false (some [5]) none, .raw 2 1 false (some [255]) (some [129, 1, 255])])]

/-- What it stands for. -/
def rawListAbstract : AsnVal := .record [some (.list [.choice (c! "i") (.integer 5), .choice (c! "b") (.boolean true)])]

theorem rawList_typed : Typed rawListFile (.ident (c! "A")) rawListValue :=
  struct_typed (.cons _ _ _ _ _ _ (.slice _ _ _ (by simp) (by simp) (.cons _ _ _ (.raw _ _ _ _ _ (by unfold GoInt; decide) (by unfold GoInt; decide))
    (.cons _ _ _ (.raw _ _ _ _ _ (by unfold GoInt; decide) (by unfold GoInt; decide)) (.nil _)))) .nil)

theorem rawList_means (strict : Bool) : Stands strict asciiCasing [.type (c! "A") rawList] TAGS_IMPLICIT (c! "int64") rawListFile (.ref (c! "A")) rawListValue rawListAbstract := by
  refine one_means (.sequence _ _ _ _ (.present ⟨c! "a", .sequenceOf (.choice rawAlts []), false, none⟩ [] _ _ _ _ _ _ (by simp) (.sequenceOf _ _ _ _ _
    (.cons _ _ _ _ _ (.raw _ _ 2 0 _ _ _ _ (rawAlts_tagged _) ?_ (by simp)) (.cons _ _ _ _ _ (.raw _ _ 2 1 _ _ _ _ (rawAlts_tagged _) ?_ fun _ => ?_) (.nil _)))) .nil))
  · exact .choice _ _ _ _ _ _ _ _ List.mem_cons_self (.implicit CLASS_CONTEXT_SPECIFIC 0 _ _ _ _ ⟨0, 2⟩ _ _ rfl (by intro h; cases h) (.integer _ _ _ ⟨by simp, by decide, by simp, by simp⟩))
  · exact .choice _ _ _ _ _ _ _ _ (List.mem_cons_of_mem _ List.mem_cons_self)
      (.implicit CLASS_CONTEXT_SPECIFIC 1 _ _ _ _ ⟨0, 1⟩ _ _ rfl (by intro h; cases h) (.boolean true))
  · exact ⟨[129], [1], rfl, rfl, rfl⟩

/-- Values in an `asn1.RawValue` are encoded as DER demands, with and without `FullBytes`. -/
theorem C76_raw : marshal asciiCasing rawListValue = some [48, 8, 48, 6, 128, 1, 5, 129, 1, 255] ∧
    Encodes true [.type (c! "A") rawList] TAGS_IMPLICIT (.ref (c! "A")) rawListAbstract [48, 8, 48, 6, 128, 1, 5, 129, 1, 255] := by
  have he : marshal asciiCasing rawListValue = some [48, 8, 48, 6, 128, 1, 5, 129, 1, 255] := by decide +kernel
  obtain ⟨bs, h1, h2⟩ := C76_der_partial asciiCasing 20 int64Params _ rawListFile rawList_file rawList_names .raws (c! "A") (rawList_encodable true)
    rawListValue rawListAbstract rawList_typed (rawList_means true)
  cases h1.symm.trans he
  exact ⟨he, h2 (by decide)⟩

theorem rawList_inside {n : Str} {t : MTy} {a b : List MComponent} (hm : .type n t ∈ [Assignment.type (c! "A") rawList])
    (hi : Inside [.type (c! "A") rawList] t (.sequence a b) ∨ Inside [.type (c! "A") rawList] t (.set a b)) :
    members (a ++ b) = [⟨c! "a", .sequenceOf (.choice rawAlts []), false, none⟩] := by
  simp only [List.mem_singleton, Assignment.type.injEq] at hm
  obtain ⟨rfl, rfl⟩ := hm
  have hmem : members ([comp (c! "a") (.sequenceOf (.choice rawAlts []))] ++ []) = [⟨c! "a", .sequenceOf (.choice rawAlts []), false, none⟩] := rfl
  rcases hi with hi | hi
  · cases hi with
    | here => exact hmem
    | sequence _ _ x _ hx hi =>
      rw [hmem, List.mem_singleton] at hx
      subst hx
      cases hi with
      | sequenceOf _ _ hi => cases hi
  · cases hi with
    | sequence _ _ x _ hx hi =>
      rw [hmem, List.mem_singleton] at hx
      subst hx
      cases hi with
      | sequenceOf _ _ hi => cases hi

/-- No component is OPTIONAL. -/
theorem rawList_optionals : ∀ a t, .type a t ∈ [Assignment.type (c! "A") rawList] → OptionalsNil [.type (c! "A") rawList] (c! "int64") t := by
  intro n t hm a b hi x hx ho
  rw [rawList_inside hm hi, List.mem_singleton] at hx
  subst hx
  cases ho

theorem rawList_zero : ∀ a t, .type a t ∈ [Assignment.type (c! "A") rawList] → OptionalsZero [.type (c! "A") rawList] t := by
  intro n t hm a b hi x hx ho
  rw [rawList_inside hm hi, List.mem_singleton] at hx
  subst hx
  cases ho

theorem rawList_readable : ∀ a t, .type a t ∈ [Assignment.type (c! "A") rawList] → Readable [.type (c! "A") rawList] TAGS_IMPLICIT t := by
  intro n t hm
  refine ⟨fun a b hi => ?_, fun t' hi => ?_⟩
  on_goal 2 =>
    simp only [List.mem_singleton, Assignment.type.injEq] at hm
    obtain ⟨rfl, rfl⟩ := hm
    have hmem : members ([comp (c! "a") (.sequenceOf (.choice rawAlts []))] ++ []) = [⟨c! "a", .sequenceOf (.choice rawAlts []), false, none⟩] := rfl
    rcases hi with hi | hi
    · cases hi with
      | sequence _ _ x _ hx hi =>
        rw [hmem, List.mem_singleton] at hx
        subst hx
        cases hi with
        | here => exact .raw _ _ (rawAlts_tagged _)
        | sequenceOf _ _ hi => cases hi
    · cases hi with
      | sequence _ _ x _ hx hi =>
        rw [hmem, List.mem_singleton] at hx
        subst hx
        cases hi with
        | sequenceOf _ _ hi => cases hi
  rw [rawList_inside hm hi]
  refine ⟨?_, ?_, fun hc => ?_, trivial⟩
  · intro x hx g hg
    rw [List.mem_singleton] at hx
    subst hx
    simp [tagsAround] at hg
  · intro x hx g hg
    rw [List.mem_singleton] at hx
    subst hx
    simp [tagsAround] at hg
  · simp [CanMiss] at hc

/-- Numbers held in `asn1.RawValue`s may have any size. -/
theorem rawList_seen {l : List MAssignment} {x y : AsnVal} {t' : MTy} (h : Seen l (.choice rawAlts []) x t' y) : y = x := by
  cases h with
  | here => rfl
  | choice _ _ _ _ _ _ _ hs => exact absurd (rawAlts_tagged l) hs

theorem rawList_fits {x : AsnVal} {bs : Bytes} (hx : Encodes true [.type (c! "A") rawList] TAGS_IMPLICIT (.ref (c! "A")) x bs) :
    ReadFits [.type (c! "A") rawList] (c! "int64") (.ref (c! "A")) x := by
  have key : ∀ t' y, Seen [.type (c! "A") rawList] (.ref (c! "A")) x t' y → ¬ Flat y := by
    intro t' y h
    obtain ⟨g, k, c, h1, -⟩ := hx
    cases h1 with
    | ref _ t _ _ _ _ h2 h3 =>
      cases assigned_unique (one_assigned _) h2
      cases h3 with
      | sequence _ _ vs es h4 =>
        have hmem : members ([comp (c! "a") (.sequenceOf (.choice rawAlts []))] ++ []) = [⟨c! "a", .sequenceOf (.choice rawAlts []), false, none⟩] := rfl
        cases h with
        | here => exact record_composed
        | ref _ t'' _ _ _ h5 h6 =>
          cases assigned_unique (one_assigned _) h5
          cases h6 with
          | here => exact record_composed
          | sequence _ _ _ m _ x _ h7 h8 =>
            rw [hmem] at h7 h4
            cases h4 with
            | present _ v _ _ _ _ _ _ _ h9 _ _ h10 =>
              cases h10
              simp only [List.zip_cons_cons, List.zip_nil_right, List.mem_singleton, Prod.mk.injEq, Option.some.injEq] at h7
              obtain ⟨rfl, rfl⟩ := h7
              cases h9 with
              | sequenceOf _ vs _ h11 =>
                cases h8 with
                | here => exact list_composed
                | sequenceOf _ _ _ z _ h12 h13 =>
                  cases rawList_seen h13
                  have : ∀ (t : MTy) vs es, EncElems true [.type (c! "A") rawList] TAGS_IMPLICIT t vs es → t = .choice rawAlts [] → ∀ z ∈ vs, ¬ Flat z := by
                    intro t vs
                    induction vs with
                    | nil => intro es _ _ z hz; cases hz
                    | cons v vs ih =>
                      intro es h ht z hz
                      subst ht
                      cases h with
                      | cons _ _ _ _ _ _ _ _ h1 h2 h3 =>
                        rw [List.mem_cons] at hz
                        rcases hz with rfl | hz
                        · cases h1 with
                          | choice => exact choice_composed
                        · exact ih _ h3 rfl z hz
                  exact this _ _ _ h11 rfl _ h12
            | absent _ _ _ _ h9 _ => cases h9
            | default => simp_all
  exact ⟨fun t' y h => composed_small (key t' y h), fun t' y h => composed_fits (key t' y h)⟩

/-- Every value of the type that has an encoding can be written, and is read from its encoding by DER. -/
theorem C77_raw (x : AsnVal) (bs : Bytes) (hx : Encodes true [.type (c! "A") rawList] TAGS_IMPLICIT (.ref (c! "A")) x bs) :
    (∃ v bs', Typed rawListFile (.ident (c! "A")) v ∧ Stands true asciiCasing [.type (c! "A") rawList] TAGS_IMPLICIT (c! "int64") rawListFile (.ref (c! "A")) v x ∧
      marshal asciiCasing v = some bs' ∧ (bs'.length ≤ 9223372036854775807 → Encodes true [.type (c! "A") rawList] TAGS_IMPLICIT (.ref (c! "A")) x bs')) ∧
    (bs.length < 2147483648 → ∀ rest, ∃ v x', Unmarshals rawListFile asciiCasing (.ident (c! "A")) (bs ++ rest) v rest ∧
      Stands true asciiCasing [.type (c! "A") rawList] TAGS_IMPLICIT (c! "int64") rawListFile (.ref (c! "A")) v x' ∧ Same [.type (c! "A") rawList] (.ref (c! "A")) x x') := by
  refine ⟨C77_nil asciiCasing 20 int64Params _ rawListFile rawList_file rawList_names rawList_optionals true .raws raws_limited (c! "A") (rawList_encodable true)
    x bs hx (rawList_fits hx).fits, fun hl rest => ?_⟩
  obtain ⟨s, h1, h2⟩ := rawList_encodable true
  exact C82_read_partial asciiCasing 20 int64Params _ rawListFile rawList_file rawList_names rawList_zero rawList_readable .raws raws_limited (c! "A")
    (rawList_encodable true) x (by simp [Open.raws]) bs hx (rawList_fits hx) (nil_told (context rawList_file rawList_names h2) rawList_optionals h1 x) hl rest

/-- `A{A: []asn1.RawValue{{Class: 2, Tag: 0, Bytes: []byte{5}, FullBytes: []byte{0x80, 1, 5}}, {Class: 2, Tag: 1, Bytes: []byte{255}, FullBytes: []byte{0x81, 1, 255}}}}` -/
def rawListRead : GoVal := .struct [.mk (c! "A") none (.slice [] false [.raw 2 0 false (some [5]) (some [128, 1, 5]), .raw 2 1 false (some [255]) (some [129, 1, 255])])]

theorem rawList_reads (rest : Bytes) : Unmarshals rawListFile asciiCasing (.ident (c! "A")) ([48, 8, 48, 6, 128, 1, 5, 129, 1, 255] ++ rest) rawListRead rest := by
  have hu : Underlies rawListFile (.ident (c! "A")) (c! "A") (.struct [.mk (c! "A") (.array (.ident (c! "asn1.RawValue"))) none]) :=
    .defined _ _ _ _ declares_one (.struct _) trivial
  refine .element _ _ _ _ _ 16 true 16 [48, 6, 128, 1, 5, 129, 1, 255] rest _ hu rfl rfl (.struct _ _ _ _ [] _ ?_)
  refine .cons _ _ _ _ _ [] _ _ _ (by decide) (.element _ _ _ _ _ 16 true 16 [128, 1, 5, 129, 1, 255] _ _ (.slice _ (by simp)) (by decide) (by decide)
    (.slice _ _ _ _ _ _ _ .raw (.inl rfl) ?_)) (.nil _)
  refine .cons _ _ [129, 1, 255] _ _ (by simp) (.raw _ _ [128, 1, 5, 129, 1, 255] [] ⟨2, 0, false, 1⟩ [5] [129, 1, 255] .raw (by decide)) ?_
  exact .cons _ _ [] _ _ (by simp) (.raw _ _ [129, 1, 255] [] ⟨2, 1, false, 1⟩ [255] [] .raw (by decide)) (.nil _)

theorem rawList_valName : NoValName [Assignment.type (c! "A") rawList] := by
  intro r hr
  have : r ∈ [c! "A"] := hr
  simp only [List.mem_singleton] at this
  subst this
  decide

theorem rawList_named (x : AsnVal) : ChoicesNamed [.type (c! "A") rawList] (.ref (c! "A")) x := by
  intro alts e y h
  have key : alts = rawAlts := by
    cases h with
    | ref _ t _ _ _ h1 h2 =>
      cases assigned_unique (one_assigned _) h1
      cases h2 with
      | sequence _ _ _ m _ z _ h3 h4 =>
        have hmem : members ([comp (c! "a") (.sequenceOf (.choice rawAlts []))] ++ []) = [⟨c! "a", .sequenceOf (.choice rawAlts []), false, none⟩] := rfl
        have h5 := (List.of_mem_zip h3).1
        rw [hmem, List.mem_singleton] at h5
        subst h5
        cases h4 with
        | sequenceOf _ _ _ w _ _ h6 =>
          cases h6 with
          | here => rfl
          | choice _ _ n t _ v _ h7 h8 =>
            simp only [rawAlts, List.mem_cons, NamedType.mk.injEq, List.not_mem_nil, or_false] at h7
            rcases h7 with ⟨-, rfl⟩ | ⟨-, rfl⟩ <;> cases h8 <;> rename_i h8 <;> cases h8
  subst key
  intro n t1 t2 h1 h2
  simp only [rawAlts, List.mem_cons, NamedType.mk.injEq, List.not_mem_nil, or_false] at h1 h2
  rcases h1 with ⟨rfl, rfl⟩ | ⟨rfl, rfl⟩ <;> rcases h2 with ⟨h3, h4⟩ | ⟨h3, h4⟩
  · exact h4.symm
  · cases h3
  · cases h3
  · exact h4.symm

/-- From each encoding by DER of a value of the type a Go value is read for which the same octets are written. -/
theorem C84_raw_again (x : AsnVal) (bs : Bytes) (hx : Encodes true [.type (c! "A") rawList] TAGS_IMPLICIT (.ref (c! "A")) x bs) (hl : bs.length < 2147483648) :
    (∃ v, Unmarshals rawListFile asciiCasing (.ident (c! "A")) bs v []) ∧ ∀ v rest', Unmarshals rawListFile asciiCasing (.ident (c! "A")) bs v rest' →
      rest' = [] ∧ ∃ bs', marshal asciiCasing v = some bs' ∧ (bs'.length ≤ 9223372036854775807 → bs' = bs) := by
  obtain ⟨s, h1, h2⟩ := rawList_encodable true
  have := C84_again_partial asciiCasing 20 int64Params _ rawListFile rawList_file rawList_names rawList_valName rawList_zero rawList_readable .raws raws_limited (c! "A")
    (rawList_encodable true) x (by simp [Open.raws]) bs hx (rawList_fits hx) (nil_told (context rawList_file rawList_names h2) rawList_optionals h1 x) (fun _ => rawList_named x) hl []
    (by simp; omega)
  rwa [List.append_nil] at this

/-- From what is written for the value above another Go value is read, with `FullBytes`; for it the same octets are written. -/
theorem C84_raw (rest : Bytes) : (∀ v rest', Unmarshals rawListFile asciiCasing (.ident (c! "A")) ([48, 8, 48, 6, 128, 1, 5, 129, 1, 255] ++ rest) v rest' ↔
      v = rawListRead ∧ rest' = rest) ∧
    rawListRead ≠ rawListValue ∧ marshal asciiCasing rawListRead = some [48, 8, 48, 6, 128, 1, 5, 129, 1, 255] := by
  refine ⟨fun v rest' => ⟨fun h => ?_, ?_⟩, by simp [rawListRead, rawListValue], by decide +kernel⟩
  · exact C82_unique asciiCasing 20 int64Params _ rawListFile rawList_file rawList_names rawList_valName _ _ _ _ _ _ h (rawList_reads rest)
  · rintro ⟨rfl, rfl⟩
    exact rawList_reads _

/-- `A ::= SEQUENCE { a CHOICE { i [0] INTEGER, b [1] BOOLEAN } OPTIONAL, b BOOLEAN }` -/
def optionalRaw : MTy := .sequence [.named (.mk (c! "a") (.choice rawAlts [])) true none, comp (c! "b") .boolean] []

/-- An OPTIONAL component held in an `asn1.RawValue` takes any element that follows. -/
theorem C82_raw_optional : LostFor int64Params optionalRaw := by
  refine ⟨fileA (.struct [.mk (c! "A") (.ident (c! "asn1.RawValue")) (some (c! "`asn1:\"optional\"`")), .mk (c! "B") (.ident (c! "bool")) none]) false,
    .struct [.mk (c! "A") (some (c! "`asn1:\"optional\"`")) (.raw 0 0 false none none), .mk (c! "B") none (.bool true)],
    .record [none, some (.boolean true)], [48, 3, 1, 1, 255], rfl, one_names ?_ (two_members ?_),
    struct_typed (.cons _ _ _ _ _ _ (.raw _ _ _ _ _ (by unfold GoInt; decide) (by unfold GoInt; decide)) (.cons _ _ _ _ _ _ (.bool _ (by decide)) .nil)),
    one_means (.sequence _ _ _ _ (.absent _ _ _ _ _ _ _ rfl rfl (.present _ _ _ _ _ _ _ _ (by simp) (.boolean _) .nil))),
    by decide +kernel, ?_, fun v rest h => ?_⟩
  · intro nums h; simp [core_iff, removeWrapperTypes, optionalRaw] at h
  · rintro t (h | h) <;> cases h
    · simp
    · simp
  · refine ⟨⟨0, 16⟩, true, [1, 1, 255], .ref _ _ _ _ _ _ (one_assigned _) (.sequence _ _ _ [(⟨0, 1⟩, [1, 1, 255])] ?_), ⟨[48], [3], rfl, rfl, rfl⟩⟩
    exact .absent ⟨c! "a", .choice rawAlts [], true, none⟩ _ _ _ rfl
      (.present ⟨c! "b", .boolean, false, none⟩ (.boolean true) ⟨0, 1⟩ false [255] [1, 1, 255] [] [] [] (.boolean _) ⟨[1], [1], rfl, rfl, rfl⟩ (by simp) .nil)
  · have hb := (reads_element (fileA_nodup _ _) (fun _ => fileA_declares) (.defined _ _ _ _ declares_one (.struct _) trivial) (tag := 16) (cp := true)
      (t := 16) (c := [1, 1, 255]) (rest0 := []) rfl (by decide) h).1
    cases hb with
    | simple _ _ _ _ _ hs => cases hs
    | struct _ _ _ _ rest _ hf =>
      cases hf with
      | cons _ _ _ _ _ b' _ _ _ _ h1 h2 =>
        have hr : Decodes (fileA (.struct [.mk (c! "A") (.ident (c! "asn1.RawValue")) (some (c! "`asn1:\"optional\"`")), .mk (c! "B") (.ident (c! "bool")) none]) false)
            asciiCasing (.ident (c! "asn1.RawValue")) (fieldParams (some (c! "`asn1:\"optional\"`"))) [1, 1, 255] _ [] :=
          .raw _ _ _ [] ⟨0, 1, false, 1⟩ [255] [] .raw (by decide +kernel)
        obtain ⟨-, rfl⟩ := reads_unique (fileA_nodup _ _) (fun _ => fileA_declares) h1 hr
        cases h2 with
        | cons _ _ _ _ _ b' _ _ _ _ h3 h4 =>
          exact reads_fails (fileA_nodup _ _) (fun _ => fileA_declares) (.bool (by decide)) (tag := 1) (cp := false) rfl (.inr (by decide +kernel)) h3

/-- `A ::= SEQUENCE { a [3] EXPLICIT CHOICE { i [0] INTEGER, b [1] BOOLEAN } }` -/
def taggedRaw : MTy := .sequence [comp (c! "a") (.tagged ⟨CLASS_CONTEXT_SPECIFIC, .number 3⟩ (.choice rawAlts []) TAGS_EXPLICIT true)] []

/-- The tag of a component held in an `asn1.RawValue` is lost. -/
theorem C75_raw_tag : WrongFor false int64Params taggedRaw := by
  refine ⟨fileA (.struct [.mk (c! "A") (.ident (c! "asn1.RawValue")) (some (c! "`asn1:\"explicit,tag:3\"`"))]) false,
    .struct [.mk (c! "A") (some (c! "`asn1:\"explicit,tag:3\"`")) (.raw 2 1 false (some [255]) none)], .record [some (.choice (c! "b") (.boolean true))],
    [48, 3, 129, 1, 255], rfl, one_names ?_ (one_member ?_),
    struct_typed (.cons _ _ _ _ _ _ (.raw _ _ _ _ _ (by unfold GoInt; decide) (by unfold GoInt; decide)) .nil),
    one_means (.sequence _ _ _ _ (.present ⟨c! "a", .tagged ⟨CLASS_CONTEXT_SPECIFIC, .number 3⟩ (.choice rawAlts []) TAGS_EXPLICIT true, false, none⟩ [] _ _ _ _ _ _ (by simp)
      (.tagged _ _ _ _ _ _ (.raw _ _ 2 1 _ _ _ _ (rawAlts_tagged _) ?_ (by simp))) .nil)),
    by decide, by decide, fun h => ?_⟩
  · intro nums h; simp [core_iff, removeWrapperTypes, taggedRaw] at h
  · rintro a b (h | h) <;> cases h <;> rename_i h <;> cases h
  · exact .choice _ _ _ _ _ _ _ _ (List.mem_cons_of_mem _ List.mem_cons_self)
      (.implicit CLASS_CONTEXT_SPECIFIC 1 _ _ _ _ ⟨0, 1⟩ _ _ rfl (by intro h; cases h) (.boolean true))
  · rcases one_component (one_enc h) (by decide) with ⟨t, k, c, h1, h2⟩ | ⟨_, h1, -, -⟩
    · cases h1 with
      | explicit =>
        have := first_octet h2 (by decide)
        revert this; decide
      | implicit _ _ _ _ _ _ _ _ _ _ h3 => exact h3 (.choice _ _)
    · cases h1

end Asn1go.Props
