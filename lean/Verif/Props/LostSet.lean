import Verif.Props.Lost

/-! What C75 says of components of type SET. -/

namespace Asn1go.Props

open Spec CG Enco

theorem set_written {u : Casing} {strict : Bool} {l : List MAssignment} {d : Int} {r : Str} {f : GoFile} {m : Member} {tag : Option Str} {a b : List MComponent}
    (hm : PlainMember l d m) (hf : FieldTag l d m tag) (hno : tagsAround d m.type = []) (fs : List GoFieldVal) {x : AsnVal}
    (hx : Stands strict u l d r f m.type (.struct fs) x) (ht : NamedBy l m.type (.set a b)) {e : Bytes} (h : makeField u (.struct fs) (fieldParams tag) = some e)
    (hl : e.length ≤ 9223372036854775807) (hz : m.optional = true → (GoVal.struct fs).isZero = false) :
    ∃ bss, makeFields u fs = some bss ∧
      Encoding ⟨0, if (fieldParams tag).set = true then 17 else 16⟩ true bss.flatten e ∧ ((fieldParams tag).set = true ↔ Core m.type (.set a b)) := by
  have hp := hf.meaning (fun cls n k h => (hm.tags cls n k h).2) (by rw [hm.noDefault]; simp)
  obtain ⟨hleft, -⟩ := present_left hm hf hz hx
  have hpt : (fieldParams tag).tag = none := by
    cases hq : (fieldParams tag).tag with
    | none => rfl
    | some z => obtain ⟨_, _, h⟩ := (hp.tag z).1 hq; rw [hno] at h; cases h
  obtain ⟨n, k, tag', body, h1, h2, h3, rfl⟩ := written_field h (by intro _ _ _ _ _ h; cases h) hleft
  have hub : (GoVal.struct fs).unboxed = .struct fs := rfl
  rw [hub] at h1 h2 h3
  cases h1
  have h4 := untagged_field (tag := tag') (k := true) (body := body) hpt hl
  have htag : tag' = if (fieldParams tag).set = true then 17 else 16 := by
    rw [chooseTag] at h2
    split at h2
    · cases h2
    · split at h2
      · cases h2
      · split at h2
        · next hs => simpa [valueTag, hs] using h2.symm
        · next hs => simpa [valueTag, hs] using h2.symm
  subst htag
  have hcore : (fieldParams tag).set = true ↔ Core m.type (.set a b) := by
    rw [hp.set]
    constructor
    · rintro (⟨a', b', hc⟩ | ⟨t', hc⟩)
      · rcases core_named ht (by simp) (by simp) hc with h | ⟨a, h⟩
        · cases h; exact hc
        · cases h
      · rcases core_named ht (by simp) (by simp) hc with h | ⟨a, h⟩ <;> cases h
    · exact fun hc => .inl ⟨a, b, hc⟩
  rw [makeBody] at h3
  have h5 : ∃ bss, makeFields u fs = some bss ∧ bss.flatten = body := by
    simpa [childrenOf, Option.map_eq_some_iff] using h3
  obtain ⟨bss, h6, rfl⟩ := h5
  exact ⟨bss, h6, h4, hcore⟩

/-- A SET as a component is written rightly only if it is written in place: a reference to a SET type is written with the tag of SEQUENCE. -/
theorem C75_component_set_only (u : Casing) (strict : Bool) (l : List MAssignment) (d : Int) (r : Str) (f : GoFile) (m : Member) (tag : Option Str) (a b : List MComponent)
    (hm : PlainMember l d m) (hf : FieldTag l d m tag) (hno : tagsAround d m.type = []) (ht : NamedBy l m.type (.set a b)) (v : GoVal) (x : AsnVal)
    (hx : Stands strict u l d r f m.type v x) (hz : m.optional = true → v.isZero = false) (e : Bytes) (h : makeField u v (fieldParams tag) = some e)
    (hl : e.length ≤ 9223372036854775807) (y : AsnVal) (he : Encodes strict l d m.type y e) : Core m.type (.set a b) := by
  have hx' := named_means ht hx
  cases hx' with
  | set _ _ fs vs _ =>
    obtain ⟨bss, -, h1, h2⟩ := set_written hm hf hno fs hx ht h hl hz
    obtain ⟨tg, k, c, h3, h4⟩ := he
    rw [named_enc ht] at h3
    cases h3
    obtain ⟨h5, -, -⟩ := encoding_inj h4 h1 (by simp) (by simp)
    rw [AsnTag.mk.injEq] at h5
    split at h5
    · next hs => exact h2.1 hs
    · cases h5.2

/-- In place it is written as BER demands if each of its components is. -/
theorem C75_component_set (u : Casing) (l : List MAssignment) (d : Int) (r : Str) (f : GoFile) (m : Member) (tag : Option Str) (a b : List MComponent)
    (hm : PlainMember l d m) (hf : FieldTag l d m tag) (hno : tagsAround d m.type = []) (ht : NamedBy l m.type (.set a b)) (hc : Core m.type (.set a b))
    (hp : ∀ m ∈ members (a ++ b), PlainMember l d m) (fs : List GoFieldVal) (hty : HasGoType u l d r f (.set a b) (.struct fs)) (xs : List (Option AsnVal))
    (hx : Stands false u l d r f m.type (.struct fs) (.record xs)) (hz : m.optional = true → (GoVal.struct fs).isZero = false) (e : Bytes)
    (h : makeField u (.struct fs) (fieldParams tag) = some e) (hl : e.length ≤ 9223372036854775807)
    (he : EachRight false u l d (members (a ++ b)) fs xs) : Encodes false l d m.type (.record xs) e := by
  obtain ⟨bss, h1, h2, h3⟩ := set_written hm hf hno fs hx ht h hl hz
  have hx' := named_means ht hx
  obtain ⟨g, hg, hty⟩ := hty
  cases hg with
  | set _ _ fds hfs =>
    cases hx' with
    | set _ _ _ _ hms =>
      have hbl : bss.flatten.length ≤ maxLength := by
        obtain ⟨i, n, -, -, rfl⟩ := h2
        rw [List.length_append] at hl
        unfold maxLength
        omega
      obtain ⟨es, h4, h5⟩ := (fields_iff hms hp hfs (typed_struct hty) h1 hbl).2 he
      rw [if_pos (h3.2 hc)] at h2
      refine ⟨⟨0, 17⟩, true, _, (named_enc ht).2 (.set _ _ _ es es h4 (List.Perm.refl _) (by simp)), ?_⟩
      rw [h5]
      exact h2

/-- `SET { b BOOLEAN }` -/
def boolSet : MTy := .set [comp (c! "b") .boolean] []

/-- The file for `A ::= SEQUENCE { a SET { b BOOLEAN } }`. -/
def boolSetFile : GoFile := fileA (.struct [.mk (c! "A") (.struct [.mk (c! "B") (.ident (c! "bool")) none]) (some (c! "`asn1:\"set\"`"))]) false

theorem boolSet_type : ∃ tag, FieldTag [.type (c! "A") (.sequence [comp (c! "a") boolSet] [])] TAGS_IMPLICIT ⟨c! "a", boolSet, false, none⟩ tag ∧ tag = some (c! "`asn1:\"set\"`") ∧
    HasGoType asciiCasing [.type (c! "A") (.sequence [comp (c! "a") boolSet] [])] TAGS_IMPLICIT (c! "int64") boolSetFile boolSet (.struct [.mk (c! "B") none (.bool true)]) := by
  have hn : MembersNamed asciiCasing [.type (c! "A") (.sequence [comp (c! "a") boolSet] [])] boolSet := by
    have hm : ∀ y ∈ members ([comp (c! "b") .boolean] ++ []), y = ⟨c! "b", .boolean, false, none⟩ := by
      intro y hy
      simpa [members, comp] using hy
    rintro a b (hi | hi) <;> unfold boolSet at hi <;> cases hi
    · rename_i y hy hi; rw [hm y hy] at hi; cases hi
    · exact ⟨by simp [members, comp], fun x hx => by
        rw [hm x hx]; exact lowerName_of ⟨_, _, rfl, by decide⟩ (by decide) (by decide) (by decide) (by decide) (by decide)⟩
    · rename_i y hy hi; rw [hm y hy] at hi; cases hi
  obtain ⟨e', hg, hty⟩ := C75_struct asciiCasing 20 int64Params (moduleOf TAGS_IMPLICIT [.type (c! "A") (.sequence [comp (c! "a") boolSet] [])]) boolSetFile rfl
    (one_names (by intro nums h; simp [core_iff, removeWrapperTypes] at h) (one_member hn)) (c! "A") _ _ (one_assigned (.sequence [comp (c! "a") boolSet] []))
    (.struct [.mk (c! "A") (some (c! "`asn1:\"set\"`")) (.struct [.mk (c! "B") none (.bool true)])])
    (struct_typed (.cons _ _ _ _ _ _ (.struct _ _ (.cons _ _ _ _ _ _ (.bool _ (by decide)) .nil)) .nil))
  cases hg with
  | sequence _ _ fds hf =>
    have hf' := hf
    replace hty := typed_struct hty
    change FieldsOf _ _ _ _ [⟨c! "a", boolSet, false, none⟩] fds at hf'
    cases hf' with
    | cons _ _ e tag fds hg htag _ =>
      cases hty with
      | cons _ _ _ _ _ _ h3 _ => exact ⟨_, htag, rfl, e, hg, h3⟩

/-- `A ::= SEQUENCE { a SET { b BOOLEAN } }`: the component is written rightly. -/
example : Encodes false [.type (c! "A") (.sequence [comp (c! "a") boolSet] [])] TAGS_IMPLICIT boolSet (.record [some (.boolean true)]) [49, 3, 1, 1, 255] := by
  obtain ⟨_, hft, rfl, hg⟩ := boolSet_type
  have hb : RightField false asciiCasing [.type (c! "A") (.sequence [comp (c! "a") boolSet] [])] TAGS_IMPLICIT .boolean (fieldParams none) (.bool true) (.boolean true) :=
    ⟨[1, 1, 255], by decide +kernel, _, _, _, .boolean true, [1], [1], by simp [Identifier], by simp [LengthOctets], rfl⟩
  exact C75_component_set asciiCasing _ _ (c! "int64") boolSetFile ⟨c! "a", boolSet, false, none⟩ _ [comp (c! "b") .boolean] [] ⟨rfl, by simp [tagsAround, boolSet], by simp⟩ hft rfl
    (.here _) (.done _ (by simp [boolSet]) (by simp [boolSet])) (by
      intro m hm
      have : m ∈ [(⟨c! "b", .boolean, false, none⟩ : Member)] := hm
      rw [List.mem_singleton.1 this]
      exact ⟨rfl, by simp [tagsAround], by simp⟩)
    [.mk (c! "B") none (.bool true)] hg _
    (.set _ _ _ _ (.present _ _ _ _ _ _ _ _ (by simp) (.boolean _) .nil)) (by simp) _ (by decide +kernel) (by decide) (.present _ _ _ _ _ _ _ _ hb .nil)

end Asn1go.Props
