import Verif.Proofs.Encoding.Encode3
import Verif.Proofs.Encoding.Write
import Verif.Props.Compile
import Mathlib.Data.List.Permutation

/-! Properties of generated types as encoding/asn1 encodes their values: C75-C78. -/

namespace Asn1go.Props

open Spec CG Enco

/-! ### C75: encodings that obey BER -/

/-- A module with ASN.1 names: names of types and values differ, no type has the name of a SET type followed by `SET`, components
have names of their own, and the useful types are not assigned. -/
structure NamesOk (u : Casing) (l : List MAssignment) : Prop where
  named : WellNamed u l
  noSetClash : NoSetClash l
  noTime : ∀ a ∈ typeNames l, ¬ TimeName a
  members : ∀ a t, .type a t ∈ l → MembersNamed u l t

/-- What encoding/asn1 writes for a value of a generated type is an encoding of the value it stands for,
by BER, or by DER if `strict`. -/
def EncodesAll (strict : Bool) (u : Casing) (p : GenParams) (m : Module) (f : GoFile) : Prop :=
  ∀ a v x bs, Typed f (.ident (goifyName u a)) v → Stands strict u m.moduleBody.assignmentList m.tagDefault p.integerRepr f (.ref a) v x → marshal u v = some bs →
    bs.length ≤ 9223372036854775807 → Encodes strict m.moduleBody.assignmentList m.tagDefault (.ref a) x bs

/-- What encoding/asn1 writes for a value of a generated type is an encoding of it. -/
def C75_statement : Prop := ∀ (u : Casing) (fuel : Nat) (p : GenParams) (m : Module) (f : GoFile), generateFile u fuel p m = some (.ok f) →
  NamesOk u m.moduleBody.assignmentList → EncodesAll false u p m f

theorem context {u : Casing} {fuel : Nat} {p : GenParams} {m : Module} {f : GoFile} {strict : Bool} {op : Open} {s : Str → Prop}
    (h : generateFile u fuel p m = some (.ok f)) (hn : NamesOk u m.moduleBody.assignmentList)
    (hs : ∀ b, s b → ∃ t, Assigned m.moduleBody.assignmentList b t ∧ EncOk strict op m.moduleBody.assignmentList m.tagDefault p.integerRepr s .assignment t) :
    Ctx u m.moduleBody.assignmentList m.tagDefault p.integerRepr f strict op s := by
  obtain ⟨ds, -, -, h1, h2, -, h3⟩ := file_parts h
  exact ⟨⟨ds, h3, h1⟩, h2, hn.named, hn.noSetClash, hn.noTime, hn.members, hs⟩

/-- Values of types for which no known defect applies are encoded, and as BER demands. -/
theorem C75_ber_partial (u : Casing) (fuel : Nat) (p : GenParams) (m : Module) (f : GoFile) (h : generateFile u fuel p m = some (.ok f))
    (hn : NamesOk u m.moduleBody.assignmentList) (op : Open) (a : Str) (ha : Encodable false op m.moduleBody.assignmentList m.tagDefault p.integerRepr a)
    (v : GoVal) (x : AsnVal) (hty : Typed f (.ident (goifyName u a)) v) (hm : Stands false u m.moduleBody.assignmentList m.tagDefault p.integerRepr f (.ref a) v x) :
    ∃ bs, marshal u v = some bs ∧
      (bs.length ≤ 9223372036854775807 → Encodes false m.moduleBody.assignmentList m.tagDefault (.ref a) x bs) := by
  obtain ⟨s, h1, h2⟩ := ha
  exact encode_assigned (context h hn h2) h1 hty hm

/-- What encoding/asn1 writes for a value of a generated type is its encoding by DER. -/
def C76_statement : Prop := ∀ (u : Casing) (fuel : Nat) (p : GenParams) (m : Module) (f : GoFile), generateFile u fuel p m = some (.ok f) →
  NamesOk u m.moduleBody.assignmentList → EncodesAll true u p m f

/-- Values of types for which no known defect applies are encoded as DER demands, if the components of SET types are in order of
their tags, and default values of integers are of `int64`. -/
theorem C76_der_partial (u : Casing) (fuel : Nat) (p : GenParams) (m : Module) (f : GoFile) (h : generateFile u fuel p m = some (.ok f))
    (hn : NamesOk u m.moduleBody.assignmentList) (op : Open) (a : Str) (ha : Encodable true op m.moduleBody.assignmentList m.tagDefault p.integerRepr a)
    (v : GoVal) (x : AsnVal) (hty : Typed f (.ident (goifyName u a)) v) (hm : Stands true u m.moduleBody.assignmentList m.tagDefault p.integerRepr f (.ref a) v x) :
    ∃ bs, marshal u v = some bs ∧
      (bs.length ≤ 9223372036854775807 → Encodes true m.moduleBody.assignmentList m.tagDefault (.ref a) x bs) := by
  obtain ⟨s, h1, h2⟩ := ha
  exact encode_assigned (context h hn h2) h1 hty hm

/-! ### Wrong encodings -/

/-- For the module `A ::= t` there is a value of the Go type `A` that encoding/asn1 does not write as its encoding. -/
def WrongFor (strict : Bool) (p : GenParams) (t : MTy) : Prop :=
  ∃ f v x bs, generateFile asciiCasing 20 p (moduleOf TAGS_IMPLICIT [.type (c! "A") t]) = some (.ok f) ∧
    NamesOk asciiCasing [.type (c! "A") t] ∧ Typed f (.ident (c! "A")) v ∧ Stands strict asciiCasing [.type (c! "A") t] TAGS_IMPLICIT p.integerRepr f (.ref (c! "A")) v x ∧
    marshal asciiCasing v = some bs ∧ bs.length ≤ 9223372036854775807 ∧ ¬ Encodes strict [.type (c! "A") t] TAGS_IMPLICIT (.ref (c! "A")) x bs

theorem one_assigned (t : MTy) : Assigned [.type (c! "A") t] (c! "A") t := by
  simp [Assigned, Assignment.name]

theorem one_names {t : MTy} (h1 : ∀ nums, Core t (.integer nums) → nums = []) (h2 : MembersNamed asciiCasing [.type (c! "A") t] t) :
    NamesOk asciiCasing [.type (c! "A") t] where
  named :=
    { types := by simp [typeNames]
      values := by simp [valueNames]
      typeName := by
        intro r hr
        simp only [typeNames, List.filterMap_cons, List.filterMap_nil, List.mem_cons, List.not_mem_nil, or_false] at hr
        subst hr
        exact upperName_of ⟨_, _, rfl, by decide⟩ (by decide) (by decide) (by decide) (by decide) (by decide)
      valueName := by simp [valueNames]
      numbers := by
        intro r t' nums hm hc
        simp only [List.mem_cons, Assignment.type.injEq, List.not_mem_nil, or_false] at hm
        obtain ⟨rfl, rfl⟩ := hm
        rw [h1 nums hc]
        simp
      number := by
        intro r t' nums hm hc
        simp only [List.mem_cons, Assignment.type.injEq, List.not_mem_nil, or_false] at hm
        obtain ⟨rfl, rfl⟩ := hm
        rw [h1 nums hc]
        simp }
  noSetClash := by
    intro r t' hm _
    simp only [List.mem_cons, Assignment.type.injEq, List.not_mem_nil, or_false] at hm
    obtain ⟨rfl, rfl⟩ := hm
    simp [typeNames]
  noTime := by
    intro a ha
    simp only [typeNames, List.filterMap_cons, List.filterMap_nil, List.mem_cons, List.not_mem_nil, or_false] at ha
    subst ha
    simp [TimeName]
  members := by
    intro a t' hm
    simp only [List.mem_cons, Assignment.type.injEq, List.not_mem_nil, or_false] at hm
    obtain ⟨rfl, rfl⟩ := hm
    exact h2

/-- The encoding of a value of `A ::= t` is that of a value of `t`. -/
theorem one_enc {strict : Bool} {t : MTy} {x : AsnVal} {bs : Bytes} (h : Encodes strict [.type (c! "A") t] TAGS_IMPLICIT (.ref (c! "A")) x bs) :
    Encodes strict [.type (c! "A") t] TAGS_IMPLICIT t x bs := by
  obtain ⟨tag, k, c, h1, h2⟩ := h
  generalize ha : c! "A" = a at h1
  cases h1 with
  | time => exact absurd ha (by decide)
  | ref _ t' _ _ _ _ h3 h4 =>
    subst ha
    cases assigned_unique h3 (one_assigned t)
    exact ⟨tag, k, c, h4, h2⟩

theorem one_means {B : Held} {t : MTy} {v : GoVal} {x : AsnVal} (h : Means [.type (c! "A") t] B t v x) :
    Means [.type (c! "A") t] B (.ref (c! "A")) v x :=
  .ref _ _ _ _ (one_assigned t) h

/-- The first octet of an encoding tells class, form and number of its tag. -/
theorem first_octet {tag : AsnTag} {k : Bool} {c bs : Bytes} (h : Encoding tag k c bs) (hn : tag.number ≤ 30) :
    bs.head? = some (UInt8.ofNat (64 * tag.cls + (if k then 32 else 0) + tag.number)) := by
  obtain ⟨i, n, h1, h2, rfl⟩ := h
  rw [Identifier, if_pos hn] at h1
  subst h1
  rfl

theorem declares_one {s : GoTypeSpec} {p : Str} {rest : List GoDecl} : Declares ⟨p, .type [s] :: rest⟩ s := ⟨[s], by simp, by simp⟩

/-- The file with the declaration of a type `A`. -/
def fileA (e : GoExpr) (isAlias : Bool) : GoFile := ⟨c! "My_Mod", [.type [⟨c! "A", isAlias, e⟩]]⟩

theorem struct_typed {fs : List GoField} {vs : List GoFieldVal} (h : TypedFields (fileA (.struct fs) false) fs vs) :
    Typed (fileA (.struct fs) false) (.ident (c! "A")) (.struct vs) := .defined _ _ _ declares_one (.struct _ _ h)

theorem lower_a : LowerName asciiCasing (c! "a") :=
  lowerName_of ⟨_, _, rfl, by decide⟩ (by decide) (by decide) (by decide) (by decide) (by decide)

theorem lower_b : LowerName asciiCasing (c! "b") :=
  lowerName_of ⟨_, _, rfl, by decide⟩ (by decide) (by decide) (by decide) (by decide) (by decide)

/-- A SEQUENCE with one component has ASN.1 names if the component has. -/
theorem one_member {t : MTy} {o : Bool} {df : Option (Value DefinedValue)} {l : List MAssignment} (h : MembersNamed asciiCasing l t) :
    MembersNamed asciiCasing l (.sequence [.named (.mk (c! "a") t) o df] []) := by
  have hm : ∀ y ∈ members ([ComponentType.named (.mk (c! "a") t) o df] ++ []), y = ⟨c! "a", t, o, df⟩ := by
    intro y hy
    simpa [members] using hy
  rintro a b (hi | hi) <;> cases hi
  · exact ⟨by simp [members], fun x hx => by rw [hm x hx]; exact lower_a⟩
  · rename_i y hy hi; rw [hm y hy] at hi; exact h a b (.inl hi)
  · rename_i y hy hi; rw [hm y hy] at hi; exact h a b (.inr hi)

/-- Types without components. -/
theorem no_members {l : List MAssignment} {t : MTy} (h : ∀ t', Inside l t t' → (∀ a b, t' ≠ .sequence a b) ∧ ∀ a b, t' ≠ .set a b) :
    MembersNamed asciiCasing l t := by
  rintro a b (hi | hi)
  · exact absurd rfl ((h _ hi).1 a b)
  · exact absurd rfl ((h _ hi).2 a b)

/-- The contents of a short encoding are what follows identifier and length. -/
theorem short_contents {tag : AsnTag} {k : Bool} {c : Bytes} {a b : UInt8} {rest : Bytes} (h : Encoding tag k c (a :: b :: rest)) (hn : tag.number ≤ 30)
    (hl : rest.length < 100) : c = rest := by
  obtain ⟨i, n, h1, h2, h3⟩ := h
  rw [Identifier, if_pos hn] at h1
  subst h1
  rw [LengthOctets] at h2
  have hlen := congrArg List.length h3
  simp only [List.length_append, List.length_cons, List.length_nil] at hlen
  rw [if_pos (by omega)] at h2
  subst h2
  simp only [List.cons_append, List.nil_append, List.cons.injEq] at h3
  exact h3.2.2.symm

/-- The encoding of a SEQUENCE with one component. -/
theorem one_component {strict : Bool} {l : List MAssignment} {d : Int} {n : Str} {t : MTy} {o : Bool} {df : Option (Value DefinedValue)} {x : AsnVal}
    {a b : UInt8} {rest : Bytes} (h : Encodes strict l d (.sequence [.named (.mk n t) o df] []) (.record [some x]) (a :: b :: rest))
    (hl : rest.length < 100) : Encodes strict l d t x rest ∨ ∃ dv, df = some dv ∧ DefaultIs l t dv x ∧ rest = [] := by
  obtain ⟨tag, k, c, h1, h2⟩ := h
  cases h1 with
  | sequence _ _ _ es h3 =>
    have hc := short_contents h2 (by simp) hl
    have hm : members ([ComponentType.named (.mk n t) o df] ++ []) = [⟨n, t, o, df⟩] := rfl
    rw [hm] at h3
    cases h3 with
    | present _ _ tag' k' c' e _ _ es h4 h5 h6 h7 =>
      cases h7
      simp only [List.flatMap_cons, List.flatMap_nil, List.append_nil] at hc
      subst hc
      exact .inl ⟨tag', k', c', h4, h5⟩
    | default _ _ dv _ _ es h4 h5 h6 =>
      cases h6
      exact .inr ⟨dv, h4, h5, hc.symm⟩

/-- The tag of an assigned type is lost: `A ::= [1] BOOLEAN`. -/
theorem C75_tag_lost : WrongFor false int64Params (tag CLASS_CONTEXT_SPECIFIC 1 .boolean) := by
  refine ⟨fileA (.ident (c! "bool")) true, .bool true, .boolean true, [1, 1, 255], rfl, one_names ?_ ?_,
    .alias _ _ _ declares_one (.bool _ (by decide)), one_means (.tagged _ _ _ _ _ _ (.boolean _)), rfl, by decide, fun h => ?_⟩
  · intro nums h; simp [core_iff, removeWrapperTypes, tag] at h
  · rintro a b (h | h) <;> cases h <;> rename_i h <;> cases h
  · obtain ⟨t, k, c, h1, h2⟩ := one_enc h
    cases h1 with
    | explicit cls n t kind b v tag' k' c' e h3 h4 h5 =>
      have := first_octet h2 (by decide)
      revert this; decide
    | implicit cls n t kind b v tag' k' c' h3 h4 h5 =>
      have := first_octet h2 (by decide)
      revert this; cases k <;> decide

/-- There are modules for which values are not encoded as BER demands. -/
theorem C75_false : ¬ C75_statement := fun h => by
  obtain ⟨f, v, x, bs, h1, h2, h3, h4, h5, h6, h7⟩ := C75_tag_lost
  exact h7 (h asciiCasing 20 int64Params _ f h1 h2 (c! "A") v x bs h3 h4 h5 h6)

/-- A SET is encoded as SEQUENCE: `A ::= SET { a BOOLEAN }`. -/
theorem C75_set_as_sequence : WrongFor false int64Params (.set [comp (c! "a") .boolean] []) := by
  refine ⟨⟨c! "My_Mod", [.type [⟨c! "ASET", false, .struct [.mk (c! "A") (.ident (c! "bool")) none]⟩, ⟨c! "A", true, .ident (c! "ASET")⟩]]⟩,
    .struct [.mk (c! "A") none (.bool true)], .record [some (.boolean true)], [48, 3, 1, 1, 255], rfl, one_names ?_ ?_,
    .alias (c! "A") (.ident (c! "ASET")) _ ⟨_, List.mem_singleton.2 rfl, by simp⟩
      (.defined (c! "ASET") (.struct [.mk (c! "A") (.ident (c! "bool")) none]) (.struct [.mk (c! "A") none (.bool true)])
        ⟨_, List.mem_singleton.2 rfl, by simp⟩ (.struct _ _ (.cons _ _ _ _ _ _ (.bool _ (by decide)) .nil))),
    one_means (.set _ _ _ _ (.present _ _ _ _ _ _ _ _ (by simp) (.boolean _) .nil)), rfl, by decide, fun h => ?_⟩
  · intro nums h; simp [core_iff, removeWrapperTypes] at h
  · have hm : ∀ y ∈ members ([comp (c! "a") .boolean] ++ []), y = ⟨c! "a", .boolean, false, none⟩ := by
      intro y hy
      simpa [members, comp] using hy
    rintro a b (hi | hi) <;> cases hi
    · rename_i y hy hi; rw [hm y hy] at hi; cases hi
    · exact ⟨by simp [members, comp], fun x hx => by rw [hm x hx]; exact lower_a⟩
    · rename_i y hy hi; rw [hm y hy] at hi; cases hi
  · obtain ⟨t, k, c, h1, h2⟩ := one_enc h
    cases h1
    have := first_octet h2 (by decide)
    revert this; decide

/-- A string is encoded as PrintableString: `A ::= IA5String`. -/
theorem C75_string_kind : WrongFor false int64Params (.restrictedString Tok.IA5String) := by
  refine ⟨fileA (.ident (c! "string")) true, .str (c! "a"), .string (c! "a"), [19, 1, 97], rfl, one_names ?_ ?_,
    .alias _ _ _ declares_one (.string _ (by decide)), one_means (.string _ _ _ _ _ .ia5 (by decide)), by decide, by decide, fun h => ?_⟩
  · intro nums h; simp [core_iff, removeWrapperTypes] at h
  · rintro a b (h | h) <;> cases h
  · obtain ⟨t, k, c, h1, h2⟩ := one_enc h
    generalize hk : Tok.IA5String = kind at h1
    cases h1 with
    | string _ tag ok enc _ hs _ =>
      cases hs with
      | ia5 =>
        have := first_octet h2 (by decide)
        revert this; decide
      | _ => exact absurd hk (by decide)

/-- A component that is a VisibleString is encoded as PrintableString: `A ::= SEQUENCE { a VisibleString }`. -/
theorem C75_visible_string : WrongFor false int64Params (.sequence [comp (c! "a") (.restrictedString Tok.VisibleString)] []) := by
  refine ⟨fileA (.struct [.mk (c! "A") (.ident (c! "string")) none]) false, .struct [.mk (c! "A") none (.str (c! "a"))], .record [some (.string (c! "a"))],
    [48, 3, 19, 1, 97], rfl, one_names ?_ (one_member ?_), struct_typed (.cons _ _ _ _ _ _ (.string _ (by decide)) .nil),
    one_means (.sequence _ _ _ _ (.present _ _ _ _ _ _ _ _ (by simp) (.string _ _ _ _ _ .visible (by decide)) .nil)), by decide, by decide, fun h => ?_⟩
  · intro nums h; simp [core_iff, removeWrapperTypes] at h
  · rintro a b (h | h) <;> cases h
  · rcases one_component (one_enc h) (by decide) with ⟨t, k, c, h1, h2⟩ | ⟨_, h1, -, -⟩
    · generalize hk : Tok.VisibleString = kind at h1
      cases h1 with
      | string _ tag ok enc _ hs _ =>
        cases hs with
        | visible =>
          have := first_octet h2 (by decide)
          revert this; decide
        | _ => exact absurd hk (by decide)
    · cases h1

/-- Values of GeneralizedTime are encoded as UTCTime: `A ::= GeneralizedTime`. -/
theorem C75_time_kind : WrongFor false int64Params (.ref (c! "GeneralizedTime")) := by
  refine ⟨⟨c! "My_Mod", [.imp (c! "time"), .type [⟨c! "A", true, .ident (c! "time.Time")⟩]]⟩, .time ⟨2026, 11, 16, 12, 0, 0, 0⟩, .time ⟨2026, 11, 16, 12, 0, 0⟩,
    [23, 13, 50, 54, 49, 49, 49, 54, 49, 50, 48, 48, 48, 48, 90], rfl, one_names ?_ ?_,
    .alias _ _ _ ⟨_, by simp, List.mem_singleton.2 rfl⟩ (.time _), one_means (.time ⟨2026, 11, 16, 12, 0, 0⟩ ?_ ?_), by decide, by decide, fun h => ?_⟩
  · intro nums h; simp [core_iff, removeWrapperTypes] at h
  · rintro a b (h | h) <;> cases h
  · intro t h; simp [Assigned, Assignment.name] at h
  · exact ⟨by decide, by decide, by decide, by decide, by decide, by decide⟩
  · obtain ⟨t, k, c, h1, h2⟩ := one_enc h
    generalize hr : c! "GeneralizedTime" = r at h1
    cases h1 with
    | time =>
      have := first_octet h2 (by decide)
      revert this; decide
    | ref _ t' _ _ _ _ h3 _ =>
      subst hr
      simp [Assigned, Assignment.name] at h3

/-- The outer SEQUENCE OF is encoded as SET: `A ::= SEQUENCE OF SET OF BOOLEAN`. -/
theorem C75_sequence_of_set_of : WrongFor false int64Params (.sequenceOf (.setOf .boolean)) := by
  refine ⟨⟨c! "My_Mod", [.type [⟨c! "ASET", false, .array (.array (.ident (c! "bool")))⟩, ⟨c! "A", true, .ident (c! "ASET")⟩]]⟩,
    .slice (c! "ASET") false [.slice [] false [.bool true]], .list [.list [.boolean true]], [49, 5, 48, 3, 1, 1, 255], rfl, one_names ?_ ?_,
    .alias (c! "A") (.ident (c! "ASET")) _ ⟨_, List.mem_singleton.2 rfl, by simp⟩
      (.defined (c! "ASET") (.array (.array (.ident (c! "bool")))) (.slice [] false [.slice [] false [.bool true]])
        ⟨_, List.mem_singleton.2 rfl, by simp⟩
        (.slice _ _ _ (by simp) (by simp) (.cons _ _ _ (.slice _ _ _ (by simp) (by simp) (.cons _ _ _ (.bool _ (by decide)) (.nil _))) (.nil _)))),
    one_means (.sequenceOf _ _ _ _ _ (.cons _ _ _ _ _ (.setOf _ _ _ _ _ (.cons _ _ _ _ _ (.boolean _) (.nil _))) (.nil _))),
    by decide, by decide, fun h => ?_⟩
  · intro nums h; simp [core_iff, removeWrapperTypes] at h
  · rintro a b (h | h) <;> cases h <;> rename_i h <;> cases h <;> rename_i h <;> cases h
  · obtain ⟨t, k, c, h1, h2⟩ := one_enc h
    cases h1
    have := first_octet h2 (by decide)
    revert this; decide

/-- The tag of an element is lost: `A ::= SEQUENCE OF [1] BOOLEAN`. -/
theorem C75_element_tag : WrongFor false int64Params (.sequenceOf (tag CLASS_CONTEXT_SPECIFIC 1 .boolean)) := by
  refine ⟨fileA (.array (.ident (c! "bool"))) true, .slice [] false [.bool true], .list [.boolean true], [48, 3, 1, 1, 255], rfl, one_names ?_ ?_,
    .alias _ _ _ declares_one (.slice _ _ _ (by simp) (by simp) (.cons _ _ _ (.bool _ (by decide)) (.nil _))),
    one_means (.sequenceOf _ _ _ _ _ (.cons _ _ _ _ _ (.tagged _ _ _ _ _ _ (.boolean _)) (.nil _))), by decide, by decide, fun h => ?_⟩
  · intro nums h; simp [core_iff, removeWrapperTypes] at h
  · rintro a b (h | h) <;> cases h <;> rename_i h <;> cases h <;> rename_i h <;> cases h
  · obtain ⟨t, k, c, h1, h2⟩ := one_enc h
    cases h1 with
    | sequenceOf _ _ es h3 =>
      have hc := short_contents h2 (by simp) (by decide)
      cases h3 with
      | cons _ _ tg k' c' e _ es h4 h5 h6 =>
        cases h6
        simp only [List.flatten_cons, List.flatten_nil, List.append_nil] at hc
        subst hc
        cases h4 with
        | explicit cls n t kind b v tag' k' c' e h3 h4 h5' =>
          have := first_octet h5 (by decide)
          revert this; decide
        | implicit cls n t kind b v tag' k' c' h3 h4 h5' =>
          have := first_octet h5 (by decide)
          revert this; cases k' <;> decide

/-- A default value other than FALSE is taken for FALSE: `A ::= SEQUENCE { a BOOLEAN DEFAULT TRUE }`. -/
theorem C75_default_true : WrongFor false int64Params (.sequence [.named (.mk (c! "a") .boolean) false (some (.boolean true))] []) := by
  refine ⟨fileA (.struct [.mk (c! "A") (.ident (c! "bool")) (some (c! "`asn1:\"optional\"`"))]) false,
    .struct [.mk (c! "A") (some (c! "`asn1:\"optional\"`")) (.bool false)], .record [some (.boolean false)],
    [48, 0], rfl, one_names ?_ (one_member ?_), struct_typed (.cons _ _ _ _ _ _ (.bool _ (by decide)) .nil),
    one_means (.sequence _ _ _ _ (.present _ _ _ _ _ _ _ _ (by simp) (.boolean _) .nil)), by decide, by decide, fun h => ?_⟩
  · intro nums h; simp [core_iff, removeWrapperTypes] at h
  · rintro a b (h | h) <;> cases h
  · rcases one_component (one_enc h) (by decide) with ⟨t, k, c, h1, h2⟩ | ⟨_, h1, h2, -⟩
    · cases h1
      have := first_octet h2 (by decide)
      revert this; decide
    · cases h1
      cases h2

/-- A default value that is a named number is taken for 0: `A ::= SEQUENCE { a INTEGER { one(1) } DEFAULT one }`. -/
theorem C75_default_name : WrongFor false int64Params
    (.sequence [.named (.mk (c! "a") (.integer [⟨c! "one", .number 1⟩])) false (some (.identifiedInteger (c! "one")))] []) := by
  refine ⟨fileA (.struct [.mk (c! "A") (.ident (c! "int64")) (some (c! "`asn1:\"optional\"`"))]) false,
    .struct [.mk (c! "A") (some (c! "`asn1:\"optional\"`")) (.int 0)], .record [some (.integer 0)],
    [48, 0], rfl, one_names ?_ (one_member ?_), struct_typed (.cons _ _ _ _ _ _ (.int64 _ (by decide) (by unfold GoInt; decide)) .nil),
    one_means (.sequence _ _ _ _ (.present _ _ _ _ _ _ _ _ (by simp) (.integer _ _) .nil)), by decide, by decide, fun h => ?_⟩
  · intro nums h; simp [core_iff, removeWrapperTypes] at h
  · rintro a b (h | h) <;> cases h
  · rcases one_component (one_enc h) (by decide) with ⟨t, k, c, h1, h2⟩ | ⟨_, h1, h2, -⟩
    · cases h1
      have := first_octet h2 (by decide)
      revert this; decide
    · cases h1
      cases h2 with
      | named _ _ nums h3 h4 =>
        cases h3 with
        | core _ _ h5 _ =>
          simp only [core_iff, removeWrapperTypes, Ty.integer.injEq] at h5
          subst h5
          simp at h4
        | ref _ _ _ _ h5 _ _ => simp [core_iff, removeWrapperTypes] at h5

/-- Tags of class UNIVERSAL become context-specific: `A ::= SEQUENCE { a [UNIVERSAL 5] BOOLEAN }`. -/
theorem C75_universal_class : WrongFor false int64Params (.sequence [comp (c! "a") (tag CLASS_UNIVERSAL 5 .boolean)] []) := by
  refine ⟨fileA (.struct [.mk (c! "A") (.ident (c! "bool")) (some (c! "`asn1:\"tag:5\"`"))]) false,
    .struct [.mk (c! "A") (some (c! "`asn1:\"tag:5\"`")) (.bool true)], .record [some (.boolean true)],
    [48, 3, 133, 1, 255], rfl, one_names ?_ (one_member ?_), struct_typed (.cons _ _ _ _ _ _ (.bool _ (by decide)) .nil),
    one_means (.sequence _ _ _ _ (.present _ _ _ _ _ _ _ _ (by simp) (.tagged _ _ _ _ _ _ (.boolean _)) .nil)), by decide, by decide, fun h => ?_⟩
  · intro nums h; simp [core_iff, removeWrapperTypes] at h
  · rintro a b (h | h) <;> cases h <;> rename_i h <;> cases h
  · rcases one_component (one_enc h) (by decide) with ⟨t, k, c, h1, h2⟩ | ⟨_, h1, -, -⟩
    · cases h1 with
      | explicit =>
        have := first_octet h2 (by decide)
        revert this; decide
      | implicit =>
        have := first_octet h2 (by decide)
        revert this; cases k <;> decide
    · cases h1

/-- Of two tags only the inner number is kept: `A ::= SEQUENCE { a [1] [2] BOOLEAN }`. -/
theorem C75_nested_tags : WrongFor false int64Params
    (.sequence [comp (c! "a") (tag CLASS_CONTEXT_SPECIFIC 1 (tag CLASS_CONTEXT_SPECIFIC 2 .boolean))] []) := by
  refine ⟨fileA (.struct [.mk (c! "A") (.ident (c! "bool")) (some (c! "`asn1:\"tag:1,tag:2\"`"))]) false,
    .struct [.mk (c! "A") (some (c! "`asn1:\"tag:1,tag:2\"`")) (.bool true)], .record [some (.boolean true)],
    [48, 3, 130, 1, 255], rfl, one_names ?_ (one_member ?_), struct_typed (.cons _ _ _ _ _ _ (.bool _ (by decide)) .nil),
    one_means (.sequence _ _ _ _ (.present _ _ _ _ _ _ _ _ (by simp) (.tagged _ _ _ _ _ _ (.tagged _ _ _ _ _ _ (.boolean _))) .nil)),
    by decide, by decide, fun h => ?_⟩
  · intro nums h; simp [core_iff, removeWrapperTypes] at h
  · rintro a b (h | h) <;> cases h <;> rename_i h <;> cases h <;> rename_i h <;> cases h
  · rcases one_component (one_enc h) (by decide) with ⟨t, k, c, h1, h2⟩ | ⟨_, h1, -, -⟩
    · cases h1 with
      | explicit =>
        have := first_octet h2 (by decide)
        revert this; decide
      | implicit =>
        have := first_octet h2 (by decide)
        revert this; cases k <;> decide
    · cases h1

/-- Tags of CHOICE types are taken for IMPLICIT ones: `A ::= SEQUENCE { a [1] CHOICE { b BOOLEAN } }`. -/
theorem C75_choice_tag : WrongFor false int64Params (.sequence [comp (c! "a") (tag CLASS_CONTEXT_SPECIFIC 1 (.choice [.mk (c! "b") .boolean] []))] []) := by
  refine ⟨fileA (.struct [.mk (c! "A") (.ident (c! "bool")) (some (c! "`asn1:\"tag:1\"`"))]) false,
    .struct [.mk (c! "A") (some (c! "`asn1:\"tag:1\"`")) (.bool true)], .record [some (.choice (c! "b") (.boolean true))],
    [48, 3, 129, 1, 255], rfl, one_names ?_ (one_member ?_), struct_typed (.cons _ _ _ _ _ _ (.bool _ (by decide)) .nil),
    one_means (.sequence _ _ _ _ (.present _ _ _ _ _ _ _ _ (by simp) (.tagged _ _ _ _ _ _ (.choice _ _ _ _ _ (by intro h; cases h) (.boolean _))) .nil)),
    by decide, by decide, fun h => ?_⟩
  · intro nums h; simp [core_iff, removeWrapperTypes] at h
  · rintro a b (h | h) <;> cases h <;> rename_i h <;> cases h <;> rename_i h <;> cases h
  · rcases one_component (one_enc h) (by decide) with ⟨t, k, c, h1, h2⟩ | ⟨_, h1, -, -⟩
    · cases h1 with
      | explicit =>
        have := first_octet h2 (by decide)
        revert this; decide
      | implicit _ _ _ _ _ _ _ _ _ _ h3 => exact h3 (.choice _ _)
    · cases h1

/-! ### C76: encodings that obey DER -/

/-- Default values of `*big.Int` are written: `A ::= SEQUENCE { a INTEGER DEFAULT 1 }`. -/
theorem C76_big_default : WrongFor true bigParams (.sequence [.named (.mk (c! "a") (.integer [])) false (some (.number 1))] []) := by
  refine ⟨⟨c! "My_Mod", [.imp (c! "math/big"), .type [⟨c! "A", false, .struct [.mk (c! "A") (.star (.ident (c! "big.Int"))) (some (c! "`asn1:\"default:1,optional\"`"))]⟩]]⟩,
    .struct [.mk (c! "A") (some (c! "`asn1:\"default:1,optional\"`")) (.big (some 1))], .record [some (.integer 1)],
    [48, 3, 2, 1, 1], rfl, one_names ?_ (one_member ?_),
    .defined (c! "A") (.struct [.mk (c! "A") (.star (.ident (c! "big.Int"))) (some (c! "`asn1:\"default:1,optional\"`"))])
      (.struct [.mk (c! "A") (some (c! "`asn1:\"default:1,optional\"`")) (.big (some 1))])
      ⟨_, by simp, List.mem_singleton.2 rfl⟩ (.struct _ _ (.cons _ _ _ _ _ _ (.big _) .nil)),
    one_means (.sequence _ _ _ _ (.present _ _ _ _ _ _ _ _ (by simp) (.bigInteger _ _) .nil)), by decide, by decide, fun h => ?_⟩
  · intro nums h; simp [core_iff, removeWrapperTypes] at h
  · rintro a b (h | h) <;> cases h
  · obtain ⟨tag, k, c, h1, h2⟩ := one_enc h
    cases h1 with
    | sequence _ _ _ es h3 =>
      have hc := short_contents h2 (by simp) (by decide)
      have hm : members ([ComponentType.named (.mk (c! "a") (.integer [])) false (some (.number 1))] ++ ([] : List MComponent)) =
        [⟨c! "a", .integer [], false, some (.number 1)⟩] := rfl
      rw [hm] at h3
      cases h3 with
      | present _ _ tag' k' c' e _ _ es h4 h5 h6 h7 =>
        exact h6 rfl _ rfl (.number _ [] (.core _ _ (.done _ (by simp) (by simp)) (by simp)))
      | default _ _ dv _ _ es h4 h5 h6 =>
        cases h6
        cases hc

/-- `b INTEGER, a BOOLEAN` -/
def unordered : List MComponent := [comp (c! "b") (.integer []), comp (c! "a") .boolean]

/-- The components of a SET are not put in order: `A ::= SEQUENCE { a SET { b INTEGER, a BOOLEAN } }`. -/
theorem C76_set_order : WrongFor true int64Params (.sequence [comp (c! "a") (.set unordered [])] []) := by
  have hm : members (unordered ++ []) = [⟨c! "b", .integer [], false, none⟩, ⟨c! "a", .boolean, false, none⟩] := rfl
  refine ⟨fileA (.struct [.mk (c! "A") (.struct [.mk (c! "B") (.ident (c! "int64")) none, .mk (c! "A") (.ident (c! "bool")) none])
      (some (c! "`asn1:\"set\"`"))]) false,
    .struct [.mk (c! "A") (some (c! "`asn1:\"set\"`")) (.struct [.mk (c! "B") none (.int 5), .mk (c! "A") none (.bool true)])],
    .record [some (.record [some (.integer 5), some (.boolean true)])],
    [48, 8, 49, 6, 2, 1, 5, 1, 1, 255], rfl, one_names ?_ (one_member ?_),
    struct_typed (.cons _ _ _ _ _ _ (.struct _ _ (.cons _ _ _ _ _ _ (.int64 _ (by decide) (by unfold GoInt; decide))
      (.cons _ _ _ _ _ _ (.bool _ (by decide)) .nil))) .nil),
    one_means (.sequence _ _ _ _ (.present _ _ _ _ _ _ _ _ (by simp) (.set _ _ _ _ (.present _ _ _ _ _ _ _ _ (by simp) (.integer _ _)
      (.present _ _ _ _ _ _ _ _ (by simp) (.boolean _) .nil))) .nil)), by decide, by decide, fun h => ?_⟩
  · intro nums h; simp [core_iff, removeWrapperTypes] at h
  · have hno : ∀ x ∈ members (unordered ++ []), ∀ l t', Inside l x.type t' → (∀ a b, t' ≠ .sequence a b) ∧ ∀ a b, t' ≠ .set a b := by
      intro x hx l t' hi
      rw [hm] at hx
      simp only [List.mem_cons, List.not_mem_nil, or_false] at hx
      rcases hx with rfl | rfl <;> cases hi <;> simp
    rintro a b (hi | hi) <;> cases hi
    · rename_i y hy hi; exact absurd rfl ((hno y hy _ _ hi).1 a b)
    · refine ⟨by decide, fun x hx => ?_⟩
      rw [hm] at hx
      simp only [List.mem_cons, List.not_mem_nil, or_false] at hx
      rcases hx with rfl | rfl
      · exact lower_b
      · exact lower_a
    · rename_i y hy hi; exact absurd rfl ((hno y hy _ _ hi).2 a b)
  · rcases one_component (one_enc h) (by decide) with ⟨t, k, c, h1, h2⟩ | ⟨_, h1, -, -⟩
    · cases h1 with
      | set _ _ _ es es' h3 h4 h5 =>
        have hc := short_contents h2 (by simp) (by decide)
        rw [hm] at h3
        cases h3 with
        | present _ _ _ _ _ e _ _ es h6 h7 _ h8 =>
          cases h6
          cases h8 with
          | present _ _ _ _ _ e' _ _ es h9 h10 _ h11 =>
            cases h9
            cases h11 with
            | nil =>
              have h12 := first_octet h7 (by decide)
              have h13 := first_octet h10 (by decide)
              rcases List.perm_pair.1 h4 with rfl | rfl
              · have := (List.pairwise_cons.1 (h5 rfl)).1 _ (List.mem_singleton.2 rfl)
                simp [AsnTag.lt] at this
              · simp only [List.flatMap_cons, List.flatMap_nil, List.append_nil] at hc
                have := congrArg List.head? hc
                rw [List.head?_append, h13] at this
                simp at this
          | default _ _ _ _ _ _ h9 => cases h9
        | default _ _ _ _ _ _ h9 => cases h9
    · cases h1

/-- There are modules for which values are not encoded as DER demands, if they are as BER demands. -/
theorem C76_false : ¬ C76_statement := fun h => by
  obtain ⟨f, v, x, bs, h1, h2, h3, h4, h5, h6, h7⟩ := C76_big_default
  exact h7 (h asciiCasing 20 bigParams _ f h1 h2 (c! "A") v x bs h3 h4 h5 h6)

/-! ### A module that meets all conditions -/

/-- `v [0] EXPLICIT INTEGER DEFAULT 1, n IA5String, s SET OF BOOLEAN, b B OPTIONAL` -/
def packetMembers : List MComponent :=
  [.named (.mk (c! "v") (.tagged ⟨CLASS_CONTEXT_SPECIFIC, .number 0⟩ (.integer []) TAGS_EXPLICIT true)) false (some (.number 1)),
   comp (c! "n") (.restrictedString Tok.IA5String), comp (c! "s") (.setOf .boolean), .named (.mk (c! "b") (.ref (c! "B"))) true none]

/-- `A ::= SEQUENCE { … }  B ::= OCTET STRING` -/
def packet : List MAssignment := [.type (c! "A") (.sequence packetMembers []), .type (c! "B") .octetString]

/-- The fields of the struct for `A`. -/
def packetFields : List GoField :=
  [.mk (c! "V") (.ident (c! "int64")) (some (c! "`asn1:\"default:1,optional,explicit,tag:0\"`")),
   .mk (c! "N") (.ident (c! "string")) (some (c! "`asn1:\"ia5\"`")), .mk (c! "S") (.array (.ident (c! "bool"))) (some (c! "`asn1:\"set\"`")),
   .mk (c! "B") (.ident (c! "B")) (some (c! "`asn1:\"optional\"`"))]

/-- The file for it. -/
def packetFile : GoFile := ⟨c! "My_Mod", [.type [⟨c! "A", false, .struct packetFields⟩], .type [⟨c! "B", true, .array (.ident (c! "byte"))⟩]]⟩

theorem packet_file : generateFile asciiCasing 20 int64Params (moduleOf TAGS_IMPLICIT packet) = some (.ok packetFile) := rfl

theorem packet_members : members (packetMembers ++ []) =
    [⟨c! "v", .tagged ⟨CLASS_CONTEXT_SPECIFIC, .number 0⟩ (.integer []) TAGS_EXPLICIT true, false, some (.number 1)⟩,
      ⟨c! "n", .restrictedString Tok.IA5String, false, none⟩, ⟨c! "s", .setOf .boolean, false, none⟩, ⟨c! "b", .ref (c! "B"), true, none⟩] := rfl

theorem packet_names : NamesOk asciiCasing packet where
  named :=
    { types := by decide
      values := by decide
      typeName := by
        intro r hr
        have : r ∈ [c! "A", c! "B"] := hr
        simp only [List.mem_cons, List.not_mem_nil, or_false] at this
        rcases this with rfl | rfl <;>
          exact upperName_of ⟨_, _, rfl, by decide⟩ (by decide) (by decide) (by decide) (by decide) (by decide)
      valueName := by simp [valueNames, packet]
      numbers := by
        intro r t nums hm hc
        simp only [packet, List.mem_cons, Assignment.type.injEq, List.not_mem_nil, or_false] at hm
        rcases hm with ⟨rfl, rfl⟩ | ⟨rfl, rfl⟩ <;> cases hc
      number := by
        intro r t nums hm hc
        simp only [packet, List.mem_cons, Assignment.type.injEq, List.not_mem_nil, or_false] at hm
        rcases hm with ⟨rfl, rfl⟩ | ⟨rfl, rfl⟩ <;> cases hc }
  noSetClash := by
    intro r t hm _
    simp only [packet, List.mem_cons, Assignment.type.injEq, List.not_mem_nil, or_false] at hm
    rcases hm with ⟨rfl, rfl⟩ | ⟨rfl, rfl⟩ <;> decide
  noTime := by
    intro a ha
    have : a ∈ [c! "A", c! "B"] := ha
    simp only [List.mem_cons, List.not_mem_nil, or_false] at this
    rcases this with rfl | rfl <;> simp [TimeName]
  members := by
    intro n t hm a b hi
    simp only [packet, List.mem_cons, Assignment.type.injEq, List.not_mem_nil, or_false] at hm
    rcases hm with ⟨rfl, rfl⟩ | ⟨rfl, rfl⟩
    · have hno : ∀ t', (t' = .sequence a b ∨ t' = .set a b) → ∀ x ∈ members (packetMembers ++ []), ¬ Inside packet x.type t' := by
        intro t' ht x hx hi
        rw [packet_members] at hx
        simp only [List.mem_cons, List.not_mem_nil, or_false] at hx
        rcases hx with rfl | rfl | rfl | rfl <;> rcases ht with rfl | rfl <;> cases hi <;> rename_i hi <;> cases hi
      rcases hi with hi | hi
      · cases hi with
        | here =>
          refine ⟨by decide, fun x hx => ?_⟩
          rw [packet_members] at hx
          simp only [List.mem_cons, List.not_mem_nil, or_false] at hx
          rcases hx with rfl | rfl | rfl | rfl <;>
            exact lowerName_of ⟨_, _, rfl, by decide⟩ (by decide) (by decide) (by decide) (by decide) (by decide)
        | sequence _ _ x _ hx hi => exact absurd hi (hno _ (.inl rfl) x hx)
      · cases hi with
        | sequence _ _ x _ hx hi => exact absurd hi (hno _ (.inr rfl) x hx)
    · rcases hi with hi | hi <;> cases hi

theorem packet_A : Assigned packet (c! "A") (.sequence packetMembers []) := by simp [Assigned, packet, Assignment.name]
theorem packet_B : Assigned packet (c! "B") .octetString := by simp [Assigned, packet, Assignment.name]

theorem packet_encodable (strict : Bool) (op : Open) : Encodable strict op packet TAGS_IMPLICIT (c! "int64") (c! "A") := by
  refine ⟨fun a => a = c! "A" ∨ a = c! "B", .inl rfl, ?_⟩
  have hnone : ∀ n t o, DefaultOk strict packet (c! "int64") ⟨n, t, o, none⟩ := by
    intro n t o d hd; cases hd
  rintro b (rfl | rfl)
  · refine ⟨_, packet_A, ?_⟩
    simp only [packetMembers, comp, EncOk, EncOkMembers, EncOkTagged]
    refine ⟨⟨⟨by decide, ⟨0, rfl, by unfold GoInt; decide⟩, .inl rfl, (by intro h; cases h), trivial⟩, ?_, by simp, .inr ⟨trivial, by decide⟩, hnone _ _ _, by simp, ⟨by simp, trivial⟩,
      hnone _ _ _, by simp, .inl (.inr trivial), hnone _ _ _, fun _ _ hi => ?_, trivial⟩, trivial⟩
    rotate_left
    · cases hi with | ref _ _ h1 h2 => cases assigned_unique packet_B h1; cases h2
    intro d hd
    cases hd
    have h0 : TypeIs packet (.tagged ⟨CLASS_CONTEXT_SPECIFIC, .number 0⟩ (.integer []) TAGS_EXPLICIT true) (.integer []) :=
      .core _ _ (.tagged _ _ _ _ _ (.done _ (by simp) (by simp))) (by simp)
    refine ⟨rfl, .integer 1, .number _ [] h0, ?_, .inl ⟨1, rfl, by unfold GoInt; decide⟩, fun _ => .inl rfl⟩
    intro b hb
    cases hb
    rfl
  · exact ⟨_, packet_B, by simp [EncOk]⟩

/-- `A{V: 5, N: "x", S: []bool{true, false}, B: []byte{7}}` -/
def packetValue : GoVal := .struct [
  .mk (c! "V") (some (c! "`asn1:\"default:1,optional,explicit,tag:0\"`")) (.int 5), .mk (c! "N") (some (c! "`asn1:\"ia5\"`")) (.str (c! "x")),
  .mk (c! "S") (some (c! "`asn1:\"set\"`")) (.slice [] false [.bool true, .bool false]), .mk (c! "B") (some (c! "`asn1:\"optional\"`")) (.bytes (some [7]))]

theorem packet_typed : Typed packetFile (.ident (c! "A")) packetValue :=
  .defined (c! "A") (.struct packetFields) packetValue ⟨_, by simp [packetFile], List.mem_singleton.2 rfl⟩ (.struct _ _
    (.cons _ _ _ _ _ _ (.int64 _ (by decide) (by unfold GoInt; decide)) (.cons _ _ _ _ _ _ (.string _ (by decide))
      (.cons _ _ _ _ _ _ (.slice _ _ _ (by simp) (by simp) (.cons _ _ _ (.bool _ (by decide)) (.cons _ _ _ (.bool _ (by decide)) (.nil _))))
        (.cons _ _ _ _ _ _ (.alias (c! "B") (.array (.ident (c! "byte"))) _ ⟨_, by simp [packetFile], List.mem_singleton.2 rfl⟩ (.bytes _ (by decide))) .nil)))))

/-- What it stands for. -/
def packetAbstract : AsnVal :=
  .record [some (.integer 5), some (.string (c! "x")), some (.list [.boolean true, .boolean false]), some (.octets [7])]

theorem packet_means (strict : Bool) : Stands strict asciiCasing packet TAGS_IMPLICIT (c! "int64") packetFile (.ref (c! "A")) packetValue packetAbstract :=
  .ref _ _ _ _ packet_A (.sequence _ _ _ _ (.present _ _ _ _ _ _ _ _ (by simp) (.tagged _ _ _ _ _ _ (.integer _ _))
    (.present _ _ _ _ _ _ _ _ (by simp) (.string _ _ _ _ _ .ia5 (by decide))
      (.present _ _ _ _ _ _ _ _ (by simp) (.setOf _ _ _ _ _ (.cons _ _ _ _ _ (.boolean _) (.cons _ _ _ _ _ (.boolean _) (.nil _))))
        (.present _ _ _ _ _ _ _ _ (by simp [GoVal.isZero]) (.ref _ _ _ _ packet_B (.octetString _)) .nil)))))

/-- Its encoding, as X.690 tells it, comes out. -/
theorem C76_packet : marshal asciiCasing packetValue = some [48, 19, 160, 3, 2, 1, 5, 22, 1, 120, 49, 6, 1, 1, 0, 1, 1, 255, 4, 1, 7] ∧
    Encodes true packet TAGS_IMPLICIT (.ref (c! "A")) packetAbstract [48, 19, 160, 3, 2, 1, 5, 22, 1, 120, 49, 6, 1, 1, 0, 1, 1, 255, 4, 1, 7] := by
  have he : marshal asciiCasing packetValue = some [48, 19, 160, 3, 2, 1, 5, 22, 1, 120, 49, 6, 1, 1, 0, 1, 1, 255, 4, 1, 7] := by decide +kernel
  obtain ⟨bs, h1, h2⟩ := C76_der_partial asciiCasing 20 int64Params _ packetFile packet_file packet_names .none (c! "A") (packet_encodable true .none)
    packetValue packetAbstract packet_typed (packet_means true)
  cases h1.symm.trans he
  exact ⟨he, h2 (by decide)⟩

end Asn1go.Props
