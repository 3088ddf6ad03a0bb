import Verif.Proofs.Decoding.Writes
import Verif.Proofs.Decoding.Told
import Verif.Props.Encoding

/-! Abstract values that can be written with generated types: C77. -/

namespace Asn1go.Props

open Spec CG Enco Deco

/-! ### C77: every abstract value can be written -/

/-- Every value with an encoding has a Go value that is encoded as one of its encodings. -/
def C77_statement : Prop := ∀ (u : Casing) (fuel : Nat) (p : GenParams) (m : Module) (f : GoFile), generateFile u fuel p m = some (.ok f) →
  NamesOk u m.moduleBody.assignmentList → ∀ a x bs, Encodes false m.moduleBody.assignmentList m.tagDefault (.ref a) x bs →
    ∃ v bs', Typed f (.ident (goifyName u a)) v ∧ marshal u v = some bs' ∧ Encodes false m.moduleBody.assignmentList m.tagDefault (.ref a) x bs'

theorem none_limited : Open.none.Limited := fun h => by cases h

theorem ifaces_limited : Open.ifaces.Limited := fun h => by cases h

theorem raws_limited : Open.raws.Limited := fun _ => rfl

/-- For types for which no known defect applies, if the Go types of OPTIONAL components have zero values: a value that has an encoding
can be written exactly if its numbers fit their Go types and no OPTIONAL component that is present has a value whose only Go value is
the zero value. -/
theorem C77_written_partial (u : Casing) (fuel : Nat) (p : GenParams) (m : Module) (f : GoFile) (h : generateFile u fuel p m = some (.ok f))
    (hn : NamesOk u m.moduleBody.assignmentList)
    (hzero : ∀ a t, .type a t ∈ m.moduleBody.assignmentList → OptionalsZero m.moduleBody.assignmentList t)
    (strict : Bool) (op : Open) (hlim : op.Limited) (a : Str) (ha : Encodable strict op m.moduleBody.assignmentList m.tagDefault p.integerRepr a) (x : AsnVal) (bs : Bytes)
    (hx : Encodes strict m.moduleBody.assignmentList m.tagDefault (.ref a) x bs) :
    (∃ v bs', Typed f (.ident (goifyName u a)) v ∧ Stands strict u m.moduleBody.assignmentList m.tagDefault p.integerRepr f (.ref a) v x ∧ marshal u v = some bs' ∧
      (bs'.length ≤ 9223372036854775807 → Encodes strict m.moduleBody.assignmentList m.tagDefault (.ref a) x bs')) ↔
    Fits m.moduleBody.assignmentList p.integerRepr (.ref a) x ∧ OptionalsTold m.moduleBody.assignmentList p.integerRepr (.ref a) x := by
  obtain ⟨s, h1, h2⟩ := ha
  obtain ⟨tag, k, c, h3, -⟩ := hx
  have cx := context h hn h2
  obtain ⟨ds, -, h4, -, -, -, h5⟩ := file_parts h
  have hpre : ∀ n ∈ predeclared, n ∉ declared f.decls := fun n hp => by
    rw [h4]; exact predeclared_not hn.named h5 hp
  constructor
  · rintro ⟨v, bs', h6, h7, -⟩
    obtain ⟨h8, -, h9, -⟩ := told_assigned cx h1 h6 h7
    exact ⟨h9, h8⟩
  · rintro ⟨hf, ht⟩
    obtain ⟨v, h6, h7⟩ := write_assigned cx hlim hpre hzero h1 h3 ht hf
    obtain ⟨bs', h8, h9⟩ := encode_assigned cx h1 h6 h7
    exact ⟨v, bs', h6, h7, h8, h9⟩

/-- So every value whose numbers fit can be written, if the Go types of OPTIONAL components have nil. -/
theorem C77_nil (u : Casing) (fuel : Nat) (p : GenParams) (m : Module) (f : GoFile) (h : generateFile u fuel p m = some (.ok f))
    (hn : NamesOk u m.moduleBody.assignmentList) (hopt : ∀ a t, .type a t ∈ m.moduleBody.assignmentList → OptionalsNil m.moduleBody.assignmentList p.integerRepr t)
    (strict : Bool) (op : Open) (hlim : op.Limited) (a : Str) (ha : Encodable strict op m.moduleBody.assignmentList m.tagDefault p.integerRepr a) (x : AsnVal) (bs : Bytes)
    (hx : Encodes strict m.moduleBody.assignmentList m.tagDefault (.ref a) x bs) (hf : Fits m.moduleBody.assignmentList p.integerRepr (.ref a) x) :
    ∃ v bs', Typed f (.ident (goifyName u a)) v ∧ Stands strict u m.moduleBody.assignmentList m.tagDefault p.integerRepr f (.ref a) v x ∧ marshal u v = some bs' ∧
      (bs'.length ≤ 9223372036854775807 → Encodes strict m.moduleBody.assignmentList m.tagDefault (.ref a) x bs') := by
  refine (C77_written_partial u fuel p m f h hn (fun a t ht => nil_zero (hopt a t ht)) strict op hlim a ha x bs hx).2 ⟨hf, ?_⟩
  obtain ⟨s, h1, h2⟩ := ha
  exact nil_told (context h hn h2) hopt h1 x

/-- The conditions are met by the module above. -/
theorem packet_optionals : ∀ a t, .type a t ∈ packet → OptionalsNil packet (c! "int64") t := by
  intro n t hm a b hi x hx ho
  simp only [packet, List.mem_cons, Assignment.type.injEq, List.not_mem_nil, or_false] at hm
  rcases hm with ⟨rfl, rfl⟩ | ⟨rfl, rfl⟩
  · have hno : ∀ t', (t' = .sequence a b ∨ t' = .set a b) → ∀ x ∈ members (packetMembers ++ []), ¬ Inside packet x.type t' := by
      intro t' ht x hx hi
      rw [packet_members] at hx
      simp only [List.mem_cons, List.not_mem_nil, or_false] at hx
      rcases hx with rfl | rfl | rfl | rfl <;> rcases ht with rfl | rfl <;> cases hi <;> rename_i hi <;> cases hi
    rcases hi with hi | hi
    · cases hi with
      | here =>
        rw [packet_members] at hx
        simp only [List.mem_cons, List.not_mem_nil, or_false] at hx
        rcases hx with rfl | rfl | rfl | rfl
        · cases ho
        · cases ho
        · cases ho
        · exact .inl (.ref _ _ _ (c! "B") (.done _ (by simp) (by simp)) packet_B (.core _ _ (.done _ (by simp) (by simp)) (by simp)))
      | sequence _ _ x _ hx hi => exact absurd hi (hno _ (.inl rfl) x hx)
    · cases hi with
      | sequence _ _ x _ hx hi => exact absurd hi (hno _ (.inr rfl) x hx)
  · rcases hi with hi | hi <;> cases hi

theorem packet_fits : Fits packet (c! "int64") (.ref (c! "A")) packetAbstract := by
  have key : ∀ y, Part packetAbstract y → y = packetAbstract ∨ y = .integer 5 ∨ y = .string (c! "x") ∨ y = .list [.boolean true, .boolean false] ∨
      y = .boolean true ∨ y = .boolean false ∨ y = .octets [7] := by
    intro y h
    cases h with
    | here => exact .inl rfl
    | record _ x _ hx hp =>
      simp only [List.mem_cons, Option.some.injEq, List.not_mem_nil, or_false] at hx
      rcases hx with rfl | rfl | rfl | rfl
      · cases hp; simp
      · cases hp; simp
      · cases hp with
        | here => simp
        | list _ x _ hx hp =>
          simp only [List.mem_cons, List.not_mem_nil, or_false] at hx
          rcases hx with rfl | rfl <;> cases hp <;> simp
      · cases hp; simp
  intro t' y h
  rcases key _ (seen_part h) with rfl | rfl | rfl | rfl | rfl | rfl | rfl
  all_goals constructor <;> intros <;> simp_all [packetAbstract]
  unfold GoInt; omega

theorem C77_packet : ∃ v bs, Typed packetFile (.ident (c! "A")) v ∧ Stands true asciiCasing packet TAGS_IMPLICIT (c! "int64") packetFile (.ref (c! "A")) v packetAbstract ∧ marshal asciiCasing v = some bs ∧
    (bs.length ≤ 9223372036854775807 → Encodes true packet TAGS_IMPLICIT (.ref (c! "A")) packetAbstract bs) :=
  C77_nil asciiCasing 20 int64Params _ packetFile packet_file packet_names packet_optionals true .none none_limited (c! "A") (packet_encodable true .none)
    packetAbstract _ C76_packet.2 packet_fits

/-- `a BOOLEAN OPTIONAL` -/
def optionalBoolean : MComponent := .named (.mk (c! "a") .boolean) true none

/-- In `A ::= SEQUENCE { a BOOLEAN OPTIONAL }` the value FALSE cannot be written: the zero value is left out. -/
theorem C77_false : ¬ C77_statement := fun h => by
  have henc : Encodes false [.type (c! "A") (.sequence [optionalBoolean] [])] TAGS_IMPLICIT (.ref (c! "A")) (.record [some (.boolean false)])
      [48, 3, 1, 1, 0] := by
    refine ⟨⟨0, 16⟩, true, [1, 1, 0], .ref _ _ _ _ _ _ (one_assigned _) (.sequence _ _ _ [(⟨0, 1⟩, [1, 1, 0])] ?_), ⟨[48], [3], rfl, rfl, rfl⟩⟩
    exact .present ⟨c! "a", .boolean, true, none⟩ (.boolean false) ⟨0, 1⟩ false [0] [1, 1, 0] [] [] [] (.boolean _) ⟨[1], [1], rfl, rfl, rfl⟩ (by simp) .nil
  obtain ⟨v, bs, h1, h2, h3⟩ := h asciiCasing 20 int64Params (moduleOf TAGS_IMPLICIT [.type (c! "A") (.sequence [optionalBoolean] [])])
    (fileA (.struct [.mk (c! "A") (.ident (c! "bool")) (some (c! "`asn1:\"optional\"`"))]) false) rfl
    (one_names (by intro nums h; simp [core_iff, removeWrapperTypes] at h) (one_member (by rintro a b (h | h) <;> cases h))) (c! "A") _ _ henc
  have hd : ∀ s, Declares (fileA (.struct [.mk (c! "A") (.ident (c! "bool")) (some (c! "`asn1:\"optional\"`"))]) false) s →
      s = ⟨c! "A", false, .struct [.mk (c! "A") (.ident (c! "bool")) (some (c! "`asn1:\"optional\"`"))]⟩ := by
    rintro s ⟨l, hl, hs⟩
    simp only [fileA, List.mem_singleton, GoDecl.type.injEq] at hl
    subst hl
    simpa using hs
  have hb : ∃ b, v = .struct [.mk (c! "A") (some (c! "`asn1:\"optional\"`")) (.bool b)] := by
    generalize hn : goifyName asciiCasing (c! "A") = n at h1
    have hn' : n = c! "A" := hn.symm
    clear hn
    generalize he : GoExpr.ident n = e at h1
    cases h1 with
    | bool => cases he; cases hn'
    | int64 => cases he; cases hn'
    | float64 => cases he; cases hn'
    | string => cases he; cases hn'
    | bytes => cases he
    | big => cases he
    | bits => cases he; cases hn'
    | enumerated => cases he; cases hn'
    | oid => cases he; cases hn'
    | time => cases he; cases hn'
    | raw => cases he; cases hn'
    | nil => cases he
    | iface => cases he
    | slice => cases he
    | struct => cases he
    | «alias» _ _ _ hda => cases hd _ hda
    | defined _ _ v' hda ht =>
      cases hd _ hda
      cases ht with
      | struct _ vs hf =>
        cases hf with
        | cons _ _ _ w _ _ hw hr =>
          cases hr
          generalize hnb : GoExpr.ident (c! "bool") = e' at hw
          cases hw with
          | bool b _ => exact ⟨b, rfl⟩
          | «alias» _ _ _ hda => cases hnb; cases hd _ hda
          | defined _ _ _ hda => cases hnb; cases hd _ hda
          | _ => cases hnb
  obtain ⟨b, rfl⟩ := hb
  cases b
  · have he : marshal asciiCasing (.struct [.mk (c! "A") (some (c! "`asn1:\"optional\"`")) (.bool false)]) = some [48, 0] := by decide
    cases h2.symm.trans he
    rcases one_component (one_enc h3) (by decide) with ⟨t, k, c, h4, h5⟩ | ⟨_, h4, -, -⟩
    · cases h4
      have := first_octet h5 (by decide)
      revert this; decide
    · cases h4
  · have he : marshal asciiCasing (.struct [.mk (c! "A") (some (c! "`asn1:\"optional\"`")) (.bool true)]) = some [48, 3, 1, 1, 255] := by decide
    cases h2.symm.trans he
    rcases one_component (one_enc h3) (by decide) with ⟨t, k, c, h4, h5⟩ | ⟨_, h4, -, -⟩
    · cases h4
      have := short_contents h5 (by decide) (by decide)
      revert this; decide
    · cases h4

/-- In the same type TRUE can be written, and so can the absence of the component. -/
theorem C77_optional : ∃ f, generateFile asciiCasing 20 int64Params (moduleOf TAGS_IMPLICIT [.type (c! "A") (.sequence [optionalBoolean] [])]) = some (.ok f) ∧
    (∃ v, Typed f (.ident (c! "A")) v ∧ Stands true asciiCasing [.type (c! "A") (.sequence [optionalBoolean] [])] TAGS_IMPLICIT (c! "int64") f (.ref (c! "A")) v (.record [some (.boolean true)])) ∧
    (∃ v, Typed f (.ident (c! "A")) v ∧ Stands true asciiCasing [.type (c! "A") (.sequence [optionalBoolean] [])] TAGS_IMPLICIT (c! "int64") f (.ref (c! "A")) v (.record [none])) ∧
    ¬ ∃ v, Typed f (.ident (c! "A")) v ∧ Stands true asciiCasing [.type (c! "A") (.sequence [optionalBoolean] [])] TAGS_IMPLICIT (c! "int64") f (.ref (c! "A")) v (.record [some (.boolean false)]) := by
  have hm : members ([optionalBoolean] ++ []) = [⟨c! "a", .boolean, true, none⟩] := rfl
  have hz : ∀ a t, .type a t ∈ [Assignment.type (c! "A") (.sequence [optionalBoolean] [])] → OptionalsZero [.type (c! "A") (.sequence [optionalBoolean] [])] t := by
    intro a t ht a' b' hi x hx _
    simp only [List.mem_singleton, Assignment.type.injEq] at ht
    obtain ⟨rfl, rfl⟩ := ht
    have : x.type = .boolean := by
      rcases hi with hi | hi
      · cases hi with
        | here => rw [hm] at hx; simp at hx; rw [hx]
        | sequence _ _ y _ hy hi => rw [hm] at hy; simp at hy; subst hy; cases hi
      · cases hi with
        | sequence _ _ y _ hy hi => rw [hm] at hy; simp at hy; subst hy; cases hi
    rw [this]
    exact .boolean
  have hn : NamesOk asciiCasing [.type (c! "A") (.sequence [optionalBoolean] [])] :=
    one_names (by intro nums h; simp [core_iff, removeWrapperTypes] at h) (one_member (by rintro a b (h | h) <;> cases h))
  have ha : Encodable true .none [.type (c! "A") (.sequence [optionalBoolean] [])] TAGS_IMPLICIT int64Params.integerRepr (c! "A") :=
    ⟨fun b => b = c! "A", rfl, by
      rintro b rfl
      exact ⟨_, one_assigned _, by simp [EncOk, EncOkMembers, EncOkTagged, optionalBoolean, DefaultOk, Open.none]⟩⟩
  have key : ∀ v bs, Encodes true [.type (c! "A") (.sequence [optionalBoolean] [])] TAGS_IMPLICIT (.ref (c! "A")) (.record [v]) bs → (∀ x, v = some x → x = .boolean true) →
      ∃ w, Typed (fileA (.struct [.mk (c! "A") (.ident (c! "bool")) (some (c! "`asn1:\"optional\"`"))]) false) (.ident (c! "A")) w ∧
        Stands true asciiCasing [.type (c! "A") (.sequence [optionalBoolean] [])] TAGS_IMPLICIT (c! "int64") (fileA (.struct [.mk (c! "A") (.ident (c! "bool")) (some (c! "`asn1:\"optional\"`"))]) false) (.ref (c! "A")) w (.record [v]) := by
    intro v bs hx hv
    have hpart : ∀ t y, Seen [.type (c! "A") (.sequence [optionalBoolean] [])] (.ref (c! "A")) (.record [v]) t y →
        y = .boolean true ∨ (t = .ref (c! "A") ∧ y = .record [v]) ∨ (t = .sequence [optionalBoolean] [] ∧ y = .record [v]) := by
      intro t y h
      cases h with
      | here => exact .inr (.inl ⟨rfl, rfl⟩)
      | ref _ t' _ _ _ h1 h2 =>
        cases assigned_unique (one_assigned _) h1
        cases h2 with
        | here => exact .inr (.inr ⟨rfl, rfl⟩)
        | sequence _ _ _ m _ x _ h3 h4 =>
          rw [hm] at h3
          simp at h3
          obtain ⟨rfl, h3⟩ := h3
          have := hv x h3.symm
          subst this
          cases h4
          exact .inl rfl
    have hfit : Fits [.type (c! "A") (.sequence [optionalBoolean] [])] int64Params.integerRepr (.ref (c! "A")) (.record [v]) := by
      intro t y h
      rcases hpart t y h with rfl | ⟨-, rfl⟩ | ⟨-, rfl⟩ <;> constructor <;> intros <;> simp_all
    have htold : OptionalsTold [.type (c! "A") (.sequence [optionalBoolean] [])] int64Params.integerRepr (.ref (c! "A")) (.record [v]) := by
      intro a b vs hp m y hm' _ hb
      have : y = .boolean true ∧ m.type = .boolean := by
        rcases hp with hp | hp <;> rcases hpart _ _ hp with h | ⟨h, h'⟩ | ⟨h, h'⟩ <;> cases h
        cases h'
        rw [hm] at hm'
        simp at hm'
        exact ⟨hv y hm'.2.symm, by rw [hm'.1]⟩
      rw [this.1, this.2] at hb
      cases hb
    obtain ⟨w, bs', h1, h2, -⟩ := (C77_written_partial asciiCasing 20 int64Params (moduleOf TAGS_IMPLICIT [.type (c! "A") (.sequence [optionalBoolean] [])]) _ rfl hn hz
      true .none none_limited (c! "A") ha (.record [v]) bs hx).2 ⟨hfit, htold⟩
    exact ⟨w, h1, h2⟩
  refine ⟨_, rfl, key _ [48, 3, 1, 1, 255] ?_ (by simp), key _ [48, 0] ?_ (by simp), ?_⟩
  · refine ⟨⟨0, 16⟩, true, [1, 1, 255], .ref _ _ _ _ _ _ (one_assigned _) (.sequence _ _ _ [(⟨0, 1⟩, [1, 1, 255])] ?_), ⟨[48], [3], rfl, rfl, rfl⟩⟩
    exact .present ⟨c! "a", .boolean, true, none⟩ (.boolean true) ⟨0, 1⟩ false [255] [1, 1, 255] [] [] [] (.boolean _) ⟨[1], [1], rfl, rfl, rfl⟩ (by simp) .nil
  · exact ⟨⟨0, 16⟩, true, [], .ref _ _ _ _ _ _ (one_assigned _) (.sequence _ _ _ [] (.absent ⟨c! "a", .boolean, true, none⟩ [] [] [] rfl .nil)), ⟨[48], [0], rfl, rfl, rfl⟩⟩
  · rintro ⟨v, h1, h2⟩
    obtain ⟨s, h3, h4⟩ := ha
    have h5 := (told_assigned (context (u := asciiCasing) (fuel := 20) (p := int64Params)
      (m := moduleOf TAGS_IMPLICIT [.type (c! "A") (.sequence [optionalBoolean] [])]) rfl hn h4) h3 h1 h2).1
    exact h5 _ _ _ (.inl (.ref _ _ _ _ _ (one_assigned _) (.here _ _))) ⟨c! "a", .boolean, true, none⟩ (.boolean false) (by rw [hm]; simp) rfl .boolean

/-- No value of `A ::= SEQUENCE { a REAL }` can be written: encoding/asn1 does not know floating point numbers. -/
theorem C77_real : generateFile asciiCasing 20 int64Params (moduleOf TAGS_IMPLICIT [.type (c! "A") (.sequence [comp (c! "a") .real] [])]) =
      some (.ok (fileA (.struct [.mk (c! "A") (.ident (c! "float64")) none]) false)) ∧
    ∀ v, Typed (fileA (.struct [.mk (c! "A") (.ident (c! "float64")) none]) false) (.ident (c! "A")) v → marshal asciiCasing v = none := by
  refine ⟨rfl, fun v h1 => ?_⟩
  have hd : ∀ s, Declares (fileA (.struct [.mk (c! "A") (.ident (c! "float64")) none]) false) s →
      s = ⟨c! "A", false, .struct [.mk (c! "A") (.ident (c! "float64")) none]⟩ := by
    rintro s ⟨l, hl, hs⟩
    simp only [fileA, List.mem_singleton, GoDecl.type.injEq] at hl
    subst hl
    simpa using hs
  generalize hn' : c! "A" = n at h1
  generalize he : GoExpr.ident n = e at h1
  cases h1 with
  | «alias» _ _ _ hda => cases he; subst hn'; cases hd _ hda
  | defined _ _ v' hda ht =>
    cases he; subst hn'
    cases hd _ hda
    cases ht with
    | struct _ vs hf =>
      cases hf with
      | cons _ _ _ w _ _ hw hr =>
        cases hr
        generalize hnb : GoExpr.ident (c! "float64") = e' at hw
        cases hw with
        | float64 => decide
        | «alias» _ _ _ hda => cases hnb; cases hd _ hda
        | defined _ _ _ hda => cases hnb; cases hd _ hda
        | _ => cases hnb
  | _ => cases he <;> cases hn'

end Asn1go.Props
