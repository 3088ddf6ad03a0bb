import Verif.Props.Writing

/-! CHOICE types with several alternatives, as encoding/asn1 writes them: C75, C76, C77. -/

namespace Asn1go.Props

open Spec CG Enco Deco

/-- `i INTEGER, b B` -/
def optionAlts : List MNamed := [.mk (c! "i") (.integer []), .mk (c! "b") (.ref (c! "B"))]

/-- `c C, d [1] EXPLICIT C` -/
def optionMembers : List MComponent :=
  [comp (c! "c") (.ref (c! "C")), comp (c! "d") (.tagged ⟨CLASS_CONTEXT_SPECIFIC, .number 1⟩ (.ref (c! "C")) TAGS_EXPLICIT true)]

/-- `A ::= SEQUENCE { c C, d [1] EXPLICIT C }  B ::= SEQUENCE { x BOOLEAN }  C ::= CHOICE { i INTEGER, b B }` -/
def options : List MAssignment :=
  [.type (c! "A") (.sequence optionMembers []), .type (c! "B") (.sequence [comp (c! "x") .boolean] []), .type (c! "C") (.choice optionAlts [])]

/-- The fields of the struct for `A`. -/
def optionFields : List GoField := [.mk (c! "C") (.ident (c! "C")) none, .mk (c! "D") (.ident (c! "C")) (some (c! "`asn1:\"explicit,tag:1\"`"))]

/-- The fields of the struct for `B`. -/
def optionFieldsB : List GoField := [.mk (c! "X") (.ident (c! "bool")) none]

/-- The file for it: `C` is `interface{}`. -/
def optionsFile : GoFile :=
  ⟨c! "My_Mod", [.type [⟨c! "A", false, .struct optionFields⟩], .type [⟨c! "B", false, .struct optionFieldsB⟩], .type [⟨c! "C", true, .iface⟩]]⟩

theorem options_file : generateFile asciiCasing 20 int64Params (moduleOf TAGS_IMPLICIT options) = some (.ok optionsFile) := rfl

theorem options_members : members (optionMembers ++ []) =
    [⟨c! "c", .ref (c! "C"), false, none⟩, ⟨c! "d", .tagged ⟨CLASS_CONTEXT_SPECIFIC, .number 1⟩ (.ref (c! "C")) TAGS_EXPLICIT true, false, none⟩] := rfl

theorem options_A : Assigned options (c! "A") (.sequence optionMembers []) := by simp [Assigned, options, Assignment.name]
theorem options_B : Assigned options (c! "B") (.sequence [comp (c! "x") .boolean] []) := by simp [Assigned, options, Assignment.name]
theorem options_C : Assigned options (c! "C") (.choice optionAlts []) := by simp [Assigned, options, Assignment.name]

/-- The SEQUENCE types of the module. -/
theorem options_inside {n : Str} {t : MTy} {a b : List MComponent} (hm : .type n t ∈ options) (hi : Inside options t (.sequence a b) ∨ Inside options t (.set a b)) :
    b = [] ∧ (a = optionMembers ∨ a = [comp (c! "x") .boolean]) := by
  simp only [options, List.mem_cons, Assignment.type.injEq, List.not_mem_nil, or_false] at hm
  rcases hm with ⟨rfl, rfl⟩ | ⟨rfl, rfl⟩ | ⟨rfl, rfl⟩
  · have hno : ∀ t', (t' = .sequence a b ∨ t' = .set a b) → ∀ x ∈ members (optionMembers ++ []), ¬ Inside options x.type t' := by
      intro t' ht x hx hi
      rw [options_members] at hx
      simp only [List.mem_cons, List.not_mem_nil, or_false] at hx
      rcases hx with rfl | rfl <;> rcases ht with rfl | rfl <;> cases hi <;> rename_i hi <;> cases hi
    rcases hi with hi | hi
    · cases hi with
      | here => exact ⟨rfl, .inl rfl⟩
      | sequence _ _ x _ hx hi => exact absurd hi (hno _ (.inl rfl) x hx)
    · cases hi with
      | sequence _ _ x _ hx hi => exact absurd hi (hno _ (.inr rfl) x hx)
  · have hm : ∀ y ∈ members ([comp (c! "x") .boolean] ++ []), y = ⟨c! "x", .boolean, false, none⟩ := by
      intro y hy
      simpa [members, comp] using hy
    rcases hi with hi | hi
    · cases hi with
      | here => exact ⟨rfl, .inr rfl⟩
      | sequence _ _ x _ hx hi => rw [hm x hx] at hi; cases hi
    · cases hi with
      | sequence _ _ x _ hx hi => rw [hm x hx] at hi; cases hi
  · rcases hi with hi | hi <;> cases hi

theorem options_names : NamesOk asciiCasing options where
  named :=
    { types := by decide
      values := by decide
      typeName := by
        intro r hr
        have : r ∈ [c! "A", c! "B", c! "C"] := hr
        simp only [List.mem_cons, List.not_mem_nil, or_false] at this
        rcases this with rfl | rfl | rfl <;>
          exact upperName_of ⟨_, _, rfl, by decide⟩ (by decide) (by decide) (by decide) (by decide) (by decide)
      valueName := by simp [valueNames, options]
      numbers := by
        intro r t nums hm hc
        simp only [options, List.mem_cons, Assignment.type.injEq, List.not_mem_nil, or_false] at hm
        rcases hm with ⟨rfl, rfl⟩ | ⟨rfl, rfl⟩ | ⟨rfl, rfl⟩ <;> cases hc
      number := by
        intro r t nums hm hc
        simp only [options, List.mem_cons, Assignment.type.injEq, List.not_mem_nil, or_false] at hm
        rcases hm with ⟨rfl, rfl⟩ | ⟨rfl, rfl⟩ | ⟨rfl, rfl⟩ <;> cases hc }
  noSetClash := by
    intro r t hm _
    simp only [options, List.mem_cons, Assignment.type.injEq, List.not_mem_nil, or_false] at hm
    rcases hm with ⟨rfl, rfl⟩ | ⟨rfl, rfl⟩ | ⟨rfl, rfl⟩ <;> decide
  noTime := by
    intro a ha
    have : a ∈ [c! "A", c! "B", c! "C"] := ha
    simp only [List.mem_cons, List.not_mem_nil, or_false] at this
    rcases this with rfl | rfl | rfl <;> simp [TimeName]
  members := by
    intro n t hm a b hi
    obtain ⟨rfl, rfl | rfl⟩ := options_inside hm hi
    · refine ⟨by decide, fun x hx => ?_⟩
      rw [options_members] at hx
      simp only [List.mem_cons, List.not_mem_nil, or_false] at hx
      rcases hx with rfl | rfl <;>
        exact lowerName_of ⟨_, _, rfl, by decide⟩ (by decide) (by decide) (by decide) (by decide) (by decide)
    · refine ⟨by decide, fun x hx => ?_⟩
      have hx : x ∈ [(⟨c! "x", .boolean, false, none⟩ : Member)] := hx
      rw [List.mem_singleton] at hx
      subst hx
      exact lowerName_of ⟨_, _, rfl, by decide⟩ (by decide) (by decide) (by decide) (by decide) (by decide)

theorem options_untagged : ¬ SomeTagged options optionAlts := by
  rintro ⟨n, t, hm, ht⟩
  simp only [optionAlts, List.mem_cons, NamedType.mk.injEq, List.not_mem_nil, or_false] at hm
  rcases hm with ⟨rfl, rfl⟩ | ⟨rfl, rfl⟩
  · cases ht
  · cases ht with
    | ref _ b t _ h1 h2 =>
      obtain ⟨rfl, rfl⟩ := resolves_unique h1 (.assigned _ _ _ (.assigned _ _ _ options_B (.done _ (by simp) (by simp)) (by simp)) (by simp))
      cases h2

theorem not_raw_C : ¬ InRaw options (.ref (c! "C")) := by
  intro h
  cases h with
  | ref _ _ h1 h2 =>
    cases assigned_unique options_C h1
    cases h2 with
    | raw _ _ h => exact options_untagged h
    | alternative _ _ n t hm h =>
      simp only [optionAlts, List.mem_cons, NamedType.mk.injEq, List.not_mem_nil, or_false] at hm
      rcases hm with ⟨rfl, rfl⟩ | ⟨rfl, rfl⟩
      · cases h
      · cases h with | ref _ _ h1 h2 => cases assigned_unique options_B h1; cases h2

theorem options_encodable (strict : Bool) : Encodable strict .ifaces options TAGS_IMPLICIT (c! "int64") (c! "A") := by
  refine ⟨fun a => a = c! "A" ∨ a = c! "B" ∨ a = c! "C", .inl rfl, ?_⟩
  have hnone : ∀ n t o, DefaultOk strict options (c! "int64") ⟨n, t, o, none⟩ := by
    intro n t o d hd; cases hd
  rintro b (rfl | rfl | rfl)
  · refine ⟨_, options_A, ?_⟩
    simp only [optionMembers, comp, EncOk, EncOkMembers, EncOkTagged]
    exact ⟨⟨.inl (by simp), hnone _ _ _, by simp, ⟨by decide, ⟨1, rfl, by unfold GoInt; decide⟩, .inl rfl, not_raw_C, .inl (by simp)⟩, hnone _ _ _, by simp, trivial⟩, trivial⟩
  · refine ⟨_, options_B, ?_⟩
    simp only [comp, EncOk, EncOkMembers, EncOkTagged]
    exact ⟨⟨trivial, hnone _ _ _, by simp, trivial⟩, trivial⟩
  · refine ⟨_, options_C, ?_⟩
    simp only [optionAlts, EncOk, EncOkOnly, EncOkEach]
    refine .inr ⟨rfl, ?_, .inl trivial, ?_, trivial, ?_, .inl (by simp), trivial⟩
    · intro n t t' h1 h2
      simp only [List.mem_cons, NamedType.mk.injEq, List.not_mem_nil, or_false] at h1 h2
      rcases h1 with ⟨rfl, rfl⟩ | ⟨rfl, rfl⟩ <;> rcases h2 with ⟨h, rfl⟩ | ⟨h, rfl⟩ <;> first | rfl | simp at h
    · intro a b
      constructor <;> intro h <;> cases h
    · intro a b
      constructor <;> intro h <;> cases h

/-- `A{C: int64(5), D: B{X: true}}` -/
def optionsValue : GoVal := .struct [.mk (c! "C") none (.iface (.int 5)),
  .mk (c! "D") (some (c! "`asn1:\"explicit,tag:1\"`")) (.iface (.struct [.mk (c! "X") none (.bool true)]))]

/-- What it stands for. -/
def optionsAbstract : AsnVal := .record [some (.choice (c! "i") (.integer 5)), some (.choice (c! "b") (.record [some (.boolean true)]))]

theorem optionB_typed : Typed optionsFile (.ident (c! "B")) (.struct [.mk (c! "X") none (.bool true)]) :=
  .defined (c! "B") (.struct optionFieldsB) (.struct [.mk (c! "X") none (.bool true)]) ⟨_, by simp [optionsFile], List.mem_singleton.2 rfl⟩
    (.struct _ _ (.cons _ _ _ _ _ _ (.bool _ (by decide)) .nil))

theorem options_typed : Typed optionsFile (.ident (c! "A")) optionsValue :=
  have hc : Declares optionsFile ⟨c! "C", true, .iface⟩ := ⟨_, by simp [optionsFile], List.mem_singleton.2 rfl⟩
  .defined (c! "A") (.struct optionFields) optionsValue ⟨_, by simp [optionsFile], List.mem_singleton.2 rfl⟩ (.struct _ _
    (.cons _ _ _ _ _ _ (.alias _ _ _ hc (.iface _ _ (.int64 _ (by decide) (by unfold GoInt; decide)) (by simp) (by simp)))
      (.cons _ _ _ _ _ _ (.alias _ _ _ hc (.iface _ _ optionB_typed (by simp) (by simp))) .nil)))

theorem optionB_type : HasGoType asciiCasing options TAGS_IMPLICIT (c! "int64") optionsFile (.ref (c! "B")) (.struct [.mk (c! "X") none (.bool true)]) :=
  ⟨_, .ref (c! "B") (c! "B") _ (.assigned _ _ _ (.assigned _ _ _ options_B (.done _ (by simp) (by simp)) (by simp)) (by simp)) (by simp [TimeName])
    (by intro nb h; simp [core_iff, removeWrapperTypes] at h), optionB_typed⟩

theorem options_means : Stands true asciiCasing options TAGS_IMPLICIT (c! "int64") optionsFile (.ref (c! "A")) optionsValue optionsAbstract :=
  .ref _ _ _ _ options_A (.sequence _ _ _ _
    (.present _ _ _ _ _ _ _ _ (by simp) (.ref _ _ _ _ options_C (.alternative _ _ _ _ (.int 5) _ _ options_untagged (by simp [optionAlts]) (by simp [optionAlts])
        ⟨_, .int64 [] rfl, .int64 _ (by decide) (by unfold GoInt; decide)⟩ rfl (.integer _ _)))
      (.present _ _ _ _ _ _ _ _ (by simp) (.tagged _ _ _ _ _ _ (.ref _ _ _ _ options_C (.alternative _ _ _ (.ref (c! "B")) (.struct [.mk (c! "X") none (.bool true)]) _ _
        options_untagged (by simp [optionAlts]) (by simp [optionAlts]) optionB_type rfl
        (.ref _ _ _ _ options_B (.sequence _ _ _ _ (.present ⟨c! "x", .boolean, false, none⟩ [] _ _ _ _ _ _ (by simp) (.boolean _) .nil)))))) .nil)))

/-- Values in interfaces are encoded as DER demands. -/
theorem C76_options : marshal asciiCasing optionsValue = some [48, 10, 2, 1, 5, 161, 5, 48, 3, 1, 1, 255] ∧
    Encodes true options TAGS_IMPLICIT (.ref (c! "A")) optionsAbstract [48, 10, 2, 1, 5, 161, 5, 48, 3, 1, 1, 255] := by
  have he : marshal asciiCasing optionsValue = some [48, 10, 2, 1, 5, 161, 5, 48, 3, 1, 1, 255] := by decide +kernel
  obtain ⟨bs, h1, h2⟩ := C76_der_partial asciiCasing 20 int64Params _ optionsFile options_file options_names .ifaces (c! "A") (options_encodable true)
    optionsValue optionsAbstract options_typed options_means
  cases h1.symm.trans he
  exact ⟨he, h2 (by decide)⟩

/-- No component is OPTIONAL. -/
theorem options_optionals : ∀ a t, .type a t ∈ options → OptionalsNil options (c! "int64") t := by
  intro n t hm a b hi x hx ho
  obtain ⟨rfl, rfl | rfl⟩ := options_inside hm hi
  · rw [options_members] at hx
    simp only [List.mem_cons, List.not_mem_nil, or_false] at hx
    rcases hx with rfl | rfl <;> cases ho
  · have hx : x ∈ [(⟨c! "x", .boolean, false, none⟩ : Member)] := hx
    rw [List.mem_singleton] at hx
    subst hx
    cases ho

/-- Every value whose numbers fit can be written. -/
theorem C77_options (x : AsnVal) (bs : Bytes) (hx : Encodes true options TAGS_IMPLICIT (.ref (c! "A")) x bs) (hf : Fits options (c! "int64") (.ref (c! "A")) x) :
    ∃ v bs', Typed optionsFile (.ident (c! "A")) v ∧ Stands true asciiCasing options TAGS_IMPLICIT (c! "int64") optionsFile (.ref (c! "A")) v x ∧
      marshal asciiCasing v = some bs' ∧ (bs'.length ≤ 9223372036854775807 → Encodes true options TAGS_IMPLICIT (.ref (c! "A")) x bs') :=
  C77_nil asciiCasing 20 int64Params _ optionsFile options_file options_names options_optionals true .ifaces ifaces_limited (c! "A") (options_encodable true) x bs hx hf

/-- `A ::= SEQUENCE { a CHOICE { b BOOLEAN, i INTEGER } OPTIONAL }` -/
def optionalChoice : MTy := .sequence [.named (.mk (c! "a") (.choice [.mk (c! "b") .boolean, .mk (c! "i") (.integer [])] [])) true none] []

/-- An OPTIONAL component held in an interface cannot be left out: nil is an error, with or without `optional`. -/
theorem C77_optional_choice : generateFile asciiCasing 20 int64Params (moduleOf TAGS_IMPLICIT [.type (c! "A") optionalChoice]) =
      some (.ok (fileA (.struct [.mk (c! "A") .iface (some (c! "`asn1:\"optional\"`"))]) false)) ∧
    Encodes true [.type (c! "A") optionalChoice] TAGS_IMPLICIT (.ref (c! "A")) (.record [none]) [48, 0] ∧
    ∀ v, Typed (fileA (.struct [.mk (c! "A") .iface (some (c! "`asn1:\"optional\"`"))]) false) (.ident (c! "A")) v →
      Stands true asciiCasing [.type (c! "A") optionalChoice] TAGS_IMPLICIT (c! "int64")
        (fileA (.struct [.mk (c! "A") .iface (some (c! "`asn1:\"optional\"`"))]) false) (.ref (c! "A")) v (.record [none]) →
      marshal asciiCasing v = none := by
  refine ⟨rfl, ⟨⟨0, 16⟩, true, [], .ref _ _ _ _ _ _ (one_assigned _) (.sequence _ _ _ [] (.absent _ _ _ _ rfl .nil)), ⟨[48], [0], rfl, rfl, rfl⟩⟩, fun v hty hm => ?_⟩
  have hz : ∀ n tag w, v = .struct [.mk n tag w] → w.isZero = true := by
    rintro n tag w rfl
    cases hm with
    | ref _ t _ _ h1 h2 =>
      cases assigned_unique (one_assigned _) h1
      cases h2 with
      | sequence _ _ fs _ h3 =>
        have hm : members ([ComponentType.named (.mk (c! "a") (.choice [.mk (c! "b") .boolean, .mk (c! "i") (.integer [])] [])) true none] ++ ([] : List MComponent)) =
          [⟨c! "a", .choice [.mk (c! "b") .boolean, .mk (c! "i") (.integer [])] [], true, none⟩] := rfl
        rw [hm] at h3
        cases h3 with
        | absent _ _ n tag v _ _ _ hz h4 => exact hz
  clear hm
  have hd : ∀ s, Declares (fileA (.struct [.mk (c! "A") .iface (some (c! "`asn1:\"optional\"`"))]) false) s →
      s = ⟨c! "A", false, .struct [.mk (c! "A") .iface (some (c! "`asn1:\"optional\"`"))]⟩ := by
    rintro s ⟨l, hl, hs⟩
    simp only [fileA, List.mem_singleton, GoDecl.type.injEq] at hl
    subst hl
    simpa using hs
  generalize hn' : c! "A" = n at hty
  generalize he : GoExpr.ident n = e at hty
  cases hty with
  | «alias» _ _ _ hda => cases he; subst hn'; cases hd _ hda
  | defined _ _ v' hda ht =>
    cases he; subst hn'
    cases hd _ hda
    cases ht with
    | struct _ vs hf =>
      cases hf with
      | cons _ _ _ w _ _ hw hr =>
        cases hr
        have := hz _ _ _ rfl
        cases hw with
        | nil => decide
        | iface => simp [GoVal.isZero] at this
  | _ => cases he <;> cases hn'

end Asn1go.Props
