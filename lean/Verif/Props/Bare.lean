import Verif.Proofs.Codegen.Bare
import Verif.Props.Order
import Verif.Props.Notation

/-! Notation that does not change the generated file: C87. -/

namespace Asn1go.Props

open Spec CG

/-! ### C87: constraints, extension markers and the tagging of a module are notation only -/

/-- C87: leaving out all constraints and extension markers and writing out the tagging of every tag, whatever is put as the default tagging, changes
nothing.  Types must be present within constraints, as they are in parsed modules. -/
theorem C87_bare (u : Casing) (fuel : Nat) (p : GenParams) (m : Module) (tags : Int) (hm : m.tagDefault ≠ TAGS_AUTOMATIC) (ht : tags ≠ TAGS_AUTOMATIC)
    (hl : ∀ n t, .type n t ∈ m.moduleBody.assignmentList → removeWrapperTypes t ≠ .nil) :
    generateFile u fuel p (bareModule m tags) = generateFile u fuel p m := by
  unfold generateFile
  rw [if_neg hm, if_neg (by exact ht)]
  have key := decls_bare (c := ⟨u, fuel, m.tagDefault, m.moduleBody.assignmentList, p.integerRepr⟩) (tags := tags) hl m.moduleBody.assignmentList
  simp only [bareModule, bareCtx] at key ⊢
  rw [key]

/-- So modules that have the same bare form have the same file. -/
theorem C87_same (u : Casing) (fuel : Nat) (p : GenParams) (m m' : Module) (hm : m.tagDefault ≠ TAGS_AUTOMATIC) (hm' : m'.tagDefault ≠ TAGS_AUTOMATIC)
    (hl : ∀ n t, .type n t ∈ m.moduleBody.assignmentList → removeWrapperTypes t ≠ .nil)
    (hl' : ∀ n t, .type n t ∈ m'.moduleBody.assignmentList → removeWrapperTypes t ≠ .nil) (h : bareModule m 0 = bareModule m' 0) :
    generateFile u fuel p m = generateFile u fuel p m' := by
  rw [← C87_bare u fuel p m 0 hm (by decide) hl, h, C87_bare u fuel p m' 0 hm' (by decide) hl']

/-- A type is present. -/
def Present {R D : Type} : Ty R D → Prop
  | .tagged _ t _ _ => Present t
  | .constrained t _ => Present t
  | .nil => False
  | _ => True

theorem present_map {R D R' D' : Type} (f : R → R') (g : D → D') : ∀ t : Ty R D, Present (t.map f g) ↔ Present t
  | .tagged _ t _ _ => by simpa only [Ty.map, Present] using present_map f g t
  | .constrained t _ => by simpa only [Ty.map, Present] using present_map f g t
  | .boolean | .integer _ | .characterString | .real | .octetString | .sequence _ _ | .set _ _ | .sequenceOf _ | .setOf _ | .ref _
  | .restrictedString _ | .bitString _ | .enumerated _ _ | .any _ | .objectIdentifier | .choice _ _ | .null | .nil | .named _ => by
    simp only [Ty.map, Present]

theorem present_wrapper : ∀ {t : MTy}, Present t → removeWrapperTypes t ≠ .nil
  | .tagged _ t _ _, h => by
    simp only [Present, removeWrapperTypes] at h ⊢
    exact present_wrapper h
  | .constrained t _, h => by
    simp only [Present, removeWrapperTypes] at h ⊢
    exact present_wrapper h
  | .boolean, _ | .integer _, _ | .characterString, _ | .real, _ | .octetString, _ | .sequence _ _, _ | .set _ _, _ | .sequenceOf _, _
  | .setOf _, _ | .ref _, _ | .restrictedString _, _ | .bitString _, _ | .enumerated _ _, _ | .any _, _ | .objectIdentifier, _ | .choice _ _, _
  | .null, _ | .named _, _ => by simp [removeWrapperTypes]
  | .nil, h => by simp [Present] at h

theorem present_text {R D : Type} {L : Links R D} {simple : Bool} {b : Bool} {toks : List Token} {t : Ty R D} (h : Notation.TypeText L simple b toks t) :
    Present t := by
  refine Notation.TypeText.rec (L := L) (simple := simple) (motive_1 := fun _ _ t _ => Present t) (motive_2 := fun _ _ _ => True)
    (motive_3 := fun _ _ _ => True) (motive_4 := fun _ _ _ => True) (motive_5 := fun _ _ _ => True)
    (motive_6 := fun _ _ _ => True) (motive_7 := fun _ _ _ => True) (motive_8 := fun _ _ _ => True)
    (motive_9 := fun _ _ _ => True) (motive_10 := fun _ _ _ => True) (motive_11 := fun _ _ _ _ => True)
    (motive_12 := fun _ _ _ => True) (motive_13 := fun _ _ _ => True) (motive_14 := fun _ _ _ => True)
    (motive_15 := fun _ _ _ => True) (motive_16 := fun _ _ _ => True) (motive_17 := fun _ _ _ => True)
    (motive_18 := fun _ _ _ => True) (motive_19 := fun _ _ => True) (motive_20 := fun _ _ => True)
    (motive_21 := fun _ _ => True)
    ?_ ?_ ?_ ?_ ?_ ?_ ?_ ?_ ?_ ?_ ?_ ?_ ?_ ?_ ?_ ?_ ?_ ?_ ?_ ?_ ?_ ?_ ?_ ?_ ?_ ?_ ?_ ?_ ?_ ?_ ?_ ?_ ?_ ?_ ?_ ?_ ?_ ?_ ?_ ?_ ?_ ?_
    ?_ ?_ ?_ ?_ ?_ ?_ ?_ ?_ ?_ ?_ ?_ ?_ ?_ ?_ ?_ ?_ ?_ ?_ ?_ ?_ ?_ ?_ ?_ ?_ ?_ ?_ ?_ ?_ ?_ ?_ ?_ ?_ ?_ ?_ ?_ ?_ ?_ ?_ ?_ h
  all_goals
    intros
    first
    | trivial
    | simpa only [Present]

theorem present_assignments {R D : Type} {L : Links R D} {simple : Bool} {toks : List Token} {l : List (Assignment R D)}
    (h : Notation.AssignmentsText L simple toks l) : ∀ n t, .type n t ∈ l → Present t := by
  induction h with
  | one _ z hz =>
    intro n t hy
    rw [List.mem_singleton] at hy
    subst hy
    cases hz with
    | type _ _ _ ht => exact present_text ht
  | snoc _ _ l z _ hz ih =>
    intro n t hy
    rcases List.mem_append.1 hy with hy | hy
    · exact ih n t hy
    · rw [List.mem_singleton] at hy
      subst hy
      cases hz with
      | type _ _ _ ht => exact present_text ht

/-- In parsed modules types are present. -/
theorem present_parsed {u : Unicode} {text : Str} {m : Module} (h : parseString u text = .ok m) :
    ∀ n t, .type n t ∈ m.moduleBody.assignmentList → removeWrapperTypes t ≠ .nil := by
  obtain ⟨toks, n, m0, _, hn, rfl, hs⟩ := C63_returned u text m h
  intro a t ha
  refine present_wrapper ?_
  simp only [ModuleDefinition.map, ModuleBody.map, List.mem_map] at ha
  obtain ⟨x, hx, ha⟩ := ha
  have hb : m0.moduleBody.assignmentList.map (Assignment.map Ref.known fun _ => ()) =
      n.moduleBody.assignmentList.map (Assignment.map Ref.known fun _ => ()) := by
    have := congrArg (fun q => q.moduleBody.assignmentList) hs
    simpa only [ModuleDefinition.map, ModuleBody.map] using this
  cases x with
  | type r s =>
    simp only [Assignment.map, Assignment.type.injEq] at ha
    obtain ⟨rfl, rfl⟩ := ha
    have hx' := List.mem_map_of_mem (f := Assignment.map Ref.known fun _ => ()) hx
    rw [hb] at hx'
    obtain ⟨y, hy, hyx⟩ := List.mem_map.1 hx'
    rw [present_map]
    cases y with
    | type r' s' =>
      simp only [Assignment.map, Assignment.type.injEq] at hyx
      rw [← present_map Ref.known (fun _ => ()) s, ← hyx.2, present_map]
      cases hn with
      | mk _ _ _ _ _ _ _ _ _ _ _ _ hbody =>
        cases hbody with
        | empty => cases hy
        | some _ _ _ _ l _ _ hl =>
          exact present_assignments hl _ _ hy
    | value r' s' v' => simp [Assignment.map] at hyx
    | nil => simp [Assignment.map] at hyx
  | value r s v => simp [Assignment.map] at ha
  | nil => simp [Assignment.map] at ha

/-- C87 for modules that come from a text. -/
theorem C87_parsed (u : Casing) (text : Str) (m : Module) (h : parseString u.toUnicode text = .ok m) (fuel : Nat) (p : GenParams) (tags : Int)
    (hm : m.tagDefault ≠ TAGS_AUTOMATIC) (ht : tags ≠ TAGS_AUTOMATIC) :
    generateFile u fuel p (bareModule m tags) = generateFile u fuel p m :=
  C87_bare u fuel p m tags hm ht (present_parsed h)

/-- `A ::= SEQUENCE { a [1] INTEGER (0..9), ..., b [2] EXPLICIT B OPTIONAL }`, `B ::= [APPLICATION 3] BIT STRING (SIZE (4))` with IMPLICIT TAGS -/
def shortModule : Module := moduleOf TAGS_IMPLICIT [
  .type (c! "A") (.sequence [comp (c! "a") (.constrained (tag CLASS_CONTEXT_SPECIFIC 1 (.integer [])) (.mk (.subtype [.unions [[.mk (.valueRange ⟨.number 0, false⟩ ⟨.number 9, false⟩) .nil]]])))]
    [.named (.mk (c! "b") (.tagged ⟨CLASS_CONTEXT_SPECIFIC, .number 2⟩ (.ref (c! "B")) TAGS_EXPLICIT true)) true none]),
  .type (c! "B") (tag CLASS_APPLICATION 3 (.constrained (.bitString []) (.mk (.subtype [.unions [[.mk (.size (.mk (.subtype [.unions [[.mk (.singleValue (.number 4)) .nil]]]))) .nil]]]))))]

/-- `A ::= SEQUENCE { a [1] IMPLICIT INTEGER, b [2] EXPLICIT B OPTIONAL }`, `B ::= [APPLICATION 3] IMPLICIT BIT STRING` -/
def longModule : Module := moduleOf TAGS_EXPLICIT [
  .type (c! "A") (.sequence [comp (c! "a") (.tagged ⟨CLASS_CONTEXT_SPECIFIC, .number 1⟩ (.integer []) TAGS_IMPLICIT true),
    .named (.mk (c! "b") (.tagged ⟨CLASS_CONTEXT_SPECIFIC, .number 2⟩ (.ref (c! "B")) TAGS_EXPLICIT true)) true none] []),
  .type (c! "B") (.tagged ⟨CLASS_APPLICATION, .number 3⟩ (.bitString []) TAGS_IMPLICIT true)]

/-- The hypotheses are met, and the file is not trivial. -/
example : bareModule shortModule TAGS_EXPLICIT = longModule ∧ (∀ n t, .type n t ∈ shortModule.moduleBody.assignmentList → removeWrapperTypes t ≠ .nil) ∧
    generateFile asciiCasing 6 int64Params longModule = some (.ok ⟨c! "My_Mod", [.imp (c! "encoding/asn1"),
      .type [⟨c! "A", false, .struct [.mk (c! "A") (.ident (c! "int64")) (some (c! "`asn1:\"tag:1\"`")),
        .mk (c! "B") (.ident (c! "asn1.BitString")) (some (c! "`asn1:\"optional,explicit,tag:2\"`"))]⟩],
      .type [⟨c! "B", true, .ident (c! "asn1.BitString")⟩]]⟩) := by
  refine ⟨rfl, ?_, rfl⟩
  intro n t h
  simp only [shortModule, moduleOf, List.mem_cons, List.not_mem_nil, or_false, Assignment.type.injEq] at h
  rcases h with ⟨_, rfl⟩ | ⟨_, rfl⟩ <;> simp [removeWrapperTypes, tag]

/-- The default tagging itself does matter. -/
theorem C87_needed : generateFile asciiCasing 6 int64Params shortModule ≠ generateFile asciiCasing 6 int64Params { shortModule with tagDefault := TAGS_EXPLICIT } := by
  intro h
  have h1 : generateFile asciiCasing 6 int64Params shortModule = some (.ok ⟨c! "My_Mod", [.imp (c! "encoding/asn1"),
      .type [⟨c! "A", false, .struct [.mk (c! "A") (.ident (c! "int64")) (some (c! "`asn1:\"tag:1\"`")),
        .mk (c! "B") (.ident (c! "asn1.BitString")) (some (c! "`asn1:\"optional,explicit,tag:2\"`"))]⟩],
      .type [⟨c! "B", true, .ident (c! "asn1.BitString")⟩]]⟩) := rfl
  have h2 : generateFile asciiCasing 6 int64Params { shortModule with tagDefault := TAGS_EXPLICIT } = some (.ok ⟨c! "My_Mod", [.imp (c! "encoding/asn1"),
      .type [⟨c! "A", false, .struct [.mk (c! "A") (.ident (c! "int64")) (some (c! "`asn1:\"explicit,tag:1\"`")),
        .mk (c! "B") (.ident (c! "asn1.BitString")) (some (c! "`asn1:\"optional,explicit,tag:2\"`"))]⟩],
      .type [⟨c! "B", true, .ident (c! "asn1.BitString")⟩]]⟩) := rfl
  rw [h1, h2] at h
  simp at h

end Asn1go.Props
