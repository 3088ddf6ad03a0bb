import Verif.Proofs.Codegen.File
import Verif.Proofs.Codegen.Names
import Verif.Spec.GoCheck
import Verif.Props.Parser

/-! Properties of the code generator (codegen.go): C30-C51.

`generateFile u fuel p m` is the file made by `Generate` before printing, `none` if `fuel` calls of `unwrapToLeafType` in a row
are not enough; `generate` adds what is written. -/

namespace Asn1go.Props

open Spec CG

/-! ### A sample module -/

/-- A module with the given tag default and assignments. -/
def moduleOf (tags : Int) (l : List MAssignment) : Module :=
  { moduleIdentifier := ⟨c! "my-Mod", []⟩, tagDefault := tags, moduleBody := { assignmentList := l } }

/-- Parameters with integers as int64. -/
def int64Params : GenParams := { integerRepr := c! "int64" }
/-- Parameters with integers as *big.Int. -/
def bigParams : GenParams := { integerRepr := c! "big.Int" }

/-- `[n] T`, with the tagging of the module. -/
def tag (cls n : Int) (t : MTy) : MTy := .tagged ⟨cls, .number n⟩ t 0 false

/-- A plain component. -/
def comp (n : Str) (t : MTy) : MComponent := .named (.mk n t) false none

/-- The components of a record. -/
def demoComponents : List MComponent :=
  [.named (.mk (c! "id-no") (tag CLASS_CONTEXT_SPECIFIC 0 (.integer []))) true none,
   .named (.mk (c! "name") (tag CLASS_APPLICATION 3 (.restrictedString Tok.IA5String))) false none,
   .named (.mk (c! "size") (.integer [])) false (some (.number 7))]

/-- A module with types of many kinds. -/
def demo : Module := moduleOf TAGS_EXPLICIT [
  .type (c! "Version") (.integer [⟨c! "v1", .number 0⟩, ⟨c! "v2", .number 1⟩]),
  .type (c! "Rec") (.sequence demoComponents [comp (c! "when") (.ref (c! "Time"))]),
  .type (c! "Names") (.setOf .octetString),
  .type (c! "Time") (tag CLASS_CONTEXT_SPECIFIC 5 (.ref (c! "GeneralizedTime"))),
  .value (c! "three") (.ref (c! "Version")) (.number 3)]

/-- The file for it. -/
def demoFile : GoFile := ⟨c! "My_Mod", [
  .imp (c! "time"),
  .type [⟨c! "Version", true, .ident (c! "int64")⟩],
  .var [⟨c! "VersionValV1", .ident (c! "Version"), .lit (c! "0")⟩, ⟨c! "VersionValV2", .ident (c! "Version"), .lit (c! "1")⟩],
  .type [⟨c! "Rec", false, .struct [
    .mk (c! "Id_no") (.ident (c! "int64")) (some (c! "`asn1:\"optional,explicit,tag:0\"`")),
    .mk (c! "Name") (.ident (c! "string")) (some (c! "`asn1:\"application,explicit,tag:3,ia5\"`")),
    .mk (c! "Size") (.ident (c! "int64")) (some (c! "`asn1:\"default:7,optional\"`")),
    .mk (c! "When") (.ident (c! "time.Time")) (some (c! "`asn1:\"generalized\"`"))]⟩],
  .type [⟨c! "NamesSET", false, .array (.array (.ident (c! "byte")))⟩, ⟨c! "Names", true, .ident (c! "NamesSET")⟩],
  .type [⟨c! "Time", true, .ident (c! "time.Time")⟩],
  .var [⟨c! "ValThree", .ident (c! "Version"), .lit (c! "3")⟩]]⟩

theorem demo_file : generateFile asciiCasing 6 int64Params demo = some (.ok demoFile) := rfl

/-- A file was made. -/
def isOk : Option (Except GenError GoFile) → Bool
  | some (.ok _) => true
  | _ => false

/-- The errors found. -/
def errors? : Option (Except GenError GoFile) → List GenErr
  | some (.error (.translation l)) => l
  | _ => []

theorem ok_of_isOk {x : Option (Except GenError GoFile)} (h : isOk x = true) : ∃ f, x = some (.ok f) := by
  match x, h with
  | some (.ok f), _ => exact ⟨f, rfl⟩

/-! ### C30: AUTOMATIC tagging is rejected -/

/-- `Generate` on a module with AUTOMATIC TAGS writes nothing and returns an error, at once. -/
theorem C30_automatic (u : Casing) (print : Printer) (fuel : Nat) (p : GenParams) (m : Module) (h : m.tagDefault = TAGS_AUTOMATIC) :
    generate u print fuel p m = some ⟨[], some .automatic⟩ := by
  unfold generate generateFile
  rw [if_pos h]

/-- Only for these modules is this the error. -/
theorem C30_only_automatic (u : Casing) (print : Printer) (fuel : Nat) (p : GenParams) (m : Module) (w : Str)
    (h : generate u print fuel p m = some ⟨w, some .automatic⟩) : m.tagDefault = TAGS_AUTOMATIC := by
  unfold generate generateFile at h
  split at h
  · simp at h
  · rename_i e he
    split at he
    · assumption
    · simp only at he
      split at he
      · simp at he
      · split at he
        · simp only [Option.some.injEq, Except.error.injEq] at he
          subst he
          simp at h
        · simp at he
  · simp only [Option.some.injEq, GenOutcome.mk.injEq] at h
    obtain ⟨_, h⟩ := h
    split at h <;> simp at h

example : (moduleOf TAGS_AUTOMATIC demo.moduleBody.assignmentList).tagDefault = TAGS_AUTOMATIC := rfl

/-! ### C31: all or nothing -/

/-- If `Generate` returns an error other than one from printing, nothing has been written. -/
theorem C31_all_or_nothing (u : Casing) (print : Printer) (fuel : Nat) (p : GenParams) (m : Module) (w : Str) (e : GenError)
    (h : generate u print fuel p m = some ⟨w, some e⟩) (he : e ≠ .print) : w = [] := by
  unfold generate at h
  split at h
  · simp at h
  · simp only [Option.some.injEq, GenOutcome.mk.injEq] at h
    exact h.1.symm
  · simp only [Option.some.injEq, GenOutcome.mk.injEq] at h
    obtain ⟨_, h⟩ := h
    split at h
    · simp only [Option.some.injEq] at h
      exact absurd h.symm he
    · simp at h

/-- A translation error reports at least one problem, and without error the whole file has been printed. -/
theorem C31_outcome (u : Casing) (print : Printer) (fuel : Nat) (p : GenParams) (m : Module) (o : GenOutcome)
    (h : generate u print fuel p m = some o) :
    (∀ l, o.error = some (.translation l) → l ≠ []) ∧
    (o.error = none → ∃ f, generateFile u fuel p m = some (.ok f) ∧ print f = (o.written, false)) := by
  unfold generate at h
  split at h
  · simp at h
  · rename_i e he
    simp only [Option.some.injEq] at h
    subst h
    refine ⟨fun l hl => ?_, fun hn => by simp at hn⟩
    simp only [Option.some.injEq] at hl
    subst hl
    unfold generateFile at he
    split at he
    · simp at he
    · simp only at he
      split at he
      · simp at he
      · split at he
        · rename_i hne
          simp only [Option.some.injEq, Except.error.injEq, GenError.translation.injEq] at he
          rw [← he]
          exact hne
        · simp at he
  · rename_i f hf
    simp only [Option.some.injEq] at h
    subst h
    refine ⟨fun l hl => ?_, fun hn => ⟨f, hf, ?_⟩⟩
    · simp only at hl
      split at hl <;> simp at hl
    · simp only at hn ⊢
      split at hn
      · simp at hn
      · rename_i hp
        simp only [Bool.not_eq_true] at hp
        rw [← hp]

example : generate asciiCasing (fun _ => (c! "x", false)) 9 int64Params (moduleOf 0 [.type (c! "A") .null]) =
    some ⟨[], some (.translation [.unsupported])⟩ := rfl

/-! ### C32: termination -/

/-- `Generate` returns for every module. -/
def C32_statement : Prop := ∀ (u : Casing) (p : GenParams) (m : Module), ∃ fuel r, generateFile u fuel p m = some r

/-- `A ::= B`, `B ::= A`. -/
def cyclic : Module := moduleOf TAGS_EXPLICIT [.type (c! "A") (.ref (c! "B")), .type (c! "B") (.ref (c! "A"))]

theorem cyclic_none (u : Casing) (p : GenParams) (fuel : Nat) : generateFile u fuel p cyclic = none := by
  have key := unwrap_cycle (l := cyclic.moduleBody.assignmentList) (fun x => x = c! "A" ∨ x = c! "B") (fun x hx => by
    rcases hx with rfl | rfl
    · exact ⟨c! "B", ⟨.ref (c! "B"), rfl, .done _ (by simp) (by simp)⟩, .inr rfl⟩
    · exact ⟨c! "A", ⟨.ref (c! "A"), rfl, .done _ (by simp) (by simp)⟩, .inl rfl⟩) fuel (c! "B") (.inr rfl)
  have hr : resolveTypeReference (ctxOf u fuel p cyclic) (c! "B") = none := by
    unfold resolveTypeReference
    rw [key]
  have hd : generateDeclarations (ctxOf u fuel p cyclic) cyclic.moduleBody.assignmentList = none := by
    show generateDeclarations _ [_, _] = none
    rw [generateDeclarations]
    refine bind_none.2 (.inl ?_)
    unfold generateTypeDecl
    refine bind_none.2 (.inl ?_)
    rw [generateTypeBody]
    exact bind_none.2 (.inl hr)
  unfold generateFile
  rw [if_neg (by decide)]
  simp only
  rw [hd]

/-- It does not: two types that are aliases of each other make it recurse without end. -/
theorem C32_false : ¬ C32_statement := fun h => by
  obtain ⟨fuel, r, h⟩ := h asciiCasing int64Params cyclic
  rw [cyclic_none] at h
  cases h

/-- It returns for every module in which no type is an alias of itself; chains of aliases are followed for no more steps than there
are assignments. -/
theorem C32_terminates_partial (u : Casing) (p : GenParams) (m : Module) (hac : Acyclic m.moduleBody.assignmentList) (fuel : Nat)
    (hf : m.moduleBody.assignmentList.length < fuel) : ∃ r, generateFile u fuel p m = some r := generateFile_total hac hf

/-- C32, exactly: `Generate` returns if and only if it refuses AUTOMATIC TAGS at once or no type is an alias of itself. -/
theorem C32_exact_partial (u : Casing) (p : GenParams) (m : Module) :
    (∃ fuel r, generateFile u fuel p m = some r) ↔ m.tagDefault = TAGS_AUTOMATIC ∨ Acyclic m.moduleBody.assignmentList := by
  constructor
  · rintro ⟨fuel, r, h⟩
    by_contra hn
    rw [not_or] at hn
    rw [generateFile_cycle hn.1 hn.2] at h
    cases h
  · rintro (h | h)
    · exact ⟨0, .error .automatic, by unfold generateFile; rw [if_pos h]⟩
    · exact ⟨_, C32_terminates_partial u p m h _ (Nat.lt_succ_self _)⟩

example : Acyclic demo.moduleBody.assignmentList :=
  supported_acyclic (file_supported.1 ⟨6, demoFile, demo_file⟩).2

/-! ### C33: success exactly on supported modules -/

/-- `Generate` makes a file exactly if the tagging is not AUTOMATIC and all assignments can be translated. -/
theorem C33_supported (u : Casing) (p : GenParams) (m : Module) : (∃ fuel f, generateFile u fuel p m = some (.ok f)) ↔
    m.tagDefault ≠ TAGS_AUTOMATIC ∧
    ∀ a ∈ m.moduleBody.assignmentList, SupportedAssignment m.moduleBody.assignmentList m.tagDefault p.integerRepr a := file_supported

example : (∃ fuel f, generateFile asciiCasing fuel int64Params demo = some (.ok f)) ∧
    ¬ ∃ fuel f, generateFile asciiCasing fuel int64Params (moduleOf 0 [.type (c! "A") (.sequence [.componentsOf .null] [])]) = some (.ok f) := by
  refine ⟨⟨6, demoFile, demo_file⟩, fun h => ?_⟩
  have := ((C33_supported _ _ _).1 h).2 _ (List.mem_singleton.2 rfl)
  simp [SupportedAssignment, Supported, SupportedList] at this

/-! ### C34: one declaration per assignment, in order -/

/-- The file consists of its imports and, for each assignment in order, the declaration of the type and of its named numbers,
or the variable for the literal value.  Types are translated as in `GoTypeOf`. -/
theorem C34_declarations (u : Casing) (fuel : Nat) (p : GenParams) (m : Module) (f : GoFile) (h : generateFile u fuel p m = some (.ok f)) :
    ∃ ds, f.decls = (importsOf f.decls).map GoDecl.imp ++ ds ∧
      DeclsFor u m.moduleBody.assignmentList m.tagDefault p.integerRepr m.moduleBody.assignmentList ds := by
  obtain ⟨ha, decls, log, hd, he, hp, hf⟩ := file_ok h
  have hds := decls_shape hd he
  refine ⟨decls, ?_, hds⟩
  have : importsOf f.decls = requiredFrom [] log := by
    rw [hf, imports_append, decls_imports hds, List.append_nil]
  rw [this, hf]

example : declared demoFile.decls = [c! "Version", c! "VersionValV1", c! "VersionValV2", c! "Rec", c! "NamesSET", c! "Names", c! "Time",
    c! "ValThree"] := by decide

/-- All declarations come from `C34_declarations`. -/
theorem file_decls {u : Casing} {fuel : Nat} {p : GenParams} {m : Module} {f : GoFile} (h : generateFile u fuel p m = some (.ok f)) :
    ∃ ds, ds ⊆ f.decls ∧ DeclsFor u m.moduleBody.assignmentList m.tagDefault p.integerRepr m.moduleBody.assignmentList ds := by
  obtain ⟨ds, h1, h2⟩ := C34_declarations u fuel p m f h
  exact ⟨ds, fun x hx => by rw [h1]; simp [hx], h2⟩

/-! ### C35: struct fields mirror components -/

/-- A field that belongs to a component. -/
structure FieldFor (u : Casing) (m : Module) (p : GenParams) (x : Member) (g : GoField) : Prop where
  field : ∃ e tag, g = .mk (goifyName u x.name) e tag ∧ GoTypeOf u m.moduleBody.assignmentList m.tagDefault p.integerRepr x.type e ∧
    FieldTag m.moduleBody.assignmentList m.tagDefault x tag

theorem fieldsOf_forall {u : Casing} {m : Module} {p : GenParams} : ∀ {xs : List Member} {fs : List GoField},
    FieldsOf u m.moduleBody.assignmentList m.tagDefault p.integerRepr xs fs → List.Forall₂ (FieldFor u m p) xs fs
  | _, _, .nil => .nil
  | _, _, .cons _ _ e tag _ h1 h2 h3 => .cons ⟨e, tag, rfl, h1, h2⟩ (fieldsOf_forall h3)

/-- Every SEQUENCE or SET that is translated, at whatever depth of a type assignment, becomes a struct with one field per
component, root components first, in order, with the name of the component, the translation of its type and a tag that tells
what the component says. -/
theorem C35_fields (u : Casing) (fuel : Nat) (p : GenParams) (m : Module) (f : GoFile) (h : generateFile u fuel p m = some (.ok f))
    (n : Str) (t : MTy) (hm : .type n t ∈ m.moduleBody.assignmentList) (a b : List MComponent)
    (hi : Inside m.moduleBody.assignmentList t (.sequence a b) ∨ Inside m.moduleBody.assignmentList t (.set a b)) :
    ∃ specs s fs, .type specs ∈ f.decls ∧ s ∈ specs ∧ Within s.type (.struct fs) ∧ List.Forall₂ (FieldFor u m p) (members (a ++ b)) fs := by
  obtain ⟨ds, hsub, hds⟩ := file_decls h
  obtain ⟨x, v, hx, -, hty, -⟩ := decls_type hds hm
  have key : ∀ e, GoTypeOf u m.moduleBody.assignmentList m.tagDefault p.integerRepr t e →
      ∃ fs, Within e (.struct fs) ∧ List.Forall₂ (FieldFor u m p) (members (a ++ b)) fs := by
    intro e he
    rcases hi with hi | hi
    · obtain ⟨y, hy, hyt⟩ := inside_within hi he
      cases hyt with
      | sequence _ _ fs hf => exact ⟨fs, hy, fieldsOf_forall hf⟩
    · obtain ⟨y, hy, hyt⟩ := inside_within hi he
      cases hyt with
      | set _ _ fs hf => exact ⟨fs, hy, fieldsOf_forall hf⟩
  cases hty with
  | struct fs _ he =>
    obtain ⟨gs, h1, h2⟩ := key _ he
    exact ⟨_, _, gs, hsub hx, List.mem_singleton.2 rfl, h1, h2⟩
  | «alias» e _ he _ =>
    obtain ⟨gs, h1, h2⟩ := key _ he
    exact ⟨_, _, gs, hsub hx, List.mem_singleton.2 rfl, h1, h2⟩
  | set e _ he =>
    obtain ⟨gs, h1, h2⟩ := key _ he
    exact ⟨_, _, gs, hsub hx, List.mem_cons_self .., h1, h2⟩

/-- For a type assignment that is a SEQUENCE, the struct is the declared type itself. -/
theorem C35_sequence (u : Casing) (fuel : Nat) (p : GenParams) (m : Module) (f : GoFile) (h : generateFile u fuel p m = some (.ok f))
    (n : Str) (a b : List MComponent) (hm : .type n (.sequence a b) ∈ m.moduleBody.assignmentList) :
    ∃ fs, .type [⟨goifyName u n, false, .struct fs⟩] ∈ f.decls ∧ List.Forall₂ (FieldFor u m p) (members (a ++ b)) fs := by
  obtain ⟨ds, hsub, hds⟩ := file_decls h
  obtain ⟨x, v, hx, -, hty, -⟩ := decls_type hds hm
  cases hty with
  | struct fs _ he =>
    cases he with
    | sequence _ _ _ hf => exact ⟨fs, hsub hx, fieldsOf_forall hf⟩
  | «alias» e _ he hn =>
    cases he with
    | sequence _ _ fs hf => exact absurd rfl (hn fs)
  | set e hmk he => cases hmk

example : ∃ fs, .type [⟨c! "Rec", false, .struct fs⟩] ∈ demoFile.decls ∧
    List.Forall₂ (FieldFor asciiCasing demo int64Params) (members (demoComponents ++ [comp (c! "when") (.ref (c! "Time"))])) fs :=
  C35_sequence asciiCasing 6 int64Params demo demoFile demo_file (c! "Rec") _ _ (by simp [demo, moduleOf])

/-! ### C36: field tags mean what the ASN.1 says -/

/-- The class written in a tag: context-specific if none is. -/
def classOf (p : FieldParams) : Int := if p.isPrivate then CLASS_PRIVATE else if p.application then CLASS_APPLICATION else CLASS_CONTEXT_SPECIFIC

/-- Class, number and kind of tagging of the outermost tag, and kind of string after following references, are what the parameters
say. -/
structure Faithful (l : List MAssignment) (deflt : Int) (t : MTy) (p : FieldParams) : Prop where
  tag : ∀ cls n k, (tagsAround deflt t).head? = some (cls, .number n, k) → p.tag = some n ∧ classOf p = cls ∧ (p.explicit = true ↔ k = TAGS_EXPLICIT)
  ia5 : ∀ a r t', Core t (.ref a) → Resolves l a r t' → Core t' (.restrictedString Tok.IA5String) → p.stringType = 22

/-- The tags of all fields that are generated are faithful. -/
def C36_statement : Prop := ∀ (u : Casing) (fuel : Nat) (p : GenParams) (m : Module) (f : GoFile) (n : Str) (x : Member) (e : GoExpr) (tag : Option Str),
  generateFile u fuel p m = some (.ok f) →
  .type n (.sequence [.named (.mk x.name x.type) x.optional x.default] []) ∈ m.moduleBody.assignmentList →
  .type [⟨goifyName u n, false, .struct [.mk (goifyName u x.name) e tag]⟩] ∈ f.decls →
  Faithful m.moduleBody.assignmentList m.tagDefault x.type (fieldParams tag)

/-- A module with one SEQUENCE that has one component. -/
def oneField (t : MTy) (rest : List MAssignment) : Module :=
  moduleOf TAGS_IMPLICIT (.type (c! "A") (.sequence [comp (c! "x") t] []) :: rest)

/-- `x [UNIVERSAL 5] INTEGER` is generated with tag 5 of the context-specific class. -/
theorem C36_universal_false : ¬ C36_statement := fun h => by
  have := (h asciiCasing 5 int64Params (oneField (tag CLASS_UNIVERSAL 5 (.integer [])) []) _ (c! "A")
    ⟨c! "x", tag CLASS_UNIVERSAL 5 (.integer []), false, none⟩ _ _ rfl (List.mem_cons_self ..) (List.mem_cons_self ..)).tag
    CLASS_UNIVERSAL 5 TAGS_IMPLICIT rfl
  exact absurd this.2.1 (by decide +kernel)

/-- `x [1] [2] INTEGER` is generated with the inner tag 2. -/
theorem C36_nested_false : ¬ C36_statement := fun h => by
  have := (h asciiCasing 5 int64Params (oneField (tag CLASS_CONTEXT_SPECIFIC 1 (tag CLASS_CONTEXT_SPECIFIC 2 (.integer []))) []) _ (c! "A")
    ⟨c! "x", tag CLASS_CONTEXT_SPECIFIC 1 (tag CLASS_CONTEXT_SPECIFIC 2 (.integer [])), false, none⟩ _ _ rfl (List.mem_cons_self ..)
    (List.mem_cons_self ..)).tag CLASS_CONTEXT_SPECIFIC 1 TAGS_IMPLICIT rfl
  exact absurd this.1 (by decide +kernel)

/-- `x S` with `S ::= IA5String` is not marked as IA5String. -/
theorem C36_alias_false : ¬ C36_statement := fun h => by
  have := (h asciiCasing 5 int64Params (oneField (.ref (c! "S")) [.type (c! "S") (.restrictedString Tok.IA5String)]) _ (c! "A")
    ⟨c! "x", .ref (c! "S"), false, none⟩ _ _ rfl (List.mem_cons_self ..) (List.mem_cons_self ..)).ia5
    (c! "S") (c! "S") (.restrictedString Tok.IA5String) (.done _ (by simp) (by simp))
    (.assigned _ _ _ (.assigned _ _ _ rfl (.done _ (by simp) (by simp)) (by simp)) (by simp)) (.done _ (by simp) (by simp))
  exact absurd this (by decide +kernel)

/-- What the tag of a field tells, for every component whose numbers fit an `int`: optional and default; the number of the innermost
tag; whether some tag is EXPLICIT, APPLICATION or PRIVATE; the kind of string, time or set under tags and constraints. -/
theorem C36_meaning_partial (u : Casing) (fuel : Nat) (p : GenParams) (m : Module) (f : GoFile) (h : generateFile u fuel p m = some (.ok f))
    (n : Str) (a b : List MComponent) (hm : .type n (.sequence a b) ∈ m.moduleBody.assignmentList)
    (hn : ∀ x ∈ members (a ++ b), (∀ cls n k, (cls, .number n, k) ∈ tagsAround m.tagDefault x.type → GoInt n) ∧
      ∀ n, x.default = some (.number n) → GoInt n) :
    ∃ fs, .type [⟨goifyName u n, false, .struct fs⟩] ∈ f.decls ∧
      List.Forall₂ (fun x g => ∃ e tag, g = GoField.mk (goifyName u x.name) e tag ∧
        TagMeaning m.moduleBody.assignmentList m.tagDefault x.type x.optional x.default (fieldParams tag)) (members (a ++ b)) fs := by
  obtain ⟨fs, h1, h2⟩ := C35_sequence u fuel p m f h n a b hm
  refine ⟨fs, h1, ?_⟩
  generalize members (a ++ b) = xs at h2 hn
  clear h1
  induction h2 with
  | nil => exact .nil
  | cons hd _ ih =>
    refine .cons ?_ (ih fun x hx => hn x (by simp [hx]))
    obtain ⟨e, tag, hg, _, ht⟩ := hd.field
    have := hn _ (List.mem_cons_self ..)
    exact ⟨e, tag, hg, ht.meaning this.1 this.2⟩

/-- With a single tag of a class other than UNIVERSAL, number, class and kind of tagging are the ones written. -/
theorem C36_single_tag_partial (l : List MAssignment) (deflt : Int) (t : MTy) (o : Bool) (d : Option (Value DefinedValue)) (p : FieldParams)
    (h : TagMeaning l deflt t o d p) (cls n k : Int) (ht : tagsAround deflt t = [(cls, .number n, k)])
    (hc : cls ∈ [CLASS_APPLICATION, CLASS_PRIVATE, CLASS_CONTEXT_SPECIFIC]) :
    p.tag = some n ∧ classOf p = cls ∧ (p.explicit = true ↔ k = TAGS_EXPLICIT) := by
  refine ⟨(h.tag n).2 ⟨cls, k, by rw [ht]; rfl⟩, ?_, ?_⟩
  · have ha : p.application = true ↔ cls = CLASS_APPLICATION := by rw [h.application, ht]; simp
    have hp : p.isPrivate = true ↔ cls = CLASS_PRIVATE := by rw [h.isPrivate, ht]; simp
    unfold classOf
    simp only [List.mem_cons, List.not_mem_nil, or_false] at hc
    rcases hc with rfl | rfl | rfl
    · have : p.isPrivate = false := by
        cases hpp : p.isPrivate with
        | false => rfl
        | true => exact absurd (hp.1 hpp) (by decide)
      rw [this, ha.2 rfl]
      rfl
    · rw [hp.2 rfl]
      rfl
    · have h1 : p.isPrivate = false := by
        cases hpp : p.isPrivate with
        | false => rfl
        | true => exact absurd (hp.1 hpp) (by decide)
      have h2 : p.application = false := by
        cases hpp : p.application with
        | false => rfl
        | true => exact absurd (ha.1 hpp) (by decide)
      rw [h1, h2]
      rfl
  · rw [h.explicit, ht]
    simp

example : tagsAround TAGS_EXPLICIT (tag CLASS_APPLICATION 3 (.restrictedString Tok.IA5String)) = [(CLASS_APPLICATION, .number 3, TAGS_EXPLICIT)] ∧
    fieldParams (some (c! "`asn1:\"application,explicit,tag:3,ia5\"`")) =
      { application := true, explicit := true, tag := some 3, stringType := 22 } := ⟨rfl, by decide +kernel⟩

/-! ### C37: optional marking -/

/-- A generated field is marked optional exactly if its component is OPTIONAL or has a DEFAULT, and then exactly once; it has the default
`n` exactly if the default is the number `n`. -/
theorem C37_optional (u : Casing) (fuel : Nat) (p : GenParams) (m : Module) (f : GoFile) (h : generateFile u fuel p m = some (.ok f))
    (n : Str) (a b : List MComponent) (hm : .type n (.sequence a b) ∈ m.moduleBody.assignmentList)
    (hn : ∀ x ∈ members (a ++ b), (∀ cls n k, (cls, .number n, k) ∈ tagsAround m.tagDefault x.type → GoInt n) ∧
      ∀ n, x.default = some (.number n) → GoInt n) :
    ∃ fs, .type [⟨goifyName u n, false, .struct fs⟩] ∈ f.decls ∧
      List.Forall₂ (fun x g => ∃ e tag, g = GoField.mk (goifyName u x.name) e tag ∧
        ((fieldParams tag).optional = true ↔ x.optional = true ∨ x.default ≠ none) ∧
        (tagParts tag).count (c! "optional") = (if x.optional = true ∨ x.default ≠ none then 1 else 0) ∧
        ∀ k, (fieldParams tag).dflt = some k ↔ x.default = some (.number k)) (members (a ++ b)) fs := by
  obtain ⟨fs, h1, h2⟩ := C35_sequence u fuel p m f h n a b hm
  refine ⟨fs, h1, ?_⟩
  generalize members (a ++ b) = xs at h2 hn
  clear h1
  induction h2 with
  | nil => exact .nil
  | cons hd _ ih =>
    refine .cons ?_ (ih fun x hx => hn x (by simp [hx]))
    obtain ⟨e, tag, hg, _, ht⟩ := hd.field
    have := hn _ (List.mem_cons_self ..)
    have hmn := ht.meaning this.1 this.2
    refine ⟨e, tag, hg, hmn.optional, ?_, hmn.dflt⟩
    split
    · rename_i hy; exact ht.optional hy
    · rename_i hno; exact List.count_eq_zero.2 (ht.required hno)

example : tagParts (some (c! "`asn1:\"default:7,optional\"`")) = [c! "default:7", c! "optional"] ∧
    (fieldParams (some (c! "`asn1:\"default:7,optional\"`"))).dflt = some 7 := ⟨by decide, by decide +kernel⟩

/-! ### C38: all used packages are imported -/

/-- Every package used in the file is imported by it. -/
def C38_statement : Prop := ∀ (u : Casing) (fuel : Nat) (p : GenParams) (m : Module) (f : GoFile), generateFile u fuel p m = some (.ok f) →
  ∀ x q, FileIdent f x → qualifier x = some q → ∃ path, FileImports f path ∧ packageOf path = q

/-- A CHOICE with a tagged alternative. -/
def rawModule : Module :=
  moduleOf 0 [.type (c! "A") (.choice [.mk (c! "a") (tag CLASS_CONTEXT_SPECIFIC 0 .boolean), .mk (c! "b") .boolean] [])]
/-- The file for it. -/
def rawFile : GoFile := ⟨c! "My_Mod", [.type [⟨c! "A", true, .ident (c! "asn1.RawValue")⟩]]⟩

/-- It uses `asn1.RawValue` without an import of encoding/asn1. -/
theorem C38_raw_false : ¬ C38_statement := fun h => by
  obtain ⟨path, hp, _⟩ := h asciiCasing 5 int64Params rawModule rawFile rfl
    (c! "asn1.RawValue") (c! "asn1") ⟨_, List.mem_singleton.2 rfl, by decide⟩ (by decide)
  have := imports_mem.1 hp
  simp [importsOf, rawFile] at this

/-- A number of type REAL. -/
def bigModule : Module := moduleOf 0 [.value (c! "a") .real (.number 3)]
/-- The file for it, with integers as big.Int. -/
def bigFile : GoFile := ⟨c! "My_Mod", [.var [⟨c! "ValA", .ident (c! "float64"), .call (c! "big.NewInt") (.lit (c! "3"))⟩]]⟩

/-- It uses `big.NewInt` without an import of math/big. -/
theorem C38_big_false : ¬ C38_statement := fun h => by
  obtain ⟨path, hp, _⟩ := h asciiCasing 5 bigParams bigModule bigFile rfl
    (c! "big.NewInt") (c! "big") ⟨_, List.mem_singleton.2 rfl, by decide⟩ (by decide)
  have := imports_mem.1 hp
  simp [importsOf, bigFile] at this

/-- Every package used is imported, apart from `asn1.RawValue` and, with integers as big.Int, `big.NewInt`. -/
theorem C38_imported_partial (u : Casing) (fuel : Nat) (p : GenParams) (m : Module) (f : GoFile) (h : generateFile u fuel p m = some (.ok f))
    (hd : Undotted m.moduleBody.assignmentList) (x q : Str) (hx : FileIdent f x) (hq : qualifier x = some q) :
    (∃ path, FileImports f path ∧ packageOf path = q) ∨ x = c! "asn1.RawValue" ∨ (x = c! "big.NewInt" ∧ p.integerRepr = c! "big.Int") := by
  obtain ⟨ha, decls, log, hdec, he, hp, hf⟩ := file_ok h
  have hu := decls_uses hdec hd
  obtain ⟨d, hd1, hd2⟩ := hx
  rw [hf] at hd1
  rcases List.mem_append.1 hd1 with hd1 | hd1
  · obtain ⟨path, _, rfl⟩ := List.mem_map.1 hd1
    simp [declIdents] at hd2
  · rcases hu.used x (List.mem_flatMap.2 ⟨d, hd1, hd2⟩) q hq with ⟨path, hm, hpq⟩ | hex
    · refine .inl ⟨path, ?_, hpq⟩
      show GoDecl.imp path ∈ f.decls
      rw [hf]
      exact List.mem_append_left _ (List.mem_map.2 ⟨path, (requiredFrom_mem log [] path).2 (.inr hm), rfl⟩)
    · rcases hex with hex | hex
      · exact .inr (.inl hex)
      · exact .inr (.inr hex)

/-- C38, exactly: a package is imported if and only if something of it other than `asn1.RawValue` and `big.NewInt` is used. -/
theorem C38_exact_partial (u : Casing) (fuel : Nat) (p : GenParams) (m : Module) (f : GoFile) (h : generateFile u fuel p m = some (.ok f))
    (hd : Undotted m.moduleBody.assignmentList) (q : Str) :
    (∃ path, FileImports f path ∧ packageOf path = q) ↔
      ∃ x, FileIdent f x ∧ qualifier x = some q ∧ x ≠ c! "asn1.RawValue" ∧ x ≠ c! "big.NewInt" := by
  constructor
  · rintro ⟨path, hpath, rfl⟩
    obtain ⟨ha, decls, log, hdec, he, hp, hf⟩ := file_ok h
    have hu := decls_uses hdec hd
    have hi : importsOf f.decls = requiredFrom [] log := by
      rw [hf, imports_append, decls_imports (decls_shape hdec he), List.append_nil]
    have hpath := imports_mem.1 hpath
    rw [hi] at hpath
    obtain ⟨hk, x, hx, hq, hn⟩ := hu.asked path (by simpa using (requiredFrom_mem log [] path).1 hpath)
    obtain ⟨d, hd1, hd2⟩ := List.mem_flatMap.1 hx
    exact ⟨x, ⟨d, by rw [hf]; exact List.mem_append_right _ hd1, hd2⟩, hq, hn⟩
  · rintro ⟨x, hx, hq, h1, h2⟩
    rcases C38_imported_partial u fuel p m f h hd x q hx hq with h3 | h3 | h3
    · exact h3
    · exact absurd h3 h1
    · exact absurd h3.1 h2

example : Undotted demo.moduleBody.assignmentList ∧ FileIdent demoFile (c! "time.Time") := by
  refine ⟨?_, ⟨.type [⟨c! "Time", true, .ident (c! "time.Time")⟩], by simp [demoFile], by simp [declIdents, exprIdents]⟩⟩
  unfold Undotted
  decide

/-! ### C39: imports are unique and used -/

/-- No package is imported twice, only packages out of encoding/asn1, math/big and time are, and each of them is used. -/
theorem C39_imports (u : Casing) (fuel : Nat) (p : GenParams) (m : Module) (f : GoFile) (h : generateFile u fuel p m = some (.ok f)) :
    (importsOf f.decls).Nodup ∧ (Undotted m.moduleBody.assignmentList → ∀ path ∈ importsOf f.decls,
      path ∈ [c! "encoding/asn1", c! "math/big", c! "time"] ∧ ∃ x, FileIdent f x ∧ qualifier x = some (packageOf path)) := by
  obtain ⟨ha, decls, log, hdec, he, hp, hf⟩ := file_ok h
  have hi : importsOf f.decls = requiredFrom [] log := by
    rw [hf, imports_append, decls_imports (decls_shape hdec he), List.append_nil]
  rw [hi]
  refine ⟨requiredFrom_nodup log [] .nil, fun hd path hpath => ?_⟩
  have hu := decls_uses hdec hd
  obtain ⟨hk, x, hx, hq, _⟩ := hu.asked path (by simpa using (requiredFrom_mem log [] path).1 hpath)
  refine ⟨hk, x, ?_, hq⟩
  obtain ⟨d, hd1, hd2⟩ := List.mem_flatMap.1 hx
  exact ⟨d, by rw [hf]; exact List.mem_append_right _ hd1, hd2⟩

example : importsOf demoFile.decls = [c! "time"] := rfl

/-! ### C40: different names stay different -/

/-- An ASCII name. -/
def Ascii (s : Str) : Prop := ∀ c ∈ s, c.toNat < 128

/-- Two different ASCII names that both start with a capital, or both with a small letter, have different Go names. -/
theorem C40_distinct (u : Casing) (a b : Str) (ha : Word u.toUnicode a) (hb : Word u.toUnicode b) (hsa : Ascii a) (hsb : Ascii b)
    (hcase : (a.head?.map u.isUpper) = b.head?.map u.isUpper) (h : goifyName u a = goifyName u b) : a = b := by
  obtain ⟨c, cs, rfl, hc⟩ := ha.letter
  obtain ⟨d, ds, rfl, hd⟩ := hb.letter
  rw [goify_word ha, goify_word hb] at h
  simp only [List.cons.injEq] at h
  have hca := hsa c (by simp)
  have hda := hsb d (by simp)
  have htail := map_under_inj (fun x hx => under_word (ha.chars x (by simp [hx]))) (fun x hx => under_word (hb.chars x (by simp [hx]))) h.2
  simp only [List.head?_cons, Option.map_some, Option.some.injEq] at hcase
  have hhead : c = d := by
    cases hu : u.isUpper c with
    | true =>
      have h1 := h.1
      rw [toTitle_upper hca hu, toTitle_upper hda (by rw [← hcase]; exact hu)] at h1
      exact h1
    | false =>
      obtain ⟨h1, h2, h3⟩ := toTitle_lower hca hc hu
      obtain ⟨h4, h5, h6⟩ := toTitle_lower hda hd (by rw [← hcase]; exact hu)
      apply char_ext
      have := congrArg Char.toNat h.1
      rw [h3, h6] at this
      omega
  rw [hhead, htail]

/-- Without the condition on the first letter this does not hold. -/
theorem C40_case_needed : goifyName asciiCasing (c! "foo") = goifyName asciiCasing (c! "Foo") := rfl

example : goifyName asciiCasing (c! "my-Type2") = c! "My_Type2" := rfl

/-! ### C41: generated names are exported identifiers -/

/-- An exported Go identifier of ASCII characters: a capital followed by letters, digits and underscores.  Go keywords have no capitals. -/
def ExportedIdent (s : Str) : Prop :=
  ∃ c cs, s = c :: cs ∧ 65 ≤ c.toNat ∧ c.toNat ≤ 90 ∧
    ∀ x ∈ cs, (48 ≤ x.toNat ∧ x.toNat ≤ 57) ∨ (65 ≤ x.toNat ∧ x.toNat ≤ 90) ∨ (97 ≤ x.toNat ∧ x.toNat ≤ 122) ∨ x = '_'

/-- The Go name of every ASCII name is an exported identifier. -/
theorem C41_exported (u : Casing) (a : Str) (ha : Word u.toUnicode a) (hs : Ascii a) : ExportedIdent (goifyName u a) := by
  obtain ⟨c, cs, rfl, hc⟩ := ha.letter
  rw [goify_word ha]
  have hca := hs c (by simp)
  refine ⟨_, _, rfl, ?_⟩
  have hfirst : 65 ≤ (u.toTitle c).toNat ∧ (u.toTitle c).toNat ≤ 90 := by
    cases hu : u.isUpper c with
    | true =>
      rw [toTitle_upper hca hu]
      rw [u.upper_ascii c hca] at hu
      simpa using hu
    | false =>
      obtain ⟨h1, h2, h3⟩ := toTitle_lower hca hc hu
      rw [h3]
      omega
  refine ⟨hfirst.1, hfirst.2, fun x hx => ?_⟩
  obtain ⟨y, hy, rfl⟩ := List.mem_map.1 hx
  have hw := ha.chars y (by simp [hy])
  have hya := hs y (by simp [hy])
  unfold under
  split
  · exact .inr (.inr (.inr rfl))
  · rename_i hne
    rcases hw with hw | hw | hw
    · rw [u.letter_ascii y hya] at hw
      simp at hw
      omega
    · rw [u.digit_ascii y hya] at hw
      simp at hw
      omega
    · exact absurd hw hne

example : ExportedIdent (goifyName asciiCasing (c! "a-b9")) := ⟨'A', c! "_b9", rfl, by decide, by decide, by decide⟩

/-! ### C42: SET types -/

/-- A type assignment is generated with the SET naming exactly if its type, without tags and constraints, is a SET or SET OF. -/
def C42_statement : Prop := ∀ (u : Casing) (fuel : Nat) (p : GenParams) (m : Module) (f : GoFile) (n : Str) (t : MTy),
  generateFile u fuel p m = some (.ok f) → m.moduleBody.assignmentList = [.type n t] →
  ((∃ e, .type [⟨goifyName u n ++ c! "SET", false, e⟩, ⟨goifyName u n, true, .ident (goifyName u n ++ c! "SET")⟩] ∈ f.decls) ↔
    (∃ a b, Core t (.set a b)) ∨ ∃ t', Core t (.setOf t'))

/-- SEQUENCE OF SET is named like a SET. -/
theorem C42_false : ¬ C42_statement := fun h => by
  have := (h asciiCasing 5 int64Params (moduleOf 0 [.type (c! "A") (.sequenceOf (.set [] []))]) _ (c! "A") _ rfl rfl).1
    ⟨_, List.mem_singleton.2 rfl⟩
  rcases this with ⟨a, b, h⟩ | ⟨t', h⟩ <;> · have := core_iff.1 h; simp [removeWrapperTypes] at this

/-- The naming is used exactly for the types described by `MarksSet`. -/
theorem C42_marked_partial (u : Casing) (fuel : Nat) (p : GenParams) (m : Module) (f : GoFile) (n : Str) (t : MTy)
    (h : generateFile u fuel p m = some (.ok f)) (hm : .type n t ∈ m.moduleBody.assignmentList) :
    (MarksSet m.moduleBody.assignmentList t → ∃ e, .type [⟨goifyName u n ++ c! "SET", false, e⟩,
      ⟨goifyName u n, true, .ident (goifyName u n ++ c! "SET")⟩] ∈ f.decls) ∧
    (¬ MarksSet m.moduleBody.assignmentList t → ∃ al e, .type [⟨goifyName u n, al, e⟩] ∈ f.decls) := by
  obtain ⟨ds, hsub, hds⟩ := file_decls h
  obtain ⟨x, v, hx, -, hty, -⟩ := decls_type hds hm
  cases hty with
  | struct fs hn _ => exact ⟨fun hy => absurd hy hn, fun _ => ⟨_, _, hsub hx⟩⟩
  | «alias» e hn _ _ => exact ⟨fun hy => absurd hy hn, fun _ => ⟨_, _, hsub hx⟩⟩
  | set e hy _ => exact ⟨fun _ => ⟨e, hsub hx⟩, fun hn => absurd hy hn⟩

/-- In particular every SET and SET OF, under tags and constraints, is. -/
theorem C42_sets (l : List MAssignment) (t : MTy) (h : (∃ a b, Core t (.set a b)) ∨ ∃ t', Core t (.setOf t')) : MarksSet l t := by
  have key : ∀ {t c : MTy}, Core t c → MarksSet l c → MarksSet l t := by
    intro t c hc
    induction hc with
    | tagged g t c k h _ ih => exact fun hm => .tagged _ _ _ _ (ih hm)
    | constrained t c x _ ih => exact fun hm => .constrained _ _ (ih hm)
    | done t _ _ => exact id
  rcases h with ⟨a, b, h⟩ | ⟨t', h⟩
  · exact key h (.set a b)
  · exact key h (.setOf t')

example : MarksSet [] (tag CLASS_PRIVATE 1 (.setOf .boolean)) := C42_sets _ _ (.inr ⟨_, .tagged _ _ _ _ _ (.done _ (by simp) (by simp))⟩)

/-! ### C43: aliases of time and bit string types -/

/-- A reference that leads to GeneralizedTime, or to a type assigned as BIT STRING, is generated as time.Time or asn1.BitString,
wherever it occurs in a type assignment; any other is generated as the Go name of the reference. -/
theorem C43_references (u : Casing) (fuel : Nat) (p : GenParams) (m : Module) (f : GoFile) (h : generateFile u fuel p m = some (.ok f))
    (n : Str) (t : MTy) (hm : .type n t ∈ m.moduleBody.assignmentList) (a : Str) (hi : Inside m.moduleBody.assignmentList t (.ref a)) :
    ∃ specs s x r t', .type specs ∈ f.decls ∧ s ∈ specs ∧ Within s.type (.ident x) ∧ Resolves m.moduleBody.assignmentList a r t' ∧
      (TimeName r → x = c! "time.Time") ∧
      (¬ TimeName r → (∃ nb, Core t' (.bitString nb)) → x = c! "asn1.BitString") ∧
      (¬ TimeName r → (¬ ∃ nb, Core t' (.bitString nb)) → x = goifyName u a) := by
  obtain ⟨ds, hsub, hds⟩ := file_decls h
  obtain ⟨d, v, hx, -, hty, -⟩ := decls_type hds hm
  have key : ∀ e, GoTypeOf u m.moduleBody.assignmentList m.tagDefault p.integerRepr t e → ∃ x r t', Within e (.ident x) ∧
      Resolves m.moduleBody.assignmentList a r t' ∧ (TimeName r → x = c! "time.Time") ∧
      (¬ TimeName r → (∃ nb, Core t' (.bitString nb)) → x = c! "asn1.BitString") ∧
      (¬ TimeName r → (¬ ∃ nb, Core t' (.bitString nb)) → x = goifyName u a) := by
    intro e he
    obtain ⟨y, hy, hyt⟩ := inside_within hi he
    cases hyt with
    | time _ r t' hr ht => exact ⟨_, r, t', hy, hr, fun _ => rfl, fun hn => absurd ht hn, fun hn => absurd ht hn⟩
    | bits _ r t' nb hr ht hb => exact ⟨_, r, t', hy, hr, fun hn => absurd hn ht, fun _ _ => rfl, fun _ hn => absurd ⟨nb, hb⟩ hn⟩
    | ref _ r t' hr ht hb => exact ⟨_, r, t', hy, hr, fun hn => absurd hn ht, fun _ ⟨nb, hn⟩ => absurd hn (hb nb), fun _ _ => rfl⟩
  cases hty with
  | struct fs _ he =>
    obtain ⟨x, r, t', h1, h2⟩ := key _ he
    exact ⟨_, _, x, r, t', hsub hx, List.mem_singleton.2 rfl, h1, h2⟩
  | «alias» e _ he _ =>
    obtain ⟨x, r, t', h1, h2⟩ := key _ he
    exact ⟨_, _, x, r, t', hsub hx, List.mem_singleton.2 rfl, h1, h2⟩
  | set e _ he =>
    obtain ⟨x, r, t', h1, h2⟩ := key _ he
    exact ⟨_, _, x, r, t', hsub hx, List.mem_cons_self .., h1, h2⟩

/-- What a reference leads to is unique. -/
theorem C43_unique (l : List MAssignment) (a r r' : Str) (t t' : MTy) (h : Resolves l a r t) (h' : Resolves l a r' t') : r = r' ∧ t = t' :=
  resolves_unique h h'

example : Inside demo.moduleBody.assignmentList (.sequence demoComponents [comp (c! "when") (.ref (c! "Time"))]) (.ref (c! "Time")) :=
  .sequence _ _ ⟨c! "when", .ref (c! "Time"), false, none⟩ _ (by simp [demoComponents, members, comp]) (.here _)

/-! ### C44: named numbers become variables -/

/-- For an assigned INTEGER type with named numbers, one variable per named number is declared, in order, with the value of the number. -/
theorem C44_named_numbers (u : Casing) (fuel : Nat) (p : GenParams) (m : Module) (f : GoFile) (h : generateFile u fuel p m = some (.ok f))
    (n : Str) (t : MTy) (hm : .type n t ∈ m.moduleBody.assignmentList) (nums : List NamedNumber) (hc : Core t (.integer nums)) (hne : nums ≠ []) :
    ∃ specs, .var specs ∈ f.decls ∧ List.Forall₂ (NumberVar u p.integerRepr (goifyName u n)) nums specs := by
  obtain ⟨ds, hsub, hds⟩ := file_decls h
  obtain ⟨x, v, -, hv, -, hnum⟩ := decls_type hds hm
  cases hnum with
  | none hno => exact absurd (hno nums hc) hne
  | vars nums' specs hc' _ hf =>
    have : nums = nums' := by
      have := (core_iff.1 hc).symm.trans (core_iff.1 hc')
      simpa using this
    subst this
    exact ⟨specs, hsub (hv (by simp)), hf⟩

example : NumberVar asciiCasing (c! "int64") (c! "Version") ⟨c! "v2", .number 1⟩ ⟨c! "VersionValV2", .ident (c! "Version"), .lit (c! "1")⟩ :=
  ⟨rfl, rfl, fun k hk => ⟨c! "1", by simp only [NamedNumberValue.number.injEq] at hk; subst hk; decide, rfl, rfl⟩, fun d hd => by simp at hd, fun hn => by simp at hn⟩

/-! ### C45: CHOICE -/

/-- A CHOICE that is translated becomes asn1.RawValue if some alternative is (an alias of) a tagged type, the type of its single
alternative, or an empty interface. -/
theorem C45_choice (u : Casing) (l : List MAssignment) (deflt : Int) (repr : Str) (alts : List MNamed) (ext : List MTy) (e : GoExpr)
    (h : GoTypeOf u l deflt repr (.choice alts ext) e) :
    (SomeTagged l alts → e = .ident (c! "asn1.RawValue")) ∧
    (¬ SomeTagged l alts → (∀ n t, alts = [.mk n t] → GoTypeOf u l deflt repr t e) ∧ (alts.length ≠ 1 → e = .iface)) := by
  cases h with
  | rawChoice _ _ hs => exact ⟨fun _ => rfl, fun hn => absurd hs hn⟩
  | onlyChoice n t _ _ hn he =>
    refine ⟨fun ⟨n', t', hm, ht⟩ => ?_, fun _ => ⟨fun n' t' e => ?_, fun hl => absurd rfl hl⟩⟩
    · cases List.mem_singleton.1 hm
      exact absurd ht hn
    · cases e
      exact he
  | choice _ _ hn hl => exact ⟨fun hs => absurd hs hn, fun _ => ⟨fun n t e => absurd (by rw [e]; rfl) hl, fun _ => rfl⟩⟩

/-- All types declared are translated in this way. -/
theorem C45_declared (u : Casing) (fuel : Nat) (p : GenParams) (m : Module) (f : GoFile) (h : generateFile u fuel p m = some (.ok f))
    (n : Str) (t t' : MTy) (hm : .type n t ∈ m.moduleBody.assignmentList) (hi : Inside m.moduleBody.assignmentList t t') :
    ∃ specs s x, .type specs ∈ f.decls ∧ s ∈ specs ∧ Within s.type x ∧
      GoTypeOf u m.moduleBody.assignmentList m.tagDefault p.integerRepr t' x := by
  obtain ⟨ds, hsub, hds⟩ := file_decls h
  obtain ⟨d, v, hx, -, hty, -⟩ := decls_type hds hm
  cases hty with
  | struct fs _ he =>
    obtain ⟨x, h1, h2⟩ := inside_within hi he
    exact ⟨_, _, x, hsub hx, List.mem_singleton.2 rfl, h1, h2⟩
  | «alias» e _ he _ =>
    obtain ⟨x, h1, h2⟩ := inside_within hi he
    exact ⟨_, _, x, hsub hx, List.mem_singleton.2 rfl, h1, h2⟩
  | set e _ he =>
    obtain ⟨x, h1, h2⟩ := inside_within hi he
    exact ⟨_, _, x, hsub hx, List.mem_cons_self .., h1, h2⟩

example : SomeTagged [.type (c! "T") (tag CLASS_APPLICATION 1 .boolean)] [.mk (c! "a") .boolean, .mk (c! "b") (.ref (c! "T"))] :=
  ⟨c! "b", _, by simp, .ref _ (c! "T") _ (by simp [TimeName]) (.assigned _ _ _ (.assigned _ _ _ rfl (.tagged _ _ _ _ _ (.done _ (by simp) (by simp)))
    (by simp)) (by simp [tag])) (.tagged _ _ _ _)⟩

/-! ### C46: package name -/

/-- The package is the one requested, or the Go form of the name of the module. -/
theorem C46_package (u : Casing) (fuel : Nat) (p : GenParams) (m : Module) (f : GoFile) (h : generateFile u fuel p m = some (.ok f)) :
    (p.package ≠ [] → f.package = p.package) ∧ (p.package = [] → f.package = goifyName u m.moduleIdentifier.reference) := by
  obtain ⟨_, _, _, _, _, hp, _⟩ := file_ok h
  rw [hp]
  refine ⟨fun hn => ?_, fun hn => ?_⟩
  · rw [if_pos]
    exact List.length_pos_iff.2 hn
  · rw [if_neg]
    rw [hn]
    simp

example : demoFile.package = c! "My_Mod" := rfl

/-! ### C47: integer representation -/

/-- The type mentions INTEGER. -/
inductive Mentions : MTy → Prop
  | integer (l : List NamedNumber) : Mentions (.integer l)
  | sequence (a b : List MComponent) (x : Member) : x ∈ members (a ++ b) → Mentions x.type → Mentions (.sequence a b)
  | sequenceOf (t : MTy) : Mentions t → Mentions (.sequenceOf t)
  | choice (n : Str) (t : MTy) (l : List MNamed) (e : List MTy) : NamedType.mk n t ∈ l → Mentions t → Mentions (.choice l e)

/-- With any representation but int64 and big.Int, all modules that mention INTEGER fail. -/
def C47_statement : Prop := ∀ (u : Casing) (fuel : Nat) (p : GenParams) (m : Module) (n : Str) (t : MTy) (f : GoFile),
  (newCodeGenerator p).integerRepr ≠ c! "int64" → (newCodeGenerator p).integerRepr ≠ c! "big.Int" →
  .type n t ∈ m.moduleBody.assignmentList → Mentions t → generateFile u fuel (newCodeGenerator p) m ≠ some (.ok f)

/-- A CHOICE of INTEGER and BOOLEAN is translated for every representation, as it becomes an empty interface. -/
theorem C47_false : ¬ C47_statement := fun h =>
  h asciiCasing 5 { integerRepr := c! "int32" }
    (moduleOf 0 [.type (c! "A") (.choice [.mk (c! "a") (.integer []), .mk (c! "b") .boolean] [])]) (c! "A") _ _ (by decide) (by decide)
    (List.mem_singleton.2 rfl) (.choice (c! "a") (.integer []) _ _ (by simp) (.integer [])) rfl

/-- The representation is int64 if none is given, and otherwise the one given. -/
theorem C47_default (p : GenParams) : (p.integerRepr = [] → (newCodeGenerator p).integerRepr = c! "int64") ∧
    (p.integerRepr ≠ [] → newCodeGenerator p = p) ∧ (newCodeGenerator p).package = p.package := by
  unfold newCodeGenerator
  refine ⟨fun h => by rw [if_pos h]; rfl, fun h => by rw [if_neg h], ?_⟩
  split <;> rfl

/-- INTEGER is generated as int64 or *big.Int, according to the parameter; there is no other translation. -/
theorem C47_integer (u : Casing) (l : List MAssignment) (deflt : Int) (repr : Str) (nums : List NamedNumber) (e : GoExpr)
    (h : GoTypeOf u l deflt repr (.integer nums) e) :
    (repr = c! "int64" ∧ e = .ident (c! "int64")) ∨ (repr = c! "big.Int" ∧ e = .star (.ident (c! "big.Int"))) := by
  cases h with
  | int64 _ hr => exact .inl ⟨hr, rfl⟩
  | bigInt _ hr => exact .inr ⟨hr, rfl⟩

/-- With any other representation, all modules fail in which a type assignment has INTEGER at a place that is translated. -/
theorem C47_unknown_partial (u : Casing) (fuel : Nat) (p : GenParams) (m : Module) (n : Str) (t : MTy) (nums : List NamedNumber) (f : GoFile)
    (h1 : p.integerRepr ≠ c! "int64") (h2 : p.integerRepr ≠ c! "big.Int") (hm : .type n t ∈ m.moduleBody.assignmentList)
    (hi : Inside m.moduleBody.assignmentList t (.integer nums)) : generateFile u fuel p m ≠ some (.ok f) := fun h => by
  obtain ⟨_, _, _, _, _, _, hx⟩ := C45_declared u fuel p m f h n t _ hm hi
  rcases C47_integer _ _ _ _ _ _ hx with ⟨hr, _⟩ | ⟨hr, _⟩
  · exact h1 hr
  · exact h2 hr

example : errors? (generateFile asciiCasing 5 { integerRepr := c! "int32" } demo) =
    [.unknownIntMode (c! "int32"), .unknownIntMode (c! "int32"), .unknownIntMode (c! "int32")] := rfl

/-! ### C48: useful types resolve -/

/-- GeneralizedTime and UTCTime can be used in every module. -/
def C48_statement : Prop := ∀ (u : Casing) (p : GenParams) (n a : Str), TimeName a →
  ∃ fuel f, generateFile u fuel p (moduleOf 0 [.type n (.ref a)]) = some (.ok f)

/-- UTCTime cannot. -/
theorem C48_false : ¬ C48_statement := fun h => by
  have := ((C33_supported _ _ _).1 (h asciiCasing int64Params (c! "A") (c! "UTCTime") (.inr rfl))).2 _ (List.mem_singleton.2 rfl)
  obtain ⟨b, t, hr⟩ := this.1
  refine resolves_of_leaf (.unassigned (c! "UTCTime") ?_) (by decide) hr
  intro t ht
  have : (moduleOf 0 [.type (c! "A") (.ref (c! "UTCTime"))]).moduleBody.assignmentList.find? (fun x => x.name == c! "UTCTime") = none := rfl
  rw [Assigned, this] at ht
  cases ht

/-- GeneralizedTime can, in every module that does not define the name. -/
theorem C48_generalized_partial (l : List MAssignment) (deflt : Int) (repr : Str) (h : ∀ a ∈ l, a.name ≠ c! "GeneralizedTime") :
    Supported l deflt repr (.ref (c! "GeneralizedTime")) ∧ (∀ u, GoTypeOf u l deflt repr (.ref (c! "GeneralizedTime")) (.ident (c! "time.Time"))) := by
  have hl : Leaf l (c! "GeneralizedTime") (c! "GeneralizedTime") .nil := by
    refine .unassigned _ fun t ht => ?_
    have := List.mem_of_find?_eq_some ht
    exact h _ this rfl
  refine ⟨?_, fun u => .time _ _ _ (.generalizedTime _ hl) (.inl rfl)⟩
  rw [Supported]
  exact ⟨_, _, .generalizedTime _ hl⟩

/-- UTCTime can be used in exactly the modules that define the name themselves, as a type that leads somewhere. -/
theorem C48_utc_partial (l : List MAssignment) (deflt : Int) (repr : Str) :
    Supported l deflt repr (.ref (c! "UTCTime")) ↔ ∃ b t, Leaf l (c! "UTCTime") b t ∧ (t ≠ .nil ∨ b = c! "GeneralizedTime") := by
  rw [Supported]
  constructor
  · rintro ⟨b, t, hr⟩
    cases hr with
    | assigned _ _ hl hn => exact ⟨_, _, hl, .inl hn⟩
    | generalizedTime hl => exact ⟨_, _, hl, .inr rfl⟩
  · rintro ⟨b, t, hl, hn⟩
    by_cases ht : t = .nil
    · subst ht
      obtain rfl := hn.resolve_left (fun h => h rfl)
      exact ⟨_, _, .generalizedTime _ hl⟩
    · exact ⟨_, _, .assigned _ _ _ hl ht⟩

/-- A module that does not define UTCTime and uses it as the type of an assignment or component is refused. -/
theorem C48_utc_refused (l : List MAssignment) (deflt : Int) (repr : Str) (h : ∀ a ∈ l, a.name ≠ c! "UTCTime") :
    ¬ Supported l deflt repr (.ref (c! "UTCTime")) := by
  rw [Supported]
  rintro ⟨b, t, hr⟩
  exact resolves_of_leaf (.unassigned (c! "UTCTime") fun t ht => h _ (List.mem_of_find?_eq_some ht) rfl) (by decide) hr

example : ∀ a ∈ demo.moduleBody.assignmentList, a.name ≠ c! "GeneralizedTime" ∧ a.name ≠ c! "UTCTime" := by decide

/-! ### C49: default values reach the generated code -/

/-- A module text with two components that have defaults. -/
def twoDefaults : Str := c! "M DEFINITIONS ::= BEGIN A ::= SEQUENCE { a INTEGER DEFAULT 5, b INTEGER DEFAULT 7 } END"

/-- The defaults read from the tags of the first struct declared. -/
def defaultsOf : List GoDecl → List (Option Int)
  | .type [⟨_, false, .struct fs⟩] :: _ => fs.map fun g => match g with | .mk _ _ tag => (fieldParams tag).dflt
  | _ :: ds => defaultsOf ds
  | [] => []

/-- The defaults in the file generated for a text. -/
def textDefaults (text : Str) : Option (List (Option Int)) :=
  match parseString asciiUnicode text with
  | .ok m =>
    match generateFile asciiCasing 20 int64Params m with
    | some (.ok f) => some (defaultsOf f.decls)
    | _ => none
  | _ => none

/-- The defaults written in the text are the ones of the fields; stated for one text. -/
def C49_statement : Prop := textDefaults twoDefaults = some [some 5, some 7]

/-- The first default is lost in the parser. -/
theorem C49_false : ¬ C49_statement := by
  have : textDefaults twoDefaults = some [none, some 7] := by decide +kernel
  unfold C49_statement
  rw [this]
  decide

/-- From a module that has the default, the generated field has it; see C37 for the other direction. -/
theorem C49_module_partial (u : Casing) (fuel : Nat) (p : GenParams) (m : Module) (f : GoFile) (h : generateFile u fuel p m = some (.ok f))
    (n c : Str) (t : MTy) (o : Bool) (k : Int) (hm : .type n (.sequence [.named (.mk c t) o (some (.number k))] []) ∈ m.moduleBody.assignmentList)
    (hk : GoInt k) (ht : ∀ cls n k, (cls, .number n, k) ∈ tagsAround m.tagDefault t → GoInt n) :
    ∃ e tag, .type [⟨goifyName u n, false, .struct [.mk (goifyName u c) e tag]⟩] ∈ f.decls ∧ (fieldParams tag).dflt = some k := by
  obtain ⟨fs, h1, h2⟩ := C37_optional u fuel p m f h n _ _ hm (by
    intro x hx
    simp only [members, List.append_nil, List.filterMap_cons, List.filterMap_nil, List.mem_singleton] at hx
    subst hx
    exact ⟨ht, fun n hn => by simp only [Option.some.injEq, Value.number.injEq] at hn; subst hn; exact hk⟩)
  simp only [members, List.append_nil, List.filterMap_cons, List.filterMap_nil] at h2
  cases h2 with
  | cons hd htl =>
    cases htl with
    | nil =>
      obtain ⟨e, tag, rfl, _, _, hdf⟩ := hd
      exact ⟨e, tag, h1, (hdf k).2 rfl⟩

example : textDefaults (c! "M DEFINITIONS ::= BEGIN A ::= SEQUENCE { a INTEGER DEFAULT 5 } END") = some [some 5] := by decide +kernel

/-! ### C50: a function of module and parameters -/

/-- Two runs of `Generate` on modules that agree in tag default, name and assignments write the same text and return the same error. -/
theorem C50_function (u : Casing) (print : Printer) (fuel fuel' : Nat) (p : GenParams) (m m' : Module) (o o' : GenOutcome)
    (h1 : m.tagDefault = m'.tagDefault) (h2 : m.moduleIdentifier.reference = m'.moduleIdentifier.reference)
    (h3 : m.moduleBody.assignmentList = m'.moduleBody.assignmentList)
    (h : generate u print fuel p m = some o) (h' : generate u print fuel' p m' = some o') : o = o' := by
  have hm : ∀ fuel, generateFile u fuel p m = generateFile u fuel p m' := by
    intro fuel
    unfold generateFile
    rw [h1, h2, h3]
  unfold generate at h h'
  cases hg : generateFile u fuel p m with
  | none => rw [hg] at h; simp at h
  | some r =>
    cases hg' : generateFile u fuel' p m' with
    | none => rw [hg'] at h'; simp at h'
    | some r' =>
      have e1 := generateFile_mono (Nat.le_max_left fuel fuel') hg
      have e2 := generateFile_mono (Nat.le_max_right fuel fuel') hg'
      rw [hm, e2] at e1
      simp only [Option.some.injEq] at e1
      subst e1
      rw [hg] at h
      rw [hg'] at h'
      cases r' with
      | error e =>
        simp only [Option.some.injEq] at h h'
        rw [← h, ← h']
      | ok f =>
        simp only [Option.some.injEq] at h h'
        rw [← h, ← h']

example : ∃ o, generate asciiCasing (fun f => (f.package, false)) 6 int64Params demo = some o := ⟨_, rfl⟩

/-! ### C51: value assignments -/

/-- A value assignment with a literal value yields one variable with that value and the translation of the type. -/
theorem C51_variable (u : Casing) (fuel : Nat) (p : GenParams) (m : Module) (f : GoFile) (h : generateFile u fuel p m = some (.ok f))
    (n : Str) (t : MTy) (v : Value DefinedValue) (hm : .value n t v ∈ m.moduleBody.assignmentList) (hl : Literal v) :
    ∃ ty e, .var [⟨c! "Val" ++ goifyName u n, ty, e⟩] ∈ f.decls ∧
      GoTypeOf u m.moduleBody.assignmentList m.tagDefault p.integerRepr t ty ∧ LiteralExpr p.integerRepr v e := by
  obtain ⟨ds, hsub, hds⟩ := file_decls h
  obtain ⟨ty, e, h1, h2⟩ := decls_value hds hl hm
  exact ⟨ty, e, hsub h1, h2⟩

/-- Any other value yields nothing: the declarations are those for the other assignments. -/
theorem C51_nothing (u : Casing) (fuel : Nat) (p : GenParams) (m : Module) (f : GoFile) (h : generateFile u fuel p m = some (.ok f))
    (pre post : List MAssignment) (n : Str) (t : MTy) (v : Value DefinedValue) (hm : m.moduleBody.assignmentList = pre ++ .value n t v :: post)
    (hl : ¬ Literal v) :
    ∃ ds, f.decls = (importsOf f.decls).map GoDecl.imp ++ ds ∧
      DeclsFor u m.moduleBody.assignmentList m.tagDefault p.integerRepr (pre ++ post) ds := by
  obtain ⟨ds, h1, h2⟩ := C34_declarations u fuel p m f h
  refine ⟨ds, h1, decls_skip (n := n) (t := t) hl ?_⟩
  rw [← hm]
  exact h2

example : Literal (.number 3) ∧ LiteralExpr (c! "int64") (.number 3) (.lit (c! "3")) ∧ ¬ Literal (.nil : Value DefinedValue) :=
  ⟨trivial, .number 3 _ ⟨c! "3", by decide, rfl, rfl⟩, fun h => h⟩

end Asn1go.Props
