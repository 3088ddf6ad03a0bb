import Verif.Proofs.Ascii
import Verif.Proofs.Names2
import Verif.Props.Notation
import Verif.Props.Exact
import Verif.Props.Compile

/-! Names and numbers of parsed modules, and from texts to Go files: C72-C74. -/

namespace Asn1go.Props

open Spec CG LR Relation

/-! ### C72: names and numbers of parsed modules -/

/-- Every name in a parsed module is an ASN.1 name with a capital or a small letter in front, as it must be, and every number
fits 64 bits; also those found through the pointers for `DEFAULT` values and first components of object identifiers, whatever
they point to. -/
theorem C72_names (u : Unicode) (text : Str) (m : Module) (h : parseString u text = .ok m) :
    ∀ x ∈ moduleAtoms shownAtoms (valueAtoms shownAtoms) m, x.Good u := by
  obtain ⟨toks, t, ht, hd, hp, rfl⟩ := (C07_module u text m).1 h
  exact Names.exact_good hd hp (LR.tokens_sane ht) (Print.fine_of_tokens ht)

/-- For instance, the default and the tag number of this text. -/
example : ∃ m, parseString asciiUnicode (c! "M DEFINITIONS ::= BEGIN A ::= SEQUENCE { b [7] INTEGER DEFAULT 6 } END") = .ok m ∧
    .upper (c! "A") ∈ moduleAtoms shownAtoms (valueAtoms shownAtoms) m ∧ .number 7 ∈ moduleAtoms shownAtoms (valueAtoms shownAtoms) m ∧
    .number 6 ∈ moduleAtoms shownAtoms (valueAtoms shownAtoms) m := by
  have : (match parseString asciiUnicode (c! "M DEFINITIONS ::= BEGIN A ::= SEQUENCE { b [7] INTEGER DEFAULT 6 } END") with
      | .ok m => some (moduleAtoms shownAtoms (valueAtoms shownAtoms) m)
      | _ => none) = some [.upper (c! "M"), .upper (c! "A"), .lower (c! "b"), .number 7, .number 6] := by decide +kernel
  split at this
  · rename_i m hm
    simp only [Option.some.injEq] at this
    exact ⟨m, hm, by simp [this], by simp [this], by simp [this]⟩
  · simp at this

/-- The same holds for all names and numbers, with none left out, of the module that a text is notation for. -/
theorem C72_notation (u : Unicode) (text : Str) (toks : List Token) (m : Module) (ht : Tokens u false text toks)
    (h : Notation.ModuleText .written false toks m) : ∀ x ∈ moduleAtoms definedAtoms (valueAtoms definedAtoms) m, x.Good u :=
  Names.module_g ⟨fun _ h => h, fun _ h => h, fun _ h => h⟩ h (Print.fine_of_tokens ht)

/-! ### C73: Unicode tables do not matter for ASCII texts -/

/-- An ASCII text is accepted or not, and gives the same module, whatever the Unicode tables say about other characters. -/
theorem C73_tables (u u' : Unicode) (text : Str) (ha : ∀ c ∈ text, c.toNat < 128) (m : Module) :
    parseString u text = .ok m ↔ parseString u' text = .ok m := by
  rw [C07_module, C07_module]
  exact ⟨fun ⟨toks, t, h1, h2⟩ => ⟨toks, t, tokens_ascii h1 ha, h2⟩, fun ⟨toks, t, h1, h2⟩ => ⟨toks, t, tokens_ascii h1 ha, h2⟩⟩

/-- It has the same tokens. -/
theorem C73_tokens (u u' : Unicode) (text : Str) (ha : ∀ c ∈ text, c.toNat < 128) (toks : List Token) :
    Tokens u false text toks ↔ Tokens u' false text toks :=
  ⟨fun h => tokens_ascii h ha, fun h => tokens_ascii h ha⟩

/-! ### C74: from texts to Go files -/

/-- The atoms of an assignment are among those of the module. -/
theorem assignment_atoms {m : Module} {a : MAssignment} (h : a ∈ m.moduleBody.assignmentList) {x : Atom}
    (hx : x ∈ assignmentAtoms shownAtoms (valueAtoms shownAtoms) a) : x ∈ moduleAtoms shownAtoms (valueAtoms shownAtoms) m :=
  List.mem_cons_of_mem _ (List.mem_append_right _ (List.mem_flatMap.2 ⟨a, h, hx⟩))

/-- The names and numbers of a type, those behind pointers included. -/
abbrev tyA (t : MTy) : List Atom := tyAtoms shownAtoms (valueAtoms shownAtoms) t

theorem component_atoms {l : List MComponent} {x : Member} (h : x ∈ members l) :
    .lower x.name ∈ componentListAtoms shownAtoms (valueAtoms shownAtoms) l ∧ tyA x.type ⊆ componentListAtoms shownAtoms (valueAtoms shownAtoms) l := by
  induction l with
  | nil => simp [members] at h
  | cons c l ih =>
    simp only [members, List.filterMap_cons] at h
    simp only [componentListAtoms]
    match c, h with
    | .nil, h => exact ⟨List.mem_append_right _ (ih h).1, fun y hy => List.mem_append_right _ ((ih h).2 hy)⟩
    | .componentsOf t, h => exact ⟨List.mem_append_right _ (ih h).1, fun y hy => List.mem_append_right _ ((ih h).2 hy)⟩
    | .named (.mk n t) o d, h =>
      simp only [List.mem_cons] at h
      rcases h with rfl | h
      · cases d <;> simp only [componentAtoms, namedAtoms] <;>
          exact ⟨by simp, fun y hy => by simp [hy]⟩
      · exact ⟨List.mem_append_right _ (ih h).1, fun y hy => List.mem_append_right _ ((ih h).2 hy)⟩

theorem inside_atoms {l : List MAssignment} {t t' : MTy} (h : Inside l t t') : tyA t' ⊆ tyA t := by
  have app : ∀ a b : List MComponent, componentListAtoms shownAtoms (valueAtoms shownAtoms) (a ++ b) =
      componentListAtoms shownAtoms (valueAtoms shownAtoms) a ++ componentListAtoms shownAtoms (valueAtoms shownAtoms) b := Names.componentListAtoms_append
  induction h with
  | here t => exact fun _ h => h
  | sequence a b x t hx _ ih =>
    intro y hy
    simp only [tyA, tyAtoms, ← app]
    exact (component_atoms hx).2 (ih hy)
  | set a b x t hx _ ih =>
    intro y hy
    simp only [tyA, tyAtoms, ← app]
    exact (component_atoms hx).2 (ih hy)
  | sequenceOf t t' _ ih => intro y hy; simp only [tyA, tyAtoms]; exact ih hy
  | setOf t t' _ ih => intro y hy; simp only [tyA, tyAtoms]; exact ih hy
  | tagged g t t' k h _ ih => intro y hy; simp only [tyA, tyAtoms]; exact List.mem_append_right _ (ih hy)
  | constrained t t' x _ ih => intro y hy; simp only [tyA, tyAtoms]; exact List.mem_append_left _ (ih hy)
  | choice n t t' e _ _ ih =>
    intro y hy
    simp only [tyA, tyAtoms, namedListAtoms, namedAtoms, List.append_nil]
    exact List.mem_append_left _ (List.mem_cons_of_mem _ (ih hy))

theorem core_atoms {t c : MTy} (h : Core t c) : tyA c ⊆ tyA t := by
  induction h with
  | tagged g t c k h _ ih => intro y hy; simp only [tyA, tyAtoms]; exact List.mem_append_right _ (ih hy)
  | constrained t c x _ ih => intro y hy; simp only [tyA, tyAtoms]; exact List.mem_append_left _ (ih hy)
  | done t => exact fun _ h => h

/-- In the module of an ASCII text, names of types and of values are ASCII names with the right first letter. -/
theorem ascii_names {u : Casing} {text : Str} {m : Module} (h : parseString u.toUnicode text = .ok m) (ha : ∀ c ∈ text, c.toNat < 128) :
    (∀ s, .upper s ∈ moduleAtoms shownAtoms (valueAtoms shownAtoms) m → UpperName u s) ∧
    ∀ s, .lower s ∈ moduleAtoms shownAtoms (valueAtoms shownAtoms) m → LowerName u s := by
  have h1 := C72_names _ text m h
  have h2 := C72_names asciiUnicode text m ((C73_tables _ _ text ha m).1 h)
  exact ⟨fun s hs => ⟨(h1 _ hs).1, ascii_word (h2 _ hs).1, (h1 _ hs).2⟩, fun s hs => ⟨(h1 _ hs).1, ascii_word (h2 _ hs).1, (h1 _ hs).2⟩⟩

/-- A name has no dot. -/
theorem word_undotted {u : Unicode} {s : Str} (h : Word u s) : '.' ∉ s := fun hd => by
  rcases h.chars '.' hd with h | h | h
  · rw [u.letter_ascii '.' (by decide)] at h
    exact absurd h (by decide)
  · rw [u.digit_ascii '.' (by decide)] at h
    exact absurd h (by decide)
  · exact absurd h (by decide)

mutual

theorem tyNames_atoms : ∀ (t : MTy) (n : Str), n ∈ tyNames t → .upper n ∈ tyA t
  | .nil, n, h => by simp [tyNames] at h
  | .null, n, h => by simp [tyNames] at h
  | .objectIdentifier, n, h => by simp [tyNames] at h
  | .integer l, n, h => by simp [tyNames] at h
  | .enumerated a b, n, h => by simp [tyNames] at h
  | .real, n, h => by simp [tyNames] at h
  | .boolean, n, h => by simp [tyNames] at h
  | .choice a e, n, h => by
    simp only [tyNames] at h
    simp only [tyA, tyAtoms]
    exact List.mem_append_left _ (alternativeNames_atoms a n h)
  | .restrictedString k, n, h => by simp [tyNames] at h
  | .characterString, n, h => by simp [tyNames] at h
  | .octetString, n, h => by simp [tyNames] at h
  | .sequence a b, n, h => by
    simp only [tyNames, List.mem_append] at h
    simp only [tyA, tyAtoms, List.mem_append]
    exact h.imp (componentNames_atoms a n) (componentNames_atoms b n)
  | .set a b, n, h => by
    simp only [tyNames, List.mem_append] at h
    simp only [tyA, tyAtoms, List.mem_append]
    exact h.imp (componentNames_atoms a n) (componentNames_atoms b n)
  | .tagged g t k b, n, h => by
    simp only [tyNames] at h
    simp only [tyA, tyAtoms]
    exact List.mem_append_right _ (tyNames_atoms t n h)
  | .sequenceOf t, n, h => by
    simp only [tyNames] at h
    simp only [tyA, tyAtoms]
    exact tyNames_atoms t n h
  | .setOf t, n, h => by
    simp only [tyNames] at h
    simp only [tyA, tyAtoms]
    exact tyNames_atoms t n h
  | .any s, n, h => by simp [tyNames] at h
  | .bitString l, n, h => by simp [tyNames] at h
  | .constrained t c, n, h => by
    simp only [tyNames] at h
    simp only [tyA, tyAtoms]
    exact List.mem_append_left _ (tyNames_atoms t n h)
  | .ref s, n, h => by
    simp only [tyNames, List.mem_singleton] at h
    simp [tyA, tyAtoms, h]
  | .named x, n, h => by simp [tyNames] at h

theorem alternativeNames_atoms : ∀ (l : List MNamed) (n : Str), n ∈ alternativeNames l → .upper n ∈ namedListAtoms shownAtoms (valueAtoms shownAtoms) l
  | [], n, h => by simp [alternativeNames] at h
  | .mk s t :: l, n, h => by
    simp only [alternativeNames, List.mem_append] at h
    simp only [namedListAtoms, namedAtoms, List.mem_append, List.mem_cons]
    exact h.imp (fun h => .inr (tyNames_atoms t n h)) (alternativeNames_atoms l n)

theorem componentNames_atoms : ∀ (l : List MComponent) (n : Str), n ∈ componentNames l → .upper n ∈ componentListAtoms shownAtoms (valueAtoms shownAtoms) l
  | [], n, h => by simp [componentNames] at h
  | .nil :: l, n, h => by
    simp only [componentNames] at h
    simp only [componentListAtoms]
    exact List.mem_append_right _ (componentNames_atoms l n h)
  | .componentsOf t :: l, n, h => by
    simp only [componentNames] at h
    simp only [componentListAtoms]
    exact List.mem_append_right _ (componentNames_atoms l n h)
  | .named (.mk s t) o d :: l, n, h => by
    simp only [componentNames, List.mem_append] at h
    simp only [componentListAtoms, List.mem_append]
    refine h.imp (fun h => ?_) (componentNames_atoms l n)
    have := tyNames_atoms t n h
    cases d <;> simp [componentAtoms, namedAtoms, this]

end

theorem namedNumbers_core (t : MTy) : namedNumbers t = [] ∨ Core t (.integer (namedNumbers t)) :=
  match t with
  | .tagged g t k h => (namedNumbers_core t).imp id (fun hc => .tagged _ _ _ _ _ hc)
  | .constrained t c => (namedNumbers_core t).imp id (fun hc => .constrained _ _ _ hc)
  | .integer l => .inr (.done _ (by simp) (by simp))
  | .nil | .null | .objectIdentifier | .enumerated _ _ | .real | .boolean | .choice _ _ | .restrictedString _ | .characterString
  | .octetString | .sequence _ _ | .set _ _ | .sequenceOf _ | .setOf _ | .any _ | .bitString _ | .ref _ | .named _ => .inl rfl

/-- The atoms of the named numbers of a type. -/
theorem number_atoms {t : MTy} {nums : List NamedNumber} (hc : Core t (.integer nums)) {n : NamedNumber} (hn : n ∈ nums) {x : Atom}
    (hx : x ∈ numberAtoms n) : x ∈ tyA t :=
  core_atoms hc (by simp only [tyA, tyAtoms]; exact List.mem_flatMap.2 ⟨n, hn, hx⟩)

/-- No name in a parsed module has a dot. -/
theorem parsed_undotted {u : Unicode} {text : Str} {m : Module} (h : parseString u text = .ok m) : Undotted m.moduleBody.assignmentList := by
  have hg := C72_names u text m h
  intro a ha n hn
  have upper : ∀ s, .upper s ∈ assignmentAtoms shownAtoms (valueAtoms shownAtoms) a → '.' ∉ s := fun s hs => word_undotted (hg _ (assignment_atoms ha hs)).1
  have lower : ∀ s, .lower s ∈ assignmentAtoms shownAtoms (valueAtoms shownAtoms) a → '.' ∉ s := fun s hs => word_undotted (hg _ (assignment_atoms ha hs)).1
  match a, ha, hn, upper, lower with
  | .nil, ha, hn, upper, lower => simp [assignmentNames] at hn
  | .value r t v, ha, hn, upper, lower =>
    simp only [assignmentNames] at hn
    refine upper n ?_
    simp only [assignmentAtoms, List.mem_cons, List.mem_append]
    exact .inr (.inl (tyNames_atoms t n hn))
  | .type r t, ha, hn, upper, lower =>
    simp only [assignmentNames, List.mem_cons, List.mem_append] at hn
    rcases hn with rfl | hn | hn
    · exact upper n (by simp [assignmentAtoms])
    · refine upper n ?_
      simp only [assignmentAtoms, List.mem_cons]
      exact .inr (tyNames_atoms t n hn)
    · refine lower n ?_
      simp only [assignmentAtoms, List.mem_cons]
      right
      simp only [numberNames, List.mem_flatMap] at hn
      obtain ⟨k, hk, hn⟩ := hn
      rcases namedNumbers_core t with h0 | hc
      · rw [h0] at hk; simp at hk
      · refine number_atoms hc hk ?_
        simp only [numberAtoms]
        cases hv : k.value with
        | defined d => rw [hv] at hn; simp only [List.mem_singleton] at hn; subst hn; simp [definedAtoms]
        | nil => rw [hv] at hn; simp at hn
        | number i => rw [hv] at hn; simp at hn

/-- Every package used in the file for a parsed text is imported, but for the exceptions of C38, no package is imported twice and
each imported package is used. -/
theorem C74_imports (u : Casing) (fuel : Nat) (p : GenParams) (text : Str) (m : Module) (f : GoFile) (hp : parseString u.toUnicode text = .ok m)
    (h : generateFile u fuel p m = some (.ok f)) :
    (∀ x q, FileIdent f x → qualifier x = some q → (∃ path, FileImports f path ∧ packageOf path = q) ∨ x = c! "asn1.RawValue" ∨
      (x = c! "big.NewInt" ∧ p.integerRepr = c! "big.Int")) ∧
    (importsOf f.decls).Nodup ∧ ∀ path ∈ importsOf f.decls, path ∈ [c! "encoding/asn1", c! "math/big", c! "time"] ∧
      ∃ x, FileIdent f x ∧ qualifier x = some (packageOf path) :=
  ⟨fun x q hx hq => C38_imported_partial u fuel p m f h (parsed_undotted hp) x q hx hq, (C39_imports u fuel p m f h).1,
    (C39_imports u fuel p m f h).2 (parsed_undotted hp)⟩

theorem ExportedIdent.append {a b : Str} (ha : ExportedIdent a)
    (hb : ∀ x ∈ b, (48 ≤ x.toNat ∧ x.toNat ≤ 57) ∨ (65 ≤ x.toNat ∧ x.toNat ≤ 90) ∨ (97 ≤ x.toNat ∧ x.toNat ≤ 122) ∨ x = '_') : ExportedIdent (a ++ b) := by
  obtain ⟨c, cs, rfl, h1, h2, h3⟩ := ha
  refine ⟨c, cs ++ b, rfl, h1, h2, fun x hx => ?_⟩
  rcases List.mem_append.1 hx with hx | hx
  · exact h3 x hx
  · exact hb x hx

theorem ExportedIdent.chars {a : Str} (ha : ExportedIdent a) :
    ∀ x ∈ a, (48 ≤ x.toNat ∧ x.toNat ≤ 57) ∨ (65 ≤ x.toNat ∧ x.toNat ≤ 90) ∨ (97 ≤ x.toNat ∧ x.toNat ≤ 122) ∨ x = '_' := by
  obtain ⟨c, cs, rfl, h1, h2, h3⟩ := ha
  intro x hx
  rcases List.mem_cons.1 hx with rfl | hx
  · exact .inr (.inl ⟨h1, h2⟩)
  · exact h3 x hx

/-- In the file for an ASCII text every name declared, every name of a field at any depth, and the package name if none is
requested, are exported Go identifiers. -/
theorem C74_exported (u : Casing) (fuel : Nat) (p : GenParams) (text : Str) (m : Module) (f : GoFile) (ha : ∀ c ∈ text, c.toNat < 128)
    (hp : parseString u.toUnicode text = .ok m) (h : generateFile u fuel p m = some (.ok f)) :
    (∀ n ∈ declared f.decls, ExportedIdent n) ∧
    (∀ e fs, FileType f e → Within e (.struct fs) → ∀ x ∈ fs, ExportedIdent (fieldName x)) ∧
    (p.package = [] → ExportedIdent f.package) := by
  obtain ⟨hup, hlo⟩ := ascii_names hp ha
  have eu : ∀ s, .upper s ∈ moduleAtoms shownAtoms (valueAtoms shownAtoms) m → ExportedIdent (goifyName u s) := fun s hs =>
    C41_exported u s (hup s hs).word (hup s hs).ascii
  have el : ∀ s, .lower s ∈ moduleAtoms shownAtoms (valueAtoms shownAtoms) m → ExportedIdent (goifyName u s) := fun s hs =>
    C41_exported u s (hlo s hs).word (hlo s hs).ascii
  have val : ∀ {x : Str}, ExportedIdent x → ExportedIdent (c! "Val" ++ x) := fun hx =>
    ExportedIdent.append ⟨'V', c! "al", rfl, by decide, by decide, by decide⟩ hx.chars
  have ty : ∀ {r : Str} {t : MTy}, .type r t ∈ m.moduleBody.assignmentList → ExportedIdent (goifyName u r) := fun hm =>
    eu _ (assignment_atoms hm (by simp [assignmentAtoms]))
  obtain ⟨ds, h1, h2, -, -, -, h6⟩ := file_parts h
  have members : ∀ {t : MTy} {e : GoExpr} {fs : List GoField}, GoTypeOf u m.moduleBody.assignmentList m.tagDefault p.integerRepr t e →
      Within e (.struct fs) → (∀ x ∈ tyA t, x ∈ moduleAtoms shownAtoms (valueAtoms shownAtoms) m) → ∀ x ∈ fs, ExportedIdent (fieldName x) := by
    intro t e fs hg hw hsub x hx
    obtain ⟨a, b, hi, hf⟩ := within_struct hg hw
    have hmem : fieldName x ∈ (members (a ++ b)).map fun x => goifyName u x.name := by
      rw [← fieldsOf_names hf]
      exact List.mem_map.2 ⟨x, hx, rfl⟩
    obtain ⟨y, hy, hxy⟩ := List.mem_map.1 hmem
    rw [← hxy]
    refine el _ (hsub _ ?_)
    have hcomp := (component_atoms hy).1
    rw [Names.componentListAtoms_append] at hcomp
    rcases hi with hi | hi
    · exact inside_atoms hi (by simp only [tyA, tyAtoms]; exact hcomp)
    · exact inside_atoms hi (by simp only [tyA, tyAtoms]; exact hcomp)
  refine ⟨fun n hn => ?_, fun e fs he hw => ?_, fun hpk => ?_⟩
  · rw [h2] at hn
    obtain ⟨o, rfl, ho⟩ := declared_origin h6 n hn
    match o, ho with
    | .ty r, ho =>
      obtain ⟨t, hm⟩ := of_typeNames ho
      exact ty hm
    | .set r, ⟨t, hm, _⟩ => exact (ty hm).append (by decide)
    | .num r n, ⟨t, nums, hm, hc, hn⟩ =>
      obtain ⟨k, hk, rfl⟩ := List.mem_map.1 hn
      refine (ty hm).append (val (el k.name (assignment_atoms hm ?_))).chars
      simp only [assignmentAtoms, List.mem_cons]
      exact .inr (number_atoms hc hk (by simp [numberAtoms]))
    | .val r, ⟨t, v, hm, _⟩ => exact val (el _ (assignment_atoms hm (by simp [assignmentAtoms])))
  · have hdt := decl_types h6
    rcases he with ⟨specs, s, hd, hs, rfl⟩ | ⟨specs, s, hd, hs, rfl⟩
    · rw [h1] at hd
      rcases hdt.1 specs s (by simpa using hd) hs with ⟨n, t, hm, hg⟩ | ⟨n, hn⟩
      · exact members hg hw fun x hx => assignment_atoms hm (by simp only [assignmentAtoms]; exact List.mem_cons_of_mem _ hx)
      · rw [hn] at hw
        cases hw
    · rw [h1] at hd
      rcases hdt.2 specs s (by simpa using hd) hs with ⟨n, t, v, hm, hg⟩ | ⟨n, hn⟩
      · exact members hg hw fun x hx => assignment_atoms hm (by
          simp only [assignmentAtoms]
          exact List.mem_cons_of_mem _ (List.mem_append_left _ hx))
      · rw [hn] at hw
        cases hw
  · rw [(C46_package u fuel p m f h).2 hpk]
    exact eu _ (by simp [moduleAtoms])

theorem parsed_named {u : Casing} {text : Str} {m : Module} (ha : ∀ c ∈ text, c.toNat < 128) (hp : parseString u.toUnicode text = .ok m)
    (hd : NamesDistinct m.moduleBody.assignmentList) : WellNamed u m.moduleBody.assignmentList ∧
    (∀ n t, .type n t ∈ m.moduleBody.assignmentList → MembersNamed u m.moduleBody.assignmentList t) ∧
    ∀ n t v, .value n t v ∈ m.moduleBody.assignmentList → MembersNamed u m.moduleBody.assignmentList t := by
  obtain ⟨hup, hlo⟩ := ascii_names hp ha
  have members : ∀ {t : MTy}, (∀ x ∈ tyA t, x ∈ moduleAtoms shownAtoms (valueAtoms shownAtoms) m) → ∀ a b,
      Inside m.moduleBody.assignmentList t (.sequence a b) ∨ Inside m.moduleBody.assignmentList t (.set a b) →
      ∀ x ∈ members (a ++ b), LowerName u x.name := by
    intro t hsub a b hi x hx
    refine hlo _ (hsub _ ?_)
    have hcomp := (component_atoms hx).1
    rw [Names.componentListAtoms_append] at hcomp
    rcases hi with hi | hi
    · exact inside_atoms hi (by simp only [tyA, tyAtoms]; exact hcomp)
    · exact inside_atoms hi (by simp only [tyA, tyAtoms]; exact hcomp)
  refine ⟨
      { types := hd.types
        values := hd.values
        typeName := fun r hr => by
          obtain ⟨t, hm⟩ := of_typeNames hr
          exact hup _ (assignment_atoms hm (by simp [assignmentAtoms]))
        valueName := fun r hr => by
          obtain ⟨a, hm, hr⟩ := List.mem_filterMap.1 hr
          match a, hr with
          | .value r' t v, hr =>
            simp only [Option.some.injEq] at hr
            subst hr
            exact hlo _ (assignment_atoms hm (by simp [assignmentAtoms]))
        numbers := hd.numbers
        number := fun r t nums hm hc n hn => hlo _ (assignment_atoms hm (by
          simp only [assignmentAtoms, List.mem_cons]
          exact .inr (number_atoms hc hn (by simp [numberAtoms])))) }, ?_, ?_⟩
  · exact fun n t hm a b hi => ⟨hd.typeMembers n t hm a b hi, members
      (fun x hx => assignment_atoms hm (by simp only [assignmentAtoms]; exact List.mem_cons_of_mem _ hx)) a b hi⟩
  · exact fun n t v hm a b hi => ⟨hd.valueMembers n t v hm a b hi, members
      (fun x hx => assignment_atoms hm (by simp only [assignmentAtoms]; exact List.mem_cons_of_mem _ (List.mem_append_left _ hx))) a b hi⟩

/-- For an ASCII text only the names need be different and the values of the types they are given for: the rest of what C71
asks of the module is there in every module parsed. -/
theorem C74_asn (u : Casing) (text : Str) (m : Module) (ha : ∀ c ∈ text, c.toNat < 128) (hp : parseString u.toUnicode text = .ok m)
    (hd : NamesDistinct m.moduleBody.assignmentList) (hv : ValuesOk m.moduleBody.assignmentList) : AsnOk u m.moduleBody.assignmentList := by
  obtain ⟨h1, h2, h3⟩ := parsed_named ha hp hd
  exact ⟨h1, parsed_undotted hp, h2, h3, hv⟩

theorem tags_atoms {deflt : Int} : ∀ {t : MTy} {cls n k : Int}, (cls, .number n, k) ∈ tagsAround deflt t → .number n ∈ tyA t
  | .tagged g t k' h, cls, n, k, hm => by
    simp only [tagsAround, List.mem_cons, Prod.mk.injEq] at hm
    simp only [tyA, tyAtoms, List.mem_append]
    rcases hm with ⟨-, hg, -⟩ | hm
    · left
      rw [← hg]
      simp [valueAtoms]
    · exact .inr (tags_atoms hm)
  | .constrained t c, cls, n, k, hm => by
    simp only [tagsAround] at hm
    simp only [tyA, tyAtoms, List.mem_append]
    exact .inl (tags_atoms hm)
  | .nil, _, _, _, hm | .null, _, _, _, hm | .objectIdentifier, _, _, _, hm | .integer _, _, _, _, hm | .enumerated _ _, _, _, _, hm | .real, _, _, _, hm
  | .boolean, _, _, _, hm | .choice _ _, _, _, _, hm | .restrictedString _, _, _, _, hm | .characterString, _, _, _, hm | .octetString, _, _, _, hm
  | .sequence _ _, _, _, _, hm | .set _ _, _, _, _, hm | .sequenceOf _, _, _, _, hm | .setOf _, _, _, _, hm | .any _, _, _, _, hm
  | .bitString _, _, _, _, hm | .ref _, _, _, _, hm | .named _, _, _, _, hm => by simp [tagsAround] at hm

theorem default_atoms {l : List MComponent} {x : Member} (h : x ∈ members l) {n : Int} (hn : x.default = some (.number n)) :
    .number n ∈ componentListAtoms shownAtoms (valueAtoms shownAtoms) l := by
  induction l with
  | nil => simp [members] at h
  | cons c l ih =>
    simp only [members, List.filterMap_cons] at h
    simp only [componentListAtoms]
    match c, h with
    | .nil, h => exact List.mem_append_right _ (ih h)
    | .componentsOf t, h => exact List.mem_append_right _ (ih h)
    | .named (.mk n' t) o d, h =>
      simp only [List.mem_cons] at h
      rcases h with rfl | h
      · simp only at hn
        subst hn
        simp [componentAtoms, valueAtoms]
      · exact List.mem_append_right _ (ih h)

/-- In parsed modules the numbers of tags and defaults fit an `int`, as C36 and C37 ask. -/
theorem parsed_numbers {u : Unicode} {text : Str} {m : Module} (hp : parseString u text = .ok m) {n : Str} {t : MTy}
    (hm : .type n t ∈ m.moduleBody.assignmentList) {a b : List MComponent}
    (hi : Inside m.moduleBody.assignmentList t (.sequence a b) ∨ Inside m.moduleBody.assignmentList t (.set a b)) :
    ∀ x ∈ members (a ++ b), (∀ cls n k, (cls, .number n, k) ∈ tagsAround m.tagDefault x.type → GoInt n) ∧
      ∀ n, x.default = some (.number n) → GoInt n := by
  have hg := C72_names u text m hp
  have num : ∀ k : Int, .number k ∈ componentListAtoms shownAtoms (valueAtoms shownAtoms) (a ++ b) → GoInt k := fun k hk => by
    rw [Names.componentListAtoms_append] at hk
    have : Atom.Good u (.number k) := hg _ (assignment_atoms hm (by
      simp only [assignmentAtoms]
      refine List.mem_cons_of_mem _ ?_
      rcases hi with hi | hi
      · exact inside_atoms hi (by simp only [tyA, tyAtoms]; exact hk)
      · exact inside_atoms hi (by simp only [tyA, tyAtoms]; exact hk)))
    exact ⟨by have := this.1; omega, by have := this.2; omega⟩
  exact fun x hx => ⟨fun cls n k ht => num n ((component_atoms hx).2 (tags_atoms ht)), fun n hn => num n (default_atoms hx hn)⟩

/-- What the tags of the fields for a parsed text tell is what the components say, as in C36 and C37, with no condition on numbers. -/
theorem C74_tags (u : Casing) (fuel : Nat) (p : GenParams) (text : Str) (m : Module) (f : GoFile) (hp : parseString u.toUnicode text = .ok m)
    (h : generateFile u fuel p m = some (.ok f)) (n : Str) (t : MTy) (hm : .type n t ∈ m.moduleBody.assignmentList) (a b : List MComponent)
    (hi : Inside m.moduleBody.assignmentList t (.sequence a b) ∨ Inside m.moduleBody.assignmentList t (.set a b)) :
    ∃ specs s fs, .type specs ∈ f.decls ∧ s ∈ specs ∧ Within s.type (.struct fs) ∧
      List.Forall₂ (fun x g => ∃ e tag, g = GoField.mk (goifyName u x.name) e tag ∧
        TagMeaning m.moduleBody.assignmentList m.tagDefault x.type x.optional x.default (fieldParams tag)) (members (a ++ b)) fs := by
  obtain ⟨specs, s, fs, h1, h2, h3, h4⟩ := C35_fields u fuel p m f h n t hm a b hi
  refine ⟨specs, s, fs, h1, h2, h3, ?_⟩
  have hn := parsed_numbers hp hm hi
  generalize members (a ++ b) = xs at h4 hn
  clear h3
  induction h4 with
  | nil => exact .nil
  | cons hd _ ih =>
    refine .cons ?_ (ih fun x hx => hn x (by simp [hx]))
    obtain ⟨e, tag, hg, _, ht⟩ := hd.field
    have := hn _ (List.mem_cons_self ..)
    exact ⟨e, tag, hg, ht.meaning this.1 this.2⟩

/-! ### C49: defaults, from text to Go -/

/-- If nothing read later overwrites them, the defaults written in a text are the ones in the tags of the fields; see
`C05_kept_partial` for the meaning of `Kept`. -/
theorem C49_kept_partial (u : Casing) (fuel : Nat) (p : GenParams) (text : Str) (toks : List Token) (t : Tree)
    (ht : Tokens u.toUnicode false text toks) (hd : Derives (.n NT.ModuleDefinition) toks t) (hp : t.IsPreferred) (hk : t.Kept) :
    parseString u.toUnicode text = .ok t.ideal ∧
    ∀ f, generateFile u fuel p t.ideal = some (.ok f) → ∀ n ty, .type n ty ∈ t.ideal.moduleBody.assignmentList → ∀ a b,
      Inside t.ideal.moduleBody.assignmentList ty (.sequence a b) ∨ Inside t.ideal.moduleBody.assignmentList ty (.set a b) →
      ∃ specs s fs, .type specs ∈ f.decls ∧ s ∈ specs ∧ Within s.type (.struct fs) ∧
        List.Forall₂ (fun x g => ∃ e tag, g = GoField.mk (goifyName u x.name) e tag ∧
          ∀ k, (fieldParams tag).dflt = some k ↔ x.default = some (.number k)) (members (a ++ b)) fs := by
  have hpar := C05_kept_partial _ _ _ _ ht hd hp hk
  refine ⟨hpar, fun f hf n ty hm a b hi => ?_⟩
  obtain ⟨specs, s, fs, h1, h2, h3, h4⟩ := C74_tags u fuel p text _ f hpar hf n ty hm a b hi
  exact ⟨specs, s, fs, h1, h2, h3, h4.imp fun x g ⟨e, tag, hg, hmean⟩ => ⟨e, tag, hg, hmean.dflt⟩⟩

/-- The text of `C05_kept_partial`: its default reaches the file. -/
example : parseString asciiUnicode keptText = .ok keptTree.ideal ∧
    textDefaults (c! "M DEFINITIONS ::= BEGIN A ::= SEQUENCE { a INTEGER, b INTEGER DEFAULT 6 } END") = some [none, some 6] :=
  ⟨(C49_kept_partial asciiCasing 5 int64Params keptText _ _ ((tokenize_iff _ _ _).1 kept_tokens) kept_meets.1 kept_meets.2.1 kept_meets.2.2.1).1,
    by decide +kernel⟩

/-! A text for which all this can be seen. -/

def text74 : Str := c! "My-Mod DEFINITIONS ::= BEGIN Ver ::= INTEGER { v-1(0) } Rec ::= SEQUENCE { id-no [0] INTEGER OPTIONAL, at GeneralizedTime } Names ::= SET OF Rec three Ver ::= 3 END"

/-- The names declared in the file for a text and the names of the fields of the first struct. -/
def namesFor (text : Str) : Option (List Str × List Str × Str) :=
  match parseString asciiUnicode text with
  | .ok m =>
    match generateFile asciiCasing 20 int64Params m with
    | some (.ok f) => some (declared f.decls, f.decls.flatMap (fun d => match d with
        | .type [⟨_, _, .struct fs⟩] => fs.map fieldName
        | _ => []), f.package)
    | _ => none
  | _ => none

example : (∀ c ∈ text74, c.toNat < 128) ∧
    namesFor text74 = some ([c! "Ver", c! "VerValV_1", c! "Rec", c! "NamesSET", c! "Names", c! "ValThree"], [c! "Id_no", c! "At"], c! "My_Mod") := by
  decide +kernel

/-- Outside ASCII a name of a parsed module need not give a Go identifier: a name may have any letter, and only ASCII is a
Go identifier for sure. What is in front, a capital, can be one that Go takes for exported. -/
example : ∃ u : Casing, ¬ ExportedIdent (goifyName u (c! "é")) :=
  ⟨asciiCasing, by
    rintro ⟨c, cs, h1, h2, h3, -⟩
    have : goifyName asciiCasing (c! "é") = c! "é" := by decide +kernel
    rw [this] at h1
    cases h1
    revert h3
    decide⟩

end Asn1go.Props
