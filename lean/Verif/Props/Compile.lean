import Verif.Proofs.RealFloat
import Verif.Proofs.Codegen.Check4
import Verif.Props.Codegen

/-! Properties of generated files as Go programs: C66-C71.  The rules of Go are in Verif/Spec/GoCheck.lean. -/

namespace Asn1go.Props

open Spec CG Relation

/-- The declarations of a file beside its imports. -/
theorem file_parts {u : Casing} {fuel : Nat} {p : GenParams} {m : Module} {f : GoFile} (h : generateFile u fuel p m = some (.ok f)) :
    ∃ ds, f.decls = (importsOf f.decls).map GoDecl.imp ++ ds ∧ declared f.decls = declared ds ∧ ds ⊆ f.decls ∧
      (∀ s, Declares f s → SpecFor u m.moduleBody.assignmentList m.tagDefault p.integerRepr m.moduleBody.assignmentList s) ∧
      (∀ specs, GoDecl.var specs ∈ f.decls → GoDecl.var specs ∈ ds) ∧
      DeclsFor u m.moduleBody.assignmentList m.tagDefault p.integerRepr m.moduleBody.assignmentList ds := by
  obtain ⟨ds, h1, h2⟩ := C34_declarations u fuel p m f h
  refine ⟨ds, h1, ?_, fun x hx => by rw [h1]; simp [hx], ?_, ?_, h2⟩
  · rw [h1, declared_append, declared_imports, List.nil_append]
  · rintro s ⟨specs, hd, hs⟩
    rw [h1] at hd
    exact spec_for h2 specs s (by simpa using hd) hs
  · intro specs hd
    rw [h1] at hd
    simpa using hd

/-! ### C38: which packages are used -/

/-- The identifiers of packages used in a file: those the types need, and `big.NewInt` for each integer written. -/
theorem C38_uses (u : Casing) (fuel : Nat) (p : GenParams) (m : Module) (f : GoFile) (h : generateFile u fuel p m = some (.ok f))
    (hw : WellNamed u m.moduleBody.assignmentList) (hu : Undotted m.moduleBody.assignmentList) (x : Str) (hx : '.' ∈ x) :
    FileIdent f x ↔ TypeUse m.moduleBody.assignmentList p.integerRepr m.moduleBody.assignmentList x ∨
      (x = c! "big.NewInt" ∧ p.integerRepr = c! "big.Int" ∧ NumberWritten m.moduleBody.assignmentList) := by
  obtain ⟨ds, h1, -, h3, -, -, h6⟩ := file_parts h
  rw [← declUses hw hu hx h6 fun _ h => h]
  refine ⟨?_, fun ⟨dc, hd, h⟩ => ⟨dc, h3 hd, h⟩⟩
  rintro ⟨dc, hd, hx⟩
  rw [h1] at hd
  rcases List.mem_append.1 hd with hd | hd
  · obtain ⟨path, _, rfl⟩ := List.mem_map.1 hd
    simp [declIdents] at hx
  · exact ⟨dc, hd, hx⟩

/-- The same for the imports: encoding/asn1 is imported exactly for BIT STRING (also behind references), OBJECT IDENTIFIER and
ENUMERATED, but not for `asn1.RawValue`. -/
theorem C38_asn1_exact_partial (u : Casing) (fuel : Nat) (p : GenParams) (m : Module) (f : GoFile) (h : generateFile u fuel p m = some (.ok f))
    (hw : WellNamed u m.moduleBody.assignmentList) (hu : Undotted m.moduleBody.assignmentList) :
    (∃ path, FileImports f path ∧ packageOf path = c! "asn1") ↔
      ∃ x ∈ [c! "asn1.BitString", c! "asn1.ObjectIdentifier", c! "asn1.Enumerated"],
        TypeUse m.moduleBody.assignmentList p.integerRepr m.moduleBody.assignmentList x := by
  rw [C38_exact_partial u fuel p m f h hu]
  constructor
  · rintro ⟨x, hx, hq, h1, h2⟩
    have hdot : '.' ∈ x := by
      unfold qualifier at hq
      split at hq
      · assumption
      · cases hq
    rcases (C38_uses u fuel p m f h hw hu x hdot).1 hx with hx | ⟨rfl, -, -⟩
    · refine ⟨x, ?_, hx⟩
      obtain ⟨t, t', -, -, hp⟩ := hx
      cases hp with
      | integer => exact absurd hq (by decide)
      | time => exact absurd hq (by decide)
      | rawChoice => exact absurd rfl h1
      | bitString => simp
      | objectIdentifier => simp
      | enumerated => simp
      | bits => simp
    · exact absurd rfl h2
  · rintro ⟨x, hm, hx⟩
    have hd : '.' ∈ x := (by decide : ∀ x ∈ [c! "asn1.BitString", c! "asn1.ObjectIdentifier", c! "asn1.Enumerated"], '.' ∈ x) x hm
    refine ⟨x, (C38_uses u fuel p m f h hw hu x hd).2 (.inl hx), ?_⟩
    exact (by decide : ∀ x ∈ [c! "asn1.BitString", c! "asn1.ObjectIdentifier", c! "asn1.Enumerated"], qualifier x = some (c! "asn1") ∧
      x ≠ c! "asn1.RawValue" ∧ x ≠ c! "big.NewInt") x hm

/-! ### C66: every name used is declared -/

/-- Every name used in a generated file is declared in it, predeclared, or from a package. -/
def C66_statement : Prop := ∀ (u : Casing) (fuel : Nat) (p : GenParams) (m : Module) (f : GoFile), generateFile u fuel p m = some (.ok f) →
  NamesDeclared f

/-- `A ::= INTEGER { a(b) }` -/
def danglingModule : Module := moduleOf 0 [.type (c! "A") (.integer [⟨c! "a", .defined ⟨[], c! "b"⟩⟩])]
/-- The file for it. -/
def danglingFile : GoFile := ⟨c! "My_Mod", [.type [⟨c! "A", true, .ident (c! "int64")⟩],
  .var [⟨c! "AValA", .ident (c! "A"), .ident (c! "ValB")⟩]]⟩

/-- A named number may refer to a value that is not assigned. -/
theorem C66_false : ¬ C66_statement := fun h => by
  have := h asciiCasing 5 int64Params danglingModule danglingFile rfl (c! "ValB") ⟨.var _, List.mem_cons_of_mem _ (List.mem_singleton.2 rfl), by decide⟩
  revert this
  decide

/-- Every name used is declared, predeclared or from a package, apart from references in named numbers to values for which there
is no literal value assignment. -/
theorem C66_declared_partial (u : Casing) (fuel : Nat) (p : GenParams) (m : Module) (f : GoFile) (h : generateFile u fuel p m = some (.ok f))
    (x : Str) (hx : FileIdent f x) : x ∈ predeclared ∨ x ∈ declared f.decls ∨ '.' ∈ x ∨
      ∃ n t nums k dv, .type n t ∈ m.moduleBody.assignmentList ∧ Core t (.integer nums) ∧ k ∈ nums ∧ NamedNumber.value k = .defined dv ∧
        x = c! "Val" ++ goifyName u dv.valueName ∧ ∀ t' v, Literal v → Assignment.value dv.valueName t' v ∉ m.moduleBody.assignmentList := by
  obtain ⟨ds, h1, h2, h3, -, -, h6⟩ := file_parts h
  obtain ⟨dc, hd, hx⟩ := hx
  rw [h1] at hd
  rcases List.mem_append.1 hd with hd | hd
  · obtain ⟨path, _, rfl⟩ := List.mem_map.1 hd
    simp [declIdents] at hx
  · rw [h2]
    rcases used_declared h6 h6 dc hd x hx with h | h | h | h | h
    · exact .inl h
    · exact .inr (.inr (.inl h))
    · exact .inr (.inl h)
    · exact .inr (.inl h)
    · exact .inr (.inr (.inr h))

/-- C66, exactly: in a module with proper names, no name of a type with `Val` in it, all names are declared if and only if every
value that a named number refers to is assigned a literal. -/
theorem C66_exact_partial (u : Casing) (fuel : Nat) (p : GenParams) (m : Module) (f : GoFile) (h : generateFile u fuel p m = some (.ok f))
    (hw : WellNamed u m.moduleBody.assignmentList) (hv : NoValName m.moduleBody.assignmentList)
    (hr : ∀ n t nums k dv, .type n t ∈ m.moduleBody.assignmentList → Core t (.integer nums) → k ∈ nums → NamedNumber.value k = .defined dv →
      LowerName u dv.valueName) :
    NamesDeclared f ↔ ∀ n t nums k dv, .type n t ∈ m.moduleBody.assignmentList → Core t (.integer nums) → k ∈ nums →
      NamedNumber.value k = .defined dv → ∃ t' v, .value dv.valueName t' v ∈ m.moduleBody.assignmentList ∧ Literal v := by
  constructor
  · intro hn n t nums k dv hm hc hk hd
    obtain ⟨ds, -, h2, h3, -, -, h6⟩ := file_parts h
    have hlow := hr n t nums k dv hm hc hk hd
    have hword : '.' ∉ dv.valueName := by
      intro hm
      have hw := hlow.word.chars '.' hm
      unfold WordChar at hw
      rw [u.letter_ascii _ (by decide), u.digit_ascii _ (by decide)] at hw
      exact absurd hw (by decide)
    obtain ⟨dc, v, -, hvs, -, hnv⟩ := decls_type h6 hm
    have hident : FileIdent f (c! "Val" ++ goifyName u dv.valueName) := by
      cases hnv with
      | none hz => rw [hz nums hc] at hk; simp at hk
      | vars nums' specs hc' _ hf =>
        rw [core_iff] at hc hc'
        rw [hc] at hc'
        cases hc'
        obtain ⟨s, hs, hks⟩ := forall2_left hf hk
        refine ⟨_, h3 (hvs (List.mem_singleton.2 rfl)), ?_⟩
        refine List.mem_flatMap.2 ⟨s, hs, List.mem_append_right _ ?_⟩
        rw [hks.defined dv hd]
        simp [exprIdents]
    have up : ∀ {a : Str}, a ∈ typeNames m.moduleBody.assignmentList → ¬ c! "Val" <:+: goifyName u a := by
      intro a ha hi
      rw [goify_upper (hw.typeName a ha)] at hi
      exact hv a ha (val_under hi)
    rcases hn _ hident with h | h | h
    · exfalso
      simp [predeclared] at h
    · rw [h2] at h
      obtain ⟨o, ho, hok⟩ := declared_origin h6 _ h
      match o, ho, hok with
      | .ty a, ho, hok => exact absurd ⟨[], _, ho⟩ (up hok)
      | .set a, ho, ⟨t', hok, _⟩ => exact absurd (set_val (y := []) ho.symm) (up (mem_typeNames hok))
      | .num a n, ho, ⟨t', nums', hok, _⟩ =>
        have := (val_split (y := []) ho.symm (up (mem_typeNames hok)) (by decide)).1
        rw [goify_upper (hw.typeName a (mem_typeNames hok))] at this
        obtain ⟨c, cs, rfl, _⟩ := (hw.typeName a (mem_typeNames hok)).word.letter
        simp at this
      | .val a, ho, ⟨t', v', hok, hlit⟩ =>
        rw [goify_lower_inj hlow (hw.valueName a (mem_valueNames hok)) (List.append_cancel_left ho)]
        exact ⟨t', v', hok, hlit⟩
    · rcases List.mem_append.1 h with h | h
      · exact absurd h (by decide)
      · exact absurd h (goify_dot hword)
  · intro hn x hx
    rcases C66_declared_partial u fuel p m f h x hx with hx | hx | hx | ⟨n, t, nums, k, dv, h1, h2, h3, h4, -, h6⟩
    · exact .inl hx
    · exact .inr (.inl hx)
    · exact .inr (.inr hx)
    · obtain ⟨t', v, hm, hl⟩ := hn n t nums k dv h1 h2 h3 h4
      exact absurd hm (h6 t' v hl)

example : FileIdent demoFile (c! "Version") ∧ c! "Version" ∈ declared demoFile.decls :=
  ⟨⟨.var [⟨c! "ValThree", .ident (c! "Version"), .lit (c! "3")⟩], by simp [demoFile], by decide⟩, by decide⟩

/-! ### C67: no name is declared twice -/

/-- If no two types and no two values of the module have the same name, and no two named numbers of a type, then no name is
declared twice. -/
def C67_statement : Prop := ∀ (u : Casing) (fuel : Nat) (p : GenParams) (m : Module) (f : GoFile), generateFile u fuel p m = some (.ok f) →
  WellNamed u m.moduleBody.assignmentList → (declared f.decls).Nodup

/-- `A ::= SET {}  ASET ::= BOOLEAN` -/
def clashList : List MAssignment := [.type (c! "A") (.set [] []), .type (c! "ASET") .boolean]
/-- The file for it. -/
def clashFile : GoFile := ⟨c! "My_Mod", [.type [⟨c! "ASET", false, .struct []⟩, ⟨c! "A", true, .ident (c! "ASET")⟩],
  .type [⟨c! "ASET", true, .ident (c! "bool")⟩]]⟩

theorem upperName_of {s : Str} (h1 : ∃ c cs, s = c :: cs ∧ asciiUnicode.isLetter c = true)
    (h2 : s.all (fun c => asciiUnicode.isLetter c || asciiUnicode.isDigit c || c = '-') = true)
    (h3 : s.getLast? ≠ some '-') (h4 : ¬ (['-', '-'] <:+: s)) (h5 : s.all (fun c => c.toNat < 128) = true)
    (h6 : s.head?.map asciiUnicode.isUpper = some true) : UpperName asciiCasing s :=
  ⟨⟨h1, fun c hc => by
      have := List.all_eq_true.1 h2 c hc
      simp only [Bool.or_eq_true, decide_eq_true_eq] at this
      rcases this with (h | h) | h
      · exact .inl h
      · exact .inr (.inl h)
      · exact .inr (.inr h), h3, h4⟩,
    fun c hc => by simpa using List.all_eq_true.1 h5 c hc, h6⟩

theorem lowerName_of {s : Str} (h1 : ∃ c cs, s = c :: cs ∧ asciiUnicode.isLetter c = true)
    (h2 : s.all (fun c => asciiUnicode.isLetter c || asciiUnicode.isDigit c || c = '-') = true)
    (h3 : s.getLast? ≠ some '-') (h4 : ¬ (['-', '-'] <:+: s)) (h5 : s.all (fun c => c.toNat < 128) = true)
    (h6 : s.head?.map asciiUnicode.isUpper = some false) : LowerName asciiCasing s :=
  ⟨⟨h1, fun c hc => by
      have := List.all_eq_true.1 h2 c hc
      simp only [Bool.or_eq_true, decide_eq_true_eq] at this
      rcases this with (h | h) | h
      · exact .inl h
      · exact .inr (.inl h)
      · exact .inr (.inr h), h3, h4⟩,
    fun c hc => by simpa using List.all_eq_true.1 h5 c hc, h6⟩

theorem clash_named : WellNamed asciiCasing clashList where
  types := by decide
  values := by decide
  typeName := by
    intro r hr
    simp only [clashList, typeNames, List.filterMap_cons, List.filterMap_nil, List.mem_cons, List.not_mem_nil, or_false] at hr
    rcases hr with rfl | rfl
    · exact upperName_of ⟨_, _, rfl, by decide⟩ (by decide) (by decide) (by decide) (by decide) (by decide)
    · exact upperName_of ⟨_, _, rfl, by decide⟩ (by decide) (by decide) (by decide) (by decide) (by decide)
  valueName := by simp [clashList, valueNames]
  numbers := by
    intro r t nums hm hc
    simp only [clashList, List.mem_cons, Assignment.type.injEq, List.not_mem_nil, or_false] at hm
    rcases hm with ⟨rfl, rfl⟩ | ⟨rfl, rfl⟩ <;> cases hc
  number := by
    intro r t nums hm hc
    simp only [clashList, List.mem_cons, Assignment.type.injEq, List.not_mem_nil, or_false] at hm
    rcases hm with ⟨rfl, rfl⟩ | ⟨rfl, rfl⟩ <;> cases hc

/-- A SET type `A` also declares `ASET`. -/
theorem C67_false : ¬ C67_statement := fun h => by
  have := h asciiCasing 5 int64Params (moduleOf 0 clashList) clashFile rfl clash_named
  revert this
  decide

/-- If moreover no type has the name of a SET type followed by `SET`, and no name of a type contains `Val`, no name is declared
twice. -/
theorem C67_distinct_partial (u : Casing) (fuel : Nat) (p : GenParams) (m : Module) (f : GoFile) (h : generateFile u fuel p m = some (.ok f))
    (hw : WellNamed u m.moduleBody.assignmentList) (hs : NoSetClash m.moduleBody.assignmentList) (hv : NoValName m.moduleBody.assignmentList) :
    (declared f.decls).Nodup := by
  obtain ⟨ds, -, h2, -, -, -, h6⟩ := file_parts h
  rw [h2]
  exact declared_nodup h6 hw hs hv

/-- C67, exactly: no name is declared twice if and only if no two of the types, the types behind SET types, the named numbers and
the literal values of the module get the same Go name. -/
theorem C67_exact_partial (u : Casing) (fuel : Nat) (p : GenParams) (m : Module) (f : GoFile) (h : generateFile u fuel p m = some (.ok f))
    (hw : WellNamed u m.moduleBody.assignmentList) : (declared f.decls).Nodup ↔ NamesApart u m.moduleBody.assignmentList := by
  obtain ⟨ds, -, h2, -, -, -, h6⟩ := file_parts h
  rw [h2]
  exact declared_nodup_iff h6 hw

/-- The second condition is needed: with `x INTEGER ::= 1` a type `ValX` clashes. -/
theorem C67_val_needed : ¬ (declared [.var [⟨c! "Val" ++ goifyName asciiCasing (c! "x"), .ident (c! "int64"), .lit (c! "1")⟩],
    .type [⟨goifyName asciiCasing (c! "ValX"), true, .ident (c! "bool")⟩]]).Nodup := by decide

/-! ### C68: the fields of a struct have different names -/

/-- If the components of each SEQUENCE and SET have different names, so have the fields of each struct. -/
theorem C68_fields (u : Casing) (fuel : Nat) (p : GenParams) (m : Module) (f : GoFile) (h : generateFile u fuel p m = some (.ok f))
    (ht : ∀ n t, .type n t ∈ m.moduleBody.assignmentList → MembersNamed u m.moduleBody.assignmentList t)
    (hv : ∀ n t v, .value n t v ∈ m.moduleBody.assignmentList → MembersNamed u m.moduleBody.assignmentList t) : FieldsDistinct f := by
  obtain ⟨ds, h1, -, -, -, -, h6⟩ := file_parts h
  have hdt := decl_types h6
  rintro e fs (⟨specs, s, hd, hs, rfl⟩ | ⟨specs, s, hd, hs, rfl⟩) hw
  · rw [h1] at hd
    rcases hdt.1 specs s (by simpa using hd) hs with ⟨n, t, hm, hg⟩ | ⟨n, hn⟩
    · exact fields_distinct hg hw (ht n t hm)
    · rw [hn] at hw
      cases hw
  · rw [h1] at hd
    rcases hdt.2 specs s (by simpa using hd) hs with ⟨n, t, v, hm, hg⟩ | ⟨n, hn⟩
    · exact fields_distinct hg hw (hv n t v hm)
    · rw [hn] at hw
      cases hw

/-! ### C69: types do not contain themselves -/

/-- No generated type contains itself. -/
def C69_statement : Prop := ∀ (u : Casing) (fuel : Nat) (p : GenParams) (m : Module) (f : GoFile), generateFile u fuel p m = some (.ok f) →
  NoBadRecursion f

/-- `A ::= SEQUENCE { a A OPTIONAL }` -/
def recursiveModule : Module := moduleOf 0 [.type (c! "A") (.sequence [.named (.mk (c! "a") (.ref (c! "A"))) true none] [])]
/-- The file for it. -/
def recursiveFile : GoFile := ⟨c! "My_Mod", [.type [⟨c! "A", false, .struct [.mk (c! "A") (.ident (c! "A")) (some (c! "`asn1:\"optional\"`"))]⟩]]⟩

/-- An optional component of the type being defined becomes a field of the struct itself, which Go does not allow. -/
theorem C69_false : ¬ C69_statement := fun h => by
  refine (h asciiCasing 5 int64Params recursiveModule recursiveFile rfl).1 (c! "A") (.single ?_)
  have hd : Declares recursiveFile ⟨c! "A", false, .struct [.mk (c! "A") (.ident (c! "A")) (some (c! "`asn1:\"optional\"`"))]⟩ :=
    ⟨_, List.mem_singleton.2 rfl, List.mem_singleton.2 rfl⟩
  exact ⟨⟨_, hd, rfl, by decide⟩, _, hd, rfl⟩

/-- `A ::= SEQUENCE OF A` -/
def aliasCycleModule : Module := moduleOf 0 [.type (c! "A") (.sequenceOf (.ref (c! "A")))]
/-- The file for it. -/
def aliasCycleFile : GoFile := ⟨c! "My_Mod", [.type [⟨c! "A", true, .array (.ident (c! "A"))⟩]]⟩

/-- Neither does it allow `type A = []A`. -/
theorem C69_alias_false : ∃ f, generateFile asciiCasing 5 int64Params aliasCycleModule = some (.ok f) ∧ TransGen (AliasStep f) (c! "A") (c! "A") := by
  refine ⟨aliasCycleFile, rfl, .single ?_⟩
  have hd : Declares aliasCycleFile ⟨c! "A", true, .array (.ident (c! "A"))⟩ := ⟨_, List.mem_singleton.2 rfl, List.mem_singleton.2 rfl⟩
  exact ⟨⟨_, hd, rfl, rfl, by decide⟩, _, hd, rfl, rfl⟩

/-- If no type of the module holds values of itself, other than as elements of SEQUENCE OF and SET OF, and none mentions itself
through types that are neither SEQUENCE nor SET nor SET OF, no Go type contains itself. -/
theorem C69_recursion_partial (u : Casing) (fuel : Nat) (p : GenParams) (m : Module) (f : GoFile) (h : generateFile u fuel p m = some (.ok f))
    (hw : WellNamed u m.moduleBody.assignmentList) (hs : NoSetClash m.moduleBody.assignmentList)
    (hh : ∀ a, ¬ TransGen (HoldsStep m.moduleBody.assignmentList) a a) (hm : ∀ a, ¬ TransGen (MentionsStep m.moduleBody.assignmentList) a a) :
    NoBadRecursion f := by
  obtain ⟨ds, -, -, -, h4, -, -⟩ := file_parts h
  exact ⟨no_size_cycle hw hs h4 hh, no_alias_cycle hw hs h4 hm⟩

/-- C69, exactly: in a module with proper names, the Go types do not contain themselves if and only if no type of the module holds
values of itself, other than as elements of SEQUENCE OF and SET OF, and none mentions itself through types that are neither SEQUENCE
nor SET nor SET OF; references that lead to a type named GeneralizedTime or UTCTime do not count. -/
theorem C69_exact_partial (u : Casing) (fuel : Nat) (p : GenParams) (m : Module) (f : GoFile) (h : generateFile u fuel p m = some (.ok f))
    (hw : WellNamed u m.moduleBody.assignmentList) (hs : NoSetClash m.moduleBody.assignmentList) :
    NoBadRecursion f ↔ (∀ a, ¬ TransGen (HoldsStep m.moduleBody.assignmentList) a a) ∧ ∀ a, ¬ TransGen (MentionsStep m.moduleBody.assignmentList) a a := by
  obtain ⟨ds, -, -, h3, -, -, h6⟩ := file_parts h
  refine ⟨fun hn => ⟨fun a ha => hn.1 _ (size_cycle h6 h3 hw ha), fun a ha => hn.2 _ (alias_cycle h6 h3 hw ha)⟩, ?_⟩
  exact fun ⟨h1, h2⟩ => C69_recursion_partial u fuel p m f h hw hs h1 h2

/-- `UTCTime ::= SEQUENCE { a UTCTime OPTIONAL }` -/
def timeCycleModule : Module := moduleOf 0 [.type (c! "UTCTime") (.sequence [.named (.mk (c! "a") (.ref (c! "UTCTime"))) true none] [])]
/-- The file for it. -/
def timeCycleFile : GoFile := ⟨c! "My_Mod", [.imp (c! "time"), .type [⟨c! "UTCTime", false,
  .struct [.mk (c! "A") (.ident (c! "time.Time")) (some (c! "`asn1:\"optional,utc\"`"))]⟩]]⟩

/-- A type that holds itself, but by the name of a time type: not so in Go. -/
example : (∃ t, .type (c! "UTCTime") t ∈ timeCycleModule.moduleBody.assignmentList ∧ Holds timeCycleModule.moduleBody.assignmentList t (c! "UTCTime")) ∧
    NoBadRecursion timeCycleFile := by
  refine ⟨⟨_, List.mem_singleton.2 rfl, .sequence _ _ _ _ (List.mem_singleton.2 rfl) (.ref _)⟩, ?_⟩
  have hr : TimeAlias timeCycleModule.moduleBody.assignmentList (c! "UTCTime") :=
    ⟨_, _, .assigned _ _ _ (.assigned _ _ _ rfl (.done _ (by simp) (by simp)) (by simp)) (by simp), .inr rfl⟩
  refine C69_recursion_partial asciiCasing 5 int64Params timeCycleModule timeCycleFile rfl ?_ ?_ ?_ ?_
  · refine ⟨by decide, by decide, fun r hr => ?_, fun r hr => absurd hr (by simp [timeCycleModule, moduleOf, valueNames]), ?_, ?_⟩
    · have : r ∈ [c! "UTCTime"] := hr
      simp only [List.mem_singleton] at this
      subst this
      exact upperName_of ⟨_, _, rfl, by decide⟩ (by decide) (by decide) (by decide) (by decide) (by decide)
    all_goals
      intro r t nums hm hc
      simp only [timeCycleModule, moduleOf, List.mem_singleton, Assignment.type.injEq] at hm
      obtain ⟨rfl, rfl⟩ := hm
      cases hc
  · intro r t hm hs
    simp only [timeCycleModule, moduleOf, List.mem_singleton, Assignment.type.injEq] at hm
    obtain ⟨rfl, rfl⟩ := hm
    decide
  · intro a ha
    obtain ⟨y, -, t, hm, hh, hn⟩ := TransGen.tail'_iff.1 ha
    simp only [timeCycleModule, moduleOf, List.mem_singleton, Assignment.type.injEq] at hm
    obtain ⟨rfl, rfl⟩ := hm
    cases hh with
    | sequence _ _ x _ hx hh =>
      simp only [members, List.append_nil, List.filterMap_cons, List.filterMap_nil, List.mem_singleton] at hx
      subst hx
      cases hh
      exact hn hr
  · intro a ha
    obtain ⟨y, -, t, hm, -, hs, -⟩ := TransGen.tail'_iff.1 ha
    simp only [timeCycleModule, moduleOf, List.mem_singleton, Assignment.type.injEq] at hm
    obtain ⟨rfl, rfl⟩ := hm
    exact hs (.sequence _ _)

/-! ### C70: initial values have the types of their variables -/

/-- If all literal values of a module are of their types, all variables of the file have initial values of their types. -/
def C70_statement : Prop := ∀ (u : Casing) (fuel : Nat) (p : GenParams) (m : Module) (f : GoFile), generateFile u fuel p m = some (.ok f) →
  ValuesOk m.moduleBody.assignmentList → WellTyped f

/-- `x REAL ::= PLUS-INFINITY` -/
def infinityModule : Module := moduleOf 0 [.value (c! "x") .real (.real .posInf)]
/-- The file for it. -/
def infinityFile : GoFile := ⟨c! "My_Mod", [.var [⟨c! "ValX", .ident (c! "float64"), .real .posInf⟩]]⟩

theorem infinity_values : ValuesOk infinityModule.moduleBody.assignmentList where
  value := by
    intro r t v hm _
    simp only [infinityModule, moduleOf, List.mem_singleton, Assignment.value.injEq] at hm
    obtain ⟨rfl, rfl, rfl⟩ := hm
    exact .real _ (.core _ _ (.done _ (by simp) (by simp)) (by simp))
  number := by
    intro r t nums hm
    simp [infinityModule, moduleOf] at hm

/-- Infinities are written as `+Inf` and `-Inf`, which are no Go expressions. -/
theorem C70_false : ¬ C70_statement := fun h => by
  have := h asciiCasing 5 int64Params infinityModule infinityFile rfl infinity_values _ _ (List.mem_singleton.2 rfl) (List.mem_singleton.2 rfl)
  cases this with
  | real _ _ hf =>
    obtain ⟨log⟩ := mathLog10_exists
    obtain ⟨q, hq⟩ := hf log
    cases hq

/-- `x REAL ::= 1E309` -/
def overflowModule : Module := moduleOf 0 [.value (c! "x") .real (.real (.lit 1 0 309))]
/-- The file for it. -/
def overflowFile : GoFile := ⟨c! "My_Mod", [.var [⟨c! "ValX", .ident (c! "float64"), .real (.lit 1 0 309)⟩]]⟩

/-- A literal that is too large for float64 is written as `+Inf` as well. -/
theorem C70_overflow_false : generateFile asciiCasing 5 int64Params overflowModule = some (.ok overflowFile) ∧
    (∀ log, (GoReal.lit 1 0 309).float log = .inf false) ∧ ¬ WellTyped overflowFile := by
  have hinf : ∀ log, (GoReal.lit 1 0 309).float log = .inf false := fun log => by
    rw [GoReal.float, realFloat_over log (by norm_num) (by norm_num) (by norm_num) (by norm_num) (by norm_num)]
    rfl
  refine ⟨rfl, hinf, fun h => ?_⟩
  cases h _ _ (List.mem_singleton.2 rfl) (List.mem_singleton.2 rfl) with
  | real _ _ hf =>
    obtain ⟨log⟩ := mathLog10_exists
    obtain ⟨q, hq⟩ := hf log
    rw [hinf] at hq
    cases hq

/-- With integers as big.Int a REAL value written without fraction gets an initial value of the wrong type. -/
theorem C70_big_false : ∃ f, generateFile asciiCasing 5 bigParams bigModule = some (.ok f) ∧ ¬ WellTyped f := by
  refine ⟨bigFile, rfl, fun h => ?_⟩
  have := h _ _ (List.mem_singleton.2 rfl) (List.mem_singleton.2 rfl)
  cases this with
  | big _ n hd _ _ =>
    cases hd with
    | «alias» _ _ _ hd _ =>
      obtain ⟨specs, hm, _⟩ := hd
      simp [bigFile] at hm

/-- `GeneralizedTime ::= INTEGER`, `x GeneralizedTime ::= 5` -/
def timeModule : Module := moduleOf 0 [.type (c! "GeneralizedTime") (.integer []), .value (c! "x") (.ref (c! "GeneralizedTime")) (.number 5)]
/-- The file for it. -/
def timeFile : GoFile := ⟨c! "My_Mod", [.imp (c! "time"), .type [⟨c! "GeneralizedTime", true, .ident (c! "int64")⟩],
  .var [⟨c! "ValX", .ident (c! "time.Time"), .lit (c! "5")⟩]]⟩

theorem time_values : ValuesOk timeModule.moduleBody.assignmentList where
  value := by
    intro r t v hm _
    simp only [timeModule, moduleOf, List.mem_cons, List.not_mem_nil, or_false, Assignment.value.injEq, reduceCtorEq, false_or] at hm
    obtain ⟨rfl, rfl, rfl⟩ := hm
    exact .integer _ [] (.ref _ _ _ (c! "GeneralizedTime") (.done _ (by simp) (by simp)) rfl (.core _ _ (.done _ (by simp) (by simp)) (by simp)))
      (by unfold GoInt; decide)
  number := by
    intro r t nums hm hc
    simp only [timeModule, moduleOf, List.mem_cons, List.not_mem_nil, or_false, Assignment.type.injEq, reduceCtorEq] at hm
    obtain ⟨rfl, rfl⟩ := hm
    cases hc
    simp

/-- A module may assign a type to the name of a time type; references to it become `time.Time` all the same. -/
theorem C70_time_false : generateFile asciiCasing 5 int64Params timeModule = some (.ok timeFile) ∧
    ValuesOk timeModule.moduleBody.assignmentList ∧ ¬ WellTyped timeFile := by
  refine ⟨rfl, time_values, fun h => ?_⟩
  have no : ∀ {x}, Denotes timeFile (.ident (c! "time.Time")) x → x = .ident (c! "time.Time") := by
    intro x hx
    cases hx with
    | here => rfl
    | «alias» _ _ _ hd _ =>
      obtain ⟨specs, hm, hs⟩ := hd
      simp only [timeFile, List.mem_cons, GoDecl.type.injEq, List.not_mem_nil, or_false, reduceCtorEq, false_or] at hm
      subst hm
      simp at hs
  cases h [⟨c! "ValX", .ident (c! "time.Time"), .lit (c! "5")⟩] _ (by simp [timeFile]) (List.mem_singleton.2 rfl) with
  | int64 _ _ hx => exact absurd (no hx) (by simp)
  | float64 _ _ hx => exact absurd (no hx) (by simp)
  | bool _ hx => exact absurd (no hx) (by simp)

/-- If all literal values of a module are of their types, none of these is taken for a time, REAL values are finite float64s and,
with integers as big.Int, have a fraction or exponent, then all variables of the file have initial values of their types. -/
theorem C70_typed_partial (u : Casing) (fuel : Nat) (p : GenParams) (m : Module) (f : GoFile) (h : generateFile u fuel p m = some (.ok f))
    (hv : ValuesOk m.moduleBody.assignmentList)
    (htime : ∀ n t v, .value n t v ∈ m.moduleBody.assignmentList → Literal v → ¬ TimeTyped m.moduleBody.assignmentList t)
    (hreal : ∀ n t x, .value n t (.real x) ∈ m.moduleBody.assignmentList → FiniteReal x)
    (hbig : p.integerRepr = c! "big.Int" → ∀ n t k, .value n t (.number k) ∈ m.moduleBody.assignmentList → ¬ TypeIs m.moduleBody.assignmentList t .real) :
    WellTyped f := by
  obtain ⟨ds, -, -, h3, -, h5, h6⟩ := file_parts h
  exact fun specs s hd hs => well_typed h6 h3 hv htime hreal hbig specs s (h5 specs hd) hs

/-- C70, exactly: in a module with proper names whose literal values are of their types, all variables of the file have initial
values of their types if and only if no literal is of a type taken for a time, every REAL is a finite float64 and, with integers as
big.Int, no REAL is written as a whole number. -/
theorem C70_exact_partial (u : Casing) (fuel : Nat) (p : GenParams) (m : Module) (f : GoFile) (h : generateFile u fuel p m = some (.ok f))
    (hw : WellNamed u m.moduleBody.assignmentList) (hs : NoSetClash m.moduleBody.assignmentList)
    (hv : ValuesOk m.moduleBody.assignmentList) :
    WellTyped f ↔ (∀ n t v, .value n t v ∈ m.moduleBody.assignmentList → Literal v → ¬ TimeTyped m.moduleBody.assignmentList t) ∧
      (∀ n t x, .value n t (.real x) ∈ m.moduleBody.assignmentList → FiniteReal x) ∧
      (p.integerRepr = c! "big.Int" → ∀ n t k, .value n t (.number k) ∈ m.moduleBody.assignmentList → ¬ TypeIs m.moduleBody.assignmentList t .real) := by
  refine ⟨fun ht => ?_, fun ⟨h0, h1, h2⟩ => C70_typed_partial u fuel p m f h hv h0 h1 h2⟩
  obtain ⟨ds, -, -, h3, h4, -, h6⟩ := file_parts h
  refine ⟨fun n t v hm hl htt => ?_, fun n t x hm => ?_, fun hb n t k hm hti => ?_⟩
  · obtain ⟨ty, e, hd, hg, he⟩ := decls_value h6 hl hm
    have key : ∀ {x}, Denotes f ty x → x = .ident (c! "time.Time") := timeTyped_go hw h4 htt hg
    cases ht _ _ (h3 hd) (List.mem_singleton.2 rfl) with
    | int64 _ _ hx => exact absurd (key hx) (by simp)
    | float64 _ _ hx => exact absurd (key hx) (by simp)
    | real _ hx => exact absurd (key hx) (by simp)
    | bool _ hx => exact absurd (key hx) (by simp)
    | big _ _ hx => exact absurd (key hx) (by simp)
    | «variable» =>
      cases he with
      | number _ _ he =>
        obtain ⟨s, -, -, hs⟩ := he
        split at hs <;> cases hs
  · obtain ⟨ty, e, hd, -, he⟩ := decls_value h6 (v := .real x) trivial hm
    cases he
    cases ht _ _ (h3 hd) (List.mem_singleton.2 rfl) with
    | real _ _ hf => exact hf
  · obtain ⟨ty, e, hd, hg, he⟩ := decls_value h6 (v := .number k) trivial hm
    cases he with
    | number _ _ he =>
      obtain ⟨s, -, -, rfl⟩ := he
      have := ht _ _ (h3 hd) (List.mem_singleton.2 rfl)
      rw [if_pos hb] at this
      cases this with
      | big _ _ hden _ _ => exact real_no_star hw hs h4 hti rfl hg hden

/-! ### C71: generated files compile -/

/-- The file generated for a module that obeys the rules of ASN.1 obeys the rules of Go. -/
def C71_statement : Prop := ∀ (u : Casing) (fuel : Nat) (p : GenParams) (m : Module) (f : GoFile), generateFile u fuel p m = some (.ok f) →
  AsnOk u m.moduleBody.assignmentList → GoOk f

theorem raw_ok : AsnOk asciiCasing rawModule.moduleBody.assignmentList where
  named :=
    { types := by decide
      values := by decide
      typeName := by
        intro r hr
        simp only [rawModule, moduleOf, typeNames, List.filterMap_cons, List.filterMap_nil, List.mem_singleton] at hr
        subst hr
        exact upperName_of ⟨_, _, rfl, by decide⟩ (by decide) (by decide) (by decide) (by decide) (by decide)
      valueName := by simp [rawModule, moduleOf, valueNames]
      numbers := by
        intro r t nums hm hc
        simp only [rawModule, moduleOf, List.mem_singleton, Assignment.type.injEq] at hm
        obtain ⟨rfl, rfl⟩ := hm
        cases hc
      number := by
        intro r t nums hm hc
        simp only [rawModule, moduleOf, List.mem_singleton, Assignment.type.injEq] at hm
        obtain ⟨rfl, rfl⟩ := hm
        cases hc }
  undotted := by unfold Undotted; decide
  typeMembers := by
    intro n t hm a b hi
    simp only [rawModule, moduleOf, List.mem_singleton, Assignment.type.injEq] at hm
    obtain ⟨rfl, rfl⟩ := hm
    rcases hi with hi | hi <;> cases hi
  valueMembers := by simp [rawModule, moduleOf]
  values :=
    { value := by simp [rawModule, moduleOf]
      number := by
        intro r t nums hm hc
        simp only [rawModule, moduleOf, List.mem_singleton, Assignment.type.injEq] at hm
        obtain ⟨rfl, rfl⟩ := hm
        cases hc }

/-- The file for `A ::= CHOICE { a [0] BOOLEAN, b BOOLEAN }` uses a package it does not import. -/
theorem C71_false : ¬ C71_statement := fun h => by
  obtain ⟨path, hp, _⟩ := (h asciiCasing 5 int64Params rawModule rawFile rfl raw_ok).imported
    (c! "asn1.RawValue") (c! "asn1") ⟨_, List.mem_singleton.2 rfl, by decide⟩ (by decide)
  have := imports_mem.1 hp
  simp [importsOf, rawFile] at this

/-- It does when none of the known defects is met: no type contains itself, no type is named like a SET type followed by `SET`
or with `Val` in it, no literal is of a type taken for a time, every REAL is a finite float64, `asn1.RawValue` is used only where encoding/asn1 is
imported for something else, and with integers as big.Int there is an INTEGER type and no whole number for a REAL. -/
theorem C71_compiles_partial (u : Casing) (fuel : Nat) (p : GenParams) (m : Module) (f : GoFile) (h : generateFile u fuel p m = some (.ok f))
    (hl : AsnOk u m.moduleBody.assignmentList) (hs : NoSetClash m.moduleBody.assignmentList) (hn : NoValName m.moduleBody.assignmentList)
    (hh : ∀ a, ¬ TransGen (HoldsStep m.moduleBody.assignmentList) a a) (hm : ∀ a, ¬ TransGen (MentionsStep m.moduleBody.assignmentList) a a)
    (htime : ∀ n t v, .value n t v ∈ m.moduleBody.assignmentList → Literal v → ¬ TimeTyped m.moduleBody.assignmentList t)
    (hreal : ∀ n t x, .value n t (.real x) ∈ m.moduleBody.assignmentList → FiniteReal x)
    (hbig : p.integerRepr = c! "big.Int" → FileImports f (c! "math/big") ∧
      ∀ n t k, .value n t (.number k) ∈ m.moduleBody.assignmentList → ¬ TypeIs m.moduleBody.assignmentList t .real)
    (hraw : FileIdent f (c! "asn1.RawValue") → FileImports f (c! "encoding/asn1")) : GoOk f where
  names := by
    intro x hx
    rcases C66_declared_partial u fuel p m f h x hx with hx | hx | hx | ⟨n, t, nums, k, dv, h1, h2, h3, h4, -, h6⟩
    · exact .inl hx
    · exact .inr (.inl hx)
    · exact .inr (.inr hx)
    · rcases hl.values.number n t nums h1 h2 k h3 with ⟨n', hk, _⟩ | ⟨d, t', v, nums', hk, hmem, hlit, _⟩
      · rw [h4] at hk; cases hk
      · rw [h4] at hk; cases hk
        exact absurd hmem (h6 t' v hlit)
  once := C67_distinct_partial u fuel p m f h hl.named hs hn
  imported := by
    intro x q hx hq
    rcases C38_imported_partial u fuel p m f h hl.undotted x q hx hq with hp | rfl | ⟨rfl, hb⟩
    · exact hp
    · exact ⟨_, hraw hx, by rw [← Option.some.injEq, ← hq]; decide⟩
    · exact ⟨_, (hbig hb).1, by rw [← Option.some.injEq, ← hq]; decide⟩
  importedOnce := (C39_imports u fuel p m f h).1
  used := fun path hp => ((C39_imports u fuel p m f h).2 hl.undotted path hp).2
  fields := C68_fields u fuel p m f h hl.typeMembers hl.valueMembers
  recursion := C69_recursion_partial u fuel p m f h hl.named hs hh hm
  typed := C70_typed_partial u fuel p m f h hl.values htime hreal fun hb => (hbig hb).2

/-- An INTEGER value means that the type is INTEGER somewhere. -/
theorem integer_use {l : List MAssignment} {r : Str} (hr : r = c! "big.Int") {t c : MTy} (h : TypeIs l t c) :
    ∀ nums, c = .integer nums → Translated l t → TypeUse l r l (c! "big.Int") := by
  have here : ∀ {t c : MTy}, Core t c → Inside l t c := by
    intro t c hc
    induction hc with
    | tagged _ _ _ _ _ _ ih => exact .tagged _ _ _ _ _ ih
    | constrained _ _ _ _ ih => exact .constrained _ _ _ ih
    | done => exact .here _
  induction h with
  | core t c hc _ =>
    rintro nums rfl ht
    exact ⟨t, _, ht, here hc, .integer _ hr⟩
  | ref t t' c a hc ha _ ih => exact fun nums e _ => ih nums e (.inl ⟨a, List.mem_of_find?_eq_some ha⟩)

/-- C71, exactly: for a module that obeys the rules of ASN.1, the file obeys the rules of Go if and only if no two things of the
module get the same Go name, no type holds itself, no type mentions itself through aliases, no literal is of a type taken for a time,
every REAL is a finite float64, none is written as a whole number with integers as big.Int, and a CHOICE with a tagged alternative only occurs together
with a BIT STRING, an OBJECT IDENTIFIER or an ENUMERATED. -/
theorem C71_exact_partial (u : Casing) (fuel : Nat) (p : GenParams) (m : Module) (f : GoFile) (h : generateFile u fuel p m = some (.ok f))
    (hl : AsnOk u m.moduleBody.assignmentList) :
    GoOk f ↔ NamesApart u m.moduleBody.assignmentList ∧ (∀ a, ¬ TransGen (HoldsStep m.moduleBody.assignmentList) a a) ∧
      (∀ a, ¬ TransGen (MentionsStep m.moduleBody.assignmentList) a a) ∧
      (∀ n t v, .value n t v ∈ m.moduleBody.assignmentList → Literal v → ¬ TimeTyped m.moduleBody.assignmentList t) ∧
      (∀ n t x, .value n t (.real x) ∈ m.moduleBody.assignmentList → FiniteReal x) ∧
      (p.integerRepr = c! "big.Int" → ∀ n t k, .value n t (.number k) ∈ m.moduleBody.assignmentList → ¬ TypeIs m.moduleBody.assignmentList t .real) ∧
      (TypeUse m.moduleBody.assignmentList p.integerRepr m.moduleBody.assignmentList (c! "asn1.RawValue") →
        ∃ x ∈ [c! "asn1.BitString", c! "asn1.ObjectIdentifier", c! "asn1.Enumerated"],
          TypeUse m.moduleBody.assignmentList p.integerRepr m.moduleBody.assignmentList x) := by
  have hw := hl.named
  have huses := C38_uses u fuel p m f h hw hl.undotted
  have hasn1 := C38_asn1_exact_partial u fuel p m f h hw hl.undotted
  constructor
  · intro hg
    have hna := (C67_exact_partial u fuel p m f h hw).1 hg.once
    have hs := namesApart_set hw hna
    obtain ⟨h1, h2⟩ := (C69_exact_partial u fuel p m f h hw hs).1 hg.recursion
    obtain ⟨h0, h3, h4⟩ := (C70_exact_partial u fuel p m f h hw hs hl.values).1 hg.typed
    refine ⟨hna, h1, h2, h0, h3, h4, fun hr => hasn1.1 ?_⟩
    exact hg.imported _ _ ((huses _ (by decide)).2 (.inl hr)) (by decide)
  · rintro ⟨hna, h1, h2, h0, h3, h4, h5⟩
    have hs := namesApart_set hw hna
    refine ⟨?_, (C67_exact_partial u fuel p m f h hw).2 hna, ?_, (C39_imports u fuel p m f h).1,
      fun path hp => ((C39_imports u fuel p m f h).2 hl.undotted path hp).2, C68_fields u fuel p m f h hl.typeMembers hl.valueMembers,
      (C69_exact_partial u fuel p m f h hw hs).2 ⟨h1, h2⟩, (C70_exact_partial u fuel p m f h hw hs hl.values).2 ⟨h0, h3, h4⟩⟩
    · intro x hx
      rcases C66_declared_partial u fuel p m f h x hx with hx | hx | hx | ⟨n, t, nums, k, dv, h1, h2, h3, h4, -, h6⟩
      · exact .inl hx
      · exact .inr (.inl hx)
      · exact .inr (.inr hx)
      · rcases hl.values.number n t nums h1 h2 k h3 with ⟨n', hk, _⟩ | ⟨d, t', v, nums', hk, hmem, hlit, _⟩
        · rw [h4] at hk; cases hk
        · rw [h4] at hk; cases hk
          exact absurd hmem (h6 t' v hlit)
    · intro x q hx hq
      rcases C38_imported_partial u fuel p m f h hl.undotted x q hx hq with hp | rfl | ⟨rfl, hb⟩
      · exact hp
      · rcases (huses _ (by decide)).1 hx with hx | ⟨hx, _⟩
        · have := hasn1.2 (h5 hx)
          rw [show q = c! "asn1" by rw [← Option.some.injEq, ← hq]; decide]
          exact this
        · exact absurd hx (by decide)
      · rcases (huses _ (by decide)).1 hx with ⟨_, _, _, _, hx⟩ | ⟨-, -, hx⟩
        · cases hx
        · have hint : TypeUse m.moduleBody.assignmentList p.integerRepr m.moduleBody.assignmentList (c! "big.Int") := by
            rcases hx with ⟨n, t, k, hm⟩ | ⟨n, t, nums, y, k, hm, hc, -⟩
            · cases hl.values.value n t _ hm trivial with
              | integer _ nums hti _ => exact integer_use hb hti nums rfl (.inr ⟨n, _, hm, trivial⟩)
              | whole _ hti _ => exact absurd hti (h4 hb n t k hm)
            · exact integer_use hb (.core _ _ hc (by simp)) nums rfl (.inl ⟨n, hm⟩)
          have := (C38_exact_partial u fuel p m f h hl.undotted (c! "big")).2 ⟨c! "big.Int", (huses _ (by decide)).2 (.inl hint), by decide, by decide, by decide⟩
          rw [show q = c! "big" by rw [← Option.some.injEq, ← hq]; decide]
          exact this

/-! A module that meets all conditions: the one of Verif/Props/Codegen.lean, with numbered type, record, SET OF, time, value. -/

theorem demo_named : WellNamed asciiCasing demo.moduleBody.assignmentList where
  types := by decide
  values := by decide
  typeName := by
    intro r hr
    have : r ∈ [c! "Version", c! "Rec", c! "Names", c! "Time"] := hr
    simp only [List.mem_cons, List.not_mem_nil, or_false] at this
    rcases this with rfl | rfl | rfl | rfl <;>
      exact upperName_of ⟨_, _, rfl, by decide⟩ (by decide) (by decide) (by decide) (by decide) (by decide)
  valueName := by
    intro r hr
    have : r ∈ [c! "three"] := hr
    simp only [List.mem_singleton] at this
    subst this
    exact lowerName_of ⟨_, _, rfl, by decide⟩ (by decide) (by decide) (by decide) (by decide) (by decide)
  numbers := by
    intro r t nums hm hc
    simp only [demo, moduleOf, List.mem_cons, Assignment.type.injEq, List.not_mem_nil, or_false, reduceCtorEq] at hm
    rcases hm with ⟨rfl, rfl⟩ | ⟨rfl, rfl⟩ | ⟨rfl, rfl⟩ | ⟨rfl, rfl⟩
    · cases hc; decide
    · cases hc
    · cases hc
    · cases hc with
      | tagged _ _ _ _ _ hc => cases hc
  number := by
    intro r t nums hm hc n hn
    simp only [demo, moduleOf, List.mem_cons, Assignment.type.injEq, List.not_mem_nil, or_false, reduceCtorEq] at hm
    rcases hm with ⟨rfl, rfl⟩ | ⟨rfl, rfl⟩ | ⟨rfl, rfl⟩ | ⟨rfl, rfl⟩
    · cases hc
      simp only [List.mem_cons, List.not_mem_nil, or_false] at hn
      rcases hn with rfl | rfl <;>
        exact lowerName_of ⟨_, _, rfl, by decide⟩ (by decide) (by decide) (by decide) (by decide) (by decide)
    · cases hc
    · cases hc
    · cases hc with
      | tagged _ _ _ _ _ hc => cases hc

/-- The components of the record. -/
theorem demo_members {x : Member} (h : x ∈ members (demoComponents ++ [comp (c! "when") (.ref (c! "Time"))])) :
    x.type = tag CLASS_CONTEXT_SPECIFIC 0 (.integer []) ∨ x.type = tag CLASS_APPLICATION 3 (.restrictedString Tok.IA5String) ∨
      x.type = .integer [] ∨ x.type = .ref (c! "Time") := by
  simp only [demoComponents, comp, members, List.cons_append, List.nil_append, List.filterMap_cons, List.filterMap_nil, List.mem_cons, List.not_mem_nil, or_false] at h
  rcases h with rfl | rfl | rfl | rfl <;> simp

theorem demo_ok : AsnOk asciiCasing demo.moduleBody.assignmentList where
  named := demo_named
  undotted := by unfold Undotted; decide
  typeMembers := by
    intro n t hm a b hi
    simp only [demo, moduleOf, List.mem_cons, Assignment.type.injEq, List.not_mem_nil, or_false, reduceCtorEq] at hm
    rcases hm with ⟨rfl, rfl⟩ | ⟨rfl, rfl⟩ | ⟨rfl, rfl⟩ | ⟨rfl, rfl⟩
    · rcases hi with hi | hi <;> cases hi
    · have hno : ∀ t', (t' = .sequence a b ∨ t' = .set a b) → ∀ x ∈ members (demoComponents ++ [comp (c! "when") (.ref (c! "Time"))]),
          ¬ Inside demo.moduleBody.assignmentList x.type t' := by
        intro t' ht x hx hi
        rcases demo_members hx with h | h | h | h <;> rw [h] at hi <;> rcases ht with rfl | rfl <;> cases hi <;> rename_i hi <;> cases hi
      rcases hi with hi | hi
      · cases hi with
        | here =>
          refine ⟨by decide, fun x hx => ?_⟩
          simp only [demoComponents, comp, members, List.cons_append, List.nil_append, List.filterMap_cons, List.filterMap_nil, List.mem_cons, List.not_mem_nil, or_false] at hx
          rcases hx with rfl | rfl | rfl | rfl <;>
            exact lowerName_of ⟨_, _, rfl, by decide⟩ (by decide) (by decide) (by decide) (by decide) (by decide)
        | sequence _ _ x _ hx hi => exact absurd hi (hno _ (.inl rfl) x hx)
      · cases hi with
        | sequence _ _ x _ hx hi => exact absurd hi (hno _ (.inr rfl) x hx)
    · rcases hi with hi | hi <;> cases hi <;> rename_i hi <;> cases hi
    · rcases hi with hi | hi <;> cases hi <;> rename_i hi <;> cases hi
  valueMembers := by
    intro n t v hm a b hi
    simp only [demo, moduleOf, List.mem_cons, Assignment.value.injEq, List.not_mem_nil, or_false, reduceCtorEq, false_or] at hm
    obtain ⟨rfl, rfl, rfl⟩ := hm
    rcases hi with hi | hi <;> cases hi
  values :=
    { value := by
        intro r t v hm _
        simp only [demo, moduleOf, List.mem_cons, Assignment.value.injEq, List.not_mem_nil, or_false, reduceCtorEq, false_or] at hm
        obtain ⟨rfl, rfl, rfl⟩ := hm
        exact .integer _ [⟨c! "v1", .number 0⟩, ⟨c! "v2", .number 1⟩]
          (.ref _ _ _ (c! "Version") (.done _ (by simp) (by simp)) rfl (.core _ _ (.done _ (by simp) (by simp)) (by simp))) (by unfold GoInt; decide)
      number := by
        intro r t nums hm hc n hn
        simp only [demo, moduleOf, List.mem_cons, Assignment.type.injEq, List.not_mem_nil, or_false, reduceCtorEq] at hm
        rcases hm with ⟨rfl, rfl⟩ | ⟨rfl, rfl⟩ | ⟨rfl, rfl⟩ | ⟨rfl, rfl⟩
        · cases hc
          simp only [List.mem_cons, List.not_mem_nil, or_false] at hn
          rcases hn with rfl | rfl
          · exact .inl ⟨_, rfl, by unfold GoInt; decide⟩
          · exact .inl ⟨_, rfl, by unfold GoInt; decide⟩
        · cases hc
        · cases hc
        · cases hc with
          | tagged _ _ _ _ _ hc => cases hc }

/-- References go from the record to the time and on to GeneralizedTime. -/
def demoRank (a : Str) : Nat := if a = c! "GeneralizedTime" then 2 else if a = c! "Time" then 1 else 0

theorem acyclic {r : Str → Str → Prop} (h : ∀ a b, r a b → demoRank a < demoRank b) (a : Str) : ¬ TransGen r a a := fun ha => by
  have : ∀ b, TransGen r a b → demoRank a < demoRank b := fun b hb => by
    induction hb with
    | single h1 => exact h _ _ h1
    | tail _ h1 ih => exact ih.trans (h _ _ h1)
  exact absurd (this a ha) (Nat.lt_irrefl _)

theorem demo_holds (a b : Str) (h : HoldsStep demo.moduleBody.assignmentList a b) : demoRank a < demoRank b := by
  obtain ⟨t, hm, hh, -⟩ := h
  simp only [demo, moduleOf, List.mem_cons, Assignment.type.injEq, List.not_mem_nil, or_false, reduceCtorEq] at hm
  rcases hm with ⟨rfl, rfl⟩ | ⟨rfl, rfl⟩ | ⟨rfl, rfl⟩ | ⟨rfl, rfl⟩
  · cases hh
  · cases hh with
    | sequence _ _ x _ hx hh =>
      rcases demo_members hx with h | h | h | h <;> rw [h] at hh
      · cases hh; rename_i hh; cases hh
      · cases hh; rename_i hh; cases hh
      · cases hh
      · cases hh; decide
  · cases hh
  · cases hh; rename_i hh; cases hh; decide

theorem demo_mentions (a b : Str) (h : MentionsStep demo.moduleBody.assignmentList a b) : demoRank a < demoRank b := by
  obtain ⟨t, hm, hs, hl, hh, -⟩ := h
  simp only [demo, moduleOf, List.mem_cons, Assignment.type.injEq, List.not_mem_nil, or_false, reduceCtorEq] at hm
  rcases hm with ⟨rfl, rfl⟩ | ⟨rfl, rfl⟩ | ⟨rfl, rfl⟩ | ⟨rfl, rfl⟩
  · cases hh
  · exact absurd (.sequence _ _) hl
  · cases hh; rename_i hh; cases hh
  · cases hh; rename_i hh; cases hh; decide

/-- The type of the value leads to `Version`, no time. -/
theorem demo_times : ∀ n t v, .value n t v ∈ demo.moduleBody.assignmentList → Literal v → ¬ TimeTyped demo.moduleBody.assignmentList t := by
  rintro n t v hm - ⟨a, hc, b, t', hr, hn⟩
  simp only [demo, moduleOf, List.mem_cons, Assignment.value.injEq, List.not_mem_nil, or_false, reduceCtorEq, false_or] at hm
  obtain ⟨rfl, rfl, rfl⟩ := hm
  cases hc
  have h : Resolves demo.moduleBody.assignmentList (c! "Version") (c! "Version") (.integer [⟨c! "v1", .number 0⟩, ⟨c! "v2", .number 1⟩]) :=
    .assigned _ _ _ (.assigned _ _ _ rfl (.done _ (by simp) (by simp)) (by simp)) (by simp)
  obtain ⟨rfl, rfl⟩ := resolves_unique hr h
  revert hn
  simp [TimeName]

/-- All conditions of C66 to C71 are met by this module. -/
theorem C71_demo : GoOk demoFile :=
  C71_compiles_partial asciiCasing 6 int64Params demo demoFile demo_file demo_ok
    (by
      intro r t hm _
      simp only [demo, moduleOf, List.mem_cons, Assignment.type.injEq, List.not_mem_nil, or_false, reduceCtorEq] at hm
      rcases hm with ⟨rfl, rfl⟩ | ⟨rfl, rfl⟩ | ⟨rfl, rfl⟩ | ⟨rfl, rfl⟩ <;> decide)
    (by unfold NoValName; decide)
    (acyclic demo_holds) (acyclic demo_mentions)
    demo_times
    (by
      intro n t x hm
      simp [demo, moduleOf] at hm)
    (by intro h; exact absurd h (by decide))
    (by
      rintro ⟨d, hd, hx⟩
      exact absurd hx ((by decide : ∀ d ∈ demoFile.decls, c! "asn1.RawValue" ∉ declIdents d) d hd))

/-- The hypotheses of C71_exact_partial are met, and so are its conditions. -/
example : NamesApart asciiCasing demo.moduleBody.assignmentList :=
  ((C71_exact_partial asciiCasing 6 int64Params demo demoFile demo_file demo_ok).1 C71_demo).1

/-- The module with a tagged alternative meets the hypotheses but not the last condition. -/
example : TypeUse rawModule.moduleBody.assignmentList (c! "int64") rawModule.moduleBody.assignmentList (c! "asn1.RawValue") :=
  ⟨_, _, .inl ⟨c! "A", List.mem_singleton.2 rfl⟩, .here _, .rawChoice _ _ ⟨_, _, List.mem_cons_self, .tagged _ _ _ _⟩⟩

end Asn1go.Props
